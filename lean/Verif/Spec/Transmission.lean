import Verif.Spec.Stream

/-
Specification of an RDS transmission: groups of four encoded blocks.
-/

namespace Spec

/-- A group as transmitted: four data words; `cprime` says that the third block carries
offset word C' (version B groups). -/
structure TxGroup where
  d1 : BitVec 16
  d2 : BitVec 16
  d3 : BitVec 16
  d4 : BitVec 16
  cprime : Bool
  deriving DecidableEq, Repr

/-- Offset word of the third block. -/
def TxGroup.third (t : TxGroup) : OffsetName := if t.cprime then .Cprime else .C

/-- The 104 transmitted bits. -/
def TxGroup.bits (t : TxGroup) : List Bool :=
  bitsMSB (encode t.d1 .A) ++ bitsMSB (encode t.d2 .B) ++
    bitsMSB (encode t.d3 t.third) ++ bitsMSB (encode t.d4 .D)

/-- Channel errors in the four blocks of a group. -/
structure Damage where
  e1 : BitVec 26 := 0
  e2 : BitVec 26 := 0
  e3 : BitVec 26 := 0
  e4 : BitVec 26 := 0
  deriving DecidableEq, Repr

/-- The 104 received bits of a damaged group. -/
def TxGroup.damagedBits (t : TxGroup) (e : Damage) : List Bool :=
  bitsMSB (encode t.d1 .A ^^^ e.e1) ++ bitsMSB (encode t.d2 .B ^^^ e.e2) ++
    bitsMSB (encode t.d3 t.third ^^^ e.e3) ++ bitsMSB (encode t.d4 .D ^^^ e.e4)

/-- No error, or a correctable burst. -/
def Mild (e : BitVec 26) : Prop := e = 0 ∨ IsBurst e

/-- 0 for an undamaged block, 1 for a damaged one. -/
def hit (e : BitVec 26) : Nat := if e = 0 then 0 else 1

/-- Damage flags of a group in transmission order. -/
def Damage.hits (e : Damage) : List Nat := [hit e.e1, hit e.e2, hit e.e3, hit e.e4]

end Spec
