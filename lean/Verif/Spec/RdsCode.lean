/-
Specification of the RDS block code, written from the standard (IEC 62106 annex B /
EN 50067 annex B), independently of the decoder model: schoolbook polynomial division
and the table of offset words.
-/

namespace Spec

/-- The five offset words of RDS. -/
inductive OffsetName where
  | A | B | C | Cprime | D
  deriving DecidableEq, Repr

/-- Values d9..d0 of the offset words (IEC 62106 table B.1). -/
def OffsetName.word : OffsetName → BitVec 10
  | .A => 0b0011111100
  | .B => 0b0110011000
  | .C => 0b0101101000
  | .Cprime => 0b1101010000
  | .D => 0b0110110100

/-- Generator polynomial g(x) = x^10 + x^8 + x^7 + x^5 + x^4 + x^3 + 1. -/
def generator : BitVec 26 :=
  BitVec.twoPow 26 10 ^^^ BitVec.twoPow 26 8 ^^^ BitVec.twoPow 26 7 ^^^ BitVec.twoPow 26 5 ^^^
    BitVec.twoPow 26 4 ^^^ BitVec.twoPow 26 3 ^^^ BitVec.twoPow 26 0

/-- Schoolbook division of a polynomial of degree < 10 + n by `generator`: cancel the
coefficients of x^(10+n-1), ..., x^10 one after the other. -/
def polyRem : Nat → BitVec 26 → BitVec 26
  | 0, v => v
  | n + 1, v => polyRem n (if v.getLsbD (10 + n) then v ^^^ (generator <<< n) else v)

/-- A block: 16 information bits followed by 10 check bits. -/
def mkBlock (data : BitVec 16) (check : BitVec 10) : BitVec 26 := data ++ check

/-- Checkword: remainder of m(x)·x^10 divided by g(x). -/
def checkword (data : BitVec 16) : BitVec 10 :=
  (polyRem 16 (mkBlock data 0)).setWidth 10

/-- The 26 bits transmitted for a data word with the given offset word; most significant
bit first on air. -/
def encode (data : BitVec 16) (o : OffsetName) : BitVec 26 :=
  mkBlock data (checkword data ^^^ o.word)

/-- Error patterns considered correctable: one wrong bit, or two adjacent wrong bits. -/
inductive IsBurst : BitVec 26 → Prop
  | single (i : Nat) (h : i < 26) : IsBurst (BitVec.twoPow 26 i)
  | double (i : Nat) (h : i + 1 < 26) : IsBurst (BitVec.twoPow 26 i ^^^ BitVec.twoPow 26 (i + 1))

/-- On-air bit order: most significant bit first. -/
def bitsMSB (w : BitVec 26) : List Bool :=
  (List.range 26).map fun i => w.getMsbD i

/-- Transmission order of the offset words; the third block of a group uses C' in
version B groups. -/
def blockOffset (versionB : Bool) : Fin 4 → OffsetName
  | 0 => .A
  | 1 => .B
  | 2 => if versionB then .Cprime else .C
  | 3 => .D

end Spec
