import Verif.Model.Station

/-
The members that every line has, whatever its group carries; and groups of unknown applications.
-/

namespace Redsea.Spec

/-- A block in hexadecimal; dashes if it was not received. -/
def blockText (b : Block) : Str := if b.isReceived = true then hexPadded 4 b.data.toNat else ascii "----"

/-- A group in hexadecimal. -/
def groupText (g : Group) : Str :=
  blockText g.block1 ++ ascii " " ++ blockText g.block2 ++ ascii " " ++ blockText g.block3 ++ ascii " " ++
    blockText g.block4

/-- The 37 bits for an application: 5 bits of block 2 with two digits, blocks 3 and 4. -/
def applicationText (g : Group) : Str :=
  hexPadded 2 (g.block2.data.toNat % 32) ++ ascii " " ++ blockText g.block3 ++ ascii " " ++ blockText g.block4

/-- Applications with a decoder of their own: DAB, RT+, RT+ for eRT, eRT, TMC. -/
def knownApps : List Word := [0x0093, 0x4BD7, 0x4BD8, 0x6552, 0xCD46, 0xCD47]

/-- A group type that has a use of its own if no application is announced for it: 5A, 5B, 6A, 6B, 7A, 8A, 9A, 15A. -/
def ownUse (t : GroupType) : Prop :=
  t.number = 5 ∨ t.number = 6 ∨ t = ⟨7, .A⟩ ∨ t = ⟨8, .A⟩ ∨ t = ⟨9, .A⟩ ∨ t = ⟨15, .A⟩

end Redsea.Spec
