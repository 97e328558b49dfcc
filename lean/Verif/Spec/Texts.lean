import Verif.Spec.Station
import Verif.Spec.RadioText

/-
The text fields of a station: what each group does to them (IEC 62106).
-/

namespace Redsea.Spec

/-- What happens in a sequence of groups; `f` tells what happens in a group, given the groups before
it. -/
def historyFrom {α : Type} (f : List Group → Group → List α) (before : List Group) :
    List Group → List α
  | [] => []
  | g :: gs => f before g ++ historyFrom f (before ++ [g]) gs

def history {α : Type} (f : List Group → Group → List α) (gs : List Group) : List α :=
  historyFrom f [] gs

/-- Reception of the two characters of a word. -/
def twoChars (pos : Nat) (w : Word) : List TextOp :=
  [.recv pos (hiByte w), .recv (pos + 1) (loByte w)]

/-- Programme service name: two characters in block 4 of a type 0 group, with a segment address of 2
bits. The receiver only uses groups with both block 3 and 4. -/
def psOps (_ : List Group) (g : Group) : List TextOp :=
  if g.hasType ∧ (g.type = ⟨0, .A⟩ ∨ g.type = ⟨0, .B⟩) ∧ RtUsable g then
    twoChars (2 * (g.block2.data.toNat % 4)) g.block4.data
  else []

/-- A group that carries four characters of the programme type name. -/
def ptyNameGroup (g : Group) : Bool := g.hasType && decide (g.type = ⟨10, .A⟩) && RtUsable g

/-- The A/B flag of the latest group of a kind; at first, the flag is A. -/
def lastFlag (kind : Group → Bool) (gs : List Group) : Bool :=
  (((gs.filter kind).getLast?).map rtFlag).getD false

/-- Programme type name: four characters in blocks 3 and 4 of a 10A group, with a segment address of 1
bit; a change of the A/B flag clears the text. -/
def ptyNameOps (before : List Group) (g : Group) : List TextOp :=
  if ptyNameGroup g then
    (if rtFlag g != lastFlag ptyNameGroup before then [.clear] else []) ++
      twoChars (4 * (g.block2.data.toNat % 2)) g.block3.data ++
      twoChars (4 * (g.block2.data.toNat % 2) + 2) g.block4.data
  else []

/-- Long programme service name: four bytes in blocks 3 and 4 of a 15A group, with a segment address
of 3 bits; unless 15A is used for an open data application. -/
def longPsOps (before : List Group) (g : Group) : List TextOp :=
  if g.hasType ∧ g.type = ⟨15, .A⟩ ∧ assignedApp before g.type = none then
    (if g.block3.isReceived then twoChars (4 * (g.block2.data.toNat % 8)) g.block3.data else []) ++
    (if g.block4.isReceived then twoChars (4 * (g.block2.data.toNat % 8) + 2) g.block4.data else [])
  else []

/-- A group of an open data application. -/
def appGroup (app : Word) (before : List Group) (g : Group) : Bool :=
  g.hasType && decide (g.type.version ≠ .C) && decide (g.type ∉ fixedTypes) &&
    decide (assignedApp before g.type = some app)

/-- A group with characters of the RadioText. -/
def rtGroup (g : Group) : Bool :=
  g.hasType && decide (g.type = ⟨2, .A⟩ ∨ g.type = ⟨2, .B⟩) && RtUsable g

/-- The item toggle and item running bits of a RadioText Plus group. -/
def plusFlags (g : Group) : Bool × Bool :=
  (g.block2.data.toNat / 16 % 2 == 1, g.block2.data.toNat / 8 % 2 == 1)

/-- The flags in the latest group of RadioText Plus (application `app`); at first, both are off. -/
def lastPlus (app : Word) (gs : List Group) : Bool × Bool :=
  ((history (fun before g => if appGroup app before g then [plusFlags g] else []) gs).getLast?).getD
    (false, false)

/-- RadioText: characters of type 2 groups; it is cleared by a change of its A/B flag, and by a change
of the flags of RadioText Plus (a new item). -/
def radiotextOps (before : List Group) (g : Group) : List TextOp :=
  if rtGroup g then
    (if rtFlag g != lastFlag rtGroup before then [.clear] else []) ++
      (rtReceptions g).map fun x => .recv x.1 x.2
  else if appGroup 0x4BD7 before g then (if plusFlags g ≠ lastPlus 0x4BD7 before then [.clear] else [])
  else []

/-- Size of a RadioText. -/
def rtLength (g : Group) : Nat := if rtIsA g then 64 else 32

/-- Enhanced RadioText: four bytes in blocks 3 and 4 of a group of application 0x6552, with a segment
address of 5 bits. It is cleared by a change of the flags of its RadioText Plus. -/
def ertOps (before : List Group) (g : Group) : List TextOp :=
  if appGroup 0x6552 before g then
    (if g.block3.isReceived then twoChars (4 * (g.block2.data.toNat % 32)) g.block3.data else []) ++
    (if g.block4.isReceived then twoChars (4 * (g.block2.data.toNat % 32) + 2) g.block4.data else [])
  else if appGroup 0x4BD8 before g then (if plusFlags g ≠ lastPlus 0x4BD8 before then [.clear] else [])
  else []

/-- The encoding announced for enhanced RadioText: UTF-8 (as opposed to UCS-2). -/
def ertAnnounced (g : Group) : Option Bool :=
  if g.hasType ∧ g.type = ⟨3, .A⟩ ∧ RtUsable g ∧ g.block4.data = 0x6552 then
    some (g.block3.data.toNat % 2 == 1)
  else none

end Redsea.Spec
