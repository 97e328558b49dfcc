import Verif.Model.Bits

/-
What a received text should be, in terms of the history of receptions.
-/

namespace Redsea.Spec

/-- Something that happens to one text field. -/
inductive TextOp where
  /-- byte `b` is received for position `pos` -/
  | recv (pos : Nat) (b : Byte)
  /-- the text is cleared (e.g. A/B flag change) -/
  | clear
  deriving DecidableEq, Repr

/-- In the history `h`, `b` is the byte latest received for position `i`, and it was received
at or after the most recent reception of position 0 and after the most recent clear. -/
def LatestByte (h : List TextOp) (i : Nat) (b : Byte) : Prop :=
  ∃ h1 h2, h = h1 ++ TextOp.recv i b :: h2 ∧
    ∀ op ∈ h2, op ≠ .clear ∧ ∀ c, op ≠ .recv i c ∧ op ≠ .recv 0 c

/-- How a received byte is shown: string terminators and zero bytes as blanks. -/
def display (b : Byte) : Byte := if b = 0x0D ∨ b = 0 then 0x20 else b

/-- `bs` is a whole text for a field of `n` characters: it fills the field or ends with the
string terminator 0x0D, and has no terminator before its end. -/
def WholeText (n : Nat) (bs : List Byte) : Prop :=
  0 < bs.length ∧ bs.length ≤ n ∧ (bs.length = n ∨ bs.getLast? = some 0x0D) ∧
    (0x0D : Byte) ∉ bs.dropLast

/-- Reception of the bytes `bs` at positions `k`, `k+1`, ... -/
def inOrder (k : Nat) : List Byte → List TextOp
  | [] => []
  | b :: bs => .recv k b :: inOrder (k + 1) bs

end Redsea.Spec
