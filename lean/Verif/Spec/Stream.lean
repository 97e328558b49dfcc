import Verif.Spec.RdsCode

/-
Specification vocabulary for bit streams.
-/

namespace Spec

/-- The last 26 bits of `bs` are the 26 bits of `w`, most significant bit first. -/
def EndsWith (bs : List Bool) (w : BitVec 26) : Prop :=
  ∃ pre, bs = pre ++ bitsMSB w

/-- Position of a block within its group (0..3) by offset word. -/
def OffsetName.index : OffsetName → Nat
  | .A => 0
  | .B => 1
  | .C => 2
  | .Cprime => 2
  | .D => 3

end Spec
