import Verif.Spec.RdsCode

/-
The power of error detection of the block code, as promised by the standard (IEC 62106 annex B): all single and double
bit errors, every burst that spans at most 10 bits, and all but one in 512 of the bursts that span 11 bits.
-/

namespace Spec

/-- All wrong bits lie within `n` consecutive bits, from bit `i` on. -/
def Within (i n : Nat) (e : BitVec 26) : Prop := ∀ k, e.getLsbD k = true → i ≤ k ∧ k < i + n

/-- All wrong bits lie within `n` consecutive bits somewhere in the block. -/
def SpansAtMost (n : Nat) (e : BitVec 26) : Prop := ∃ i, i + n ≤ 26 ∧ Within i n e

/-- Exactly `n` of the possible 26-bit words have the property. -/
def HasCount (P : BitVec 26 → Prop) (n : Nat) : Prop :=
  ∃ l : List (BitVec 26), l.Nodup ∧ (∀ w, w ∈ l ↔ P w) ∧ l.length = n

end Spec
