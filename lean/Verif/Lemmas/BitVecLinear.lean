/-
XOR-additive functions on bit vectors are determined by their values on single bits.
-/

namespace Redsea

/-- XOR-additivity. -/
def XorAdditive {n m : Nat} (f : BitVec n → BitVec m) : Prop :=
  ∀ a b, f (a ^^^ b) = f a ^^^ f b

theorem XorAdditive.zero {n m : Nat} {f : BitVec n → BitVec m} (h : XorAdditive f) :
    f 0#n = 0#m := by
  have := h 0#n 0#n
  simpa using this

theorem XorAdditive.comp {n m k : Nat} {f : BitVec m → BitVec k} {g : BitVec n → BitVec m}
    (hf : XorAdditive f) (hg : XorAdditive g) : XorAdditive (fun x => f (g x)) := by
  intro a b; simp only [hg a b, hf _ _]

theorem XorAdditive.xor {n m : Nat} {f g : BitVec n → BitVec m}
    (hf : XorAdditive f) (hg : XorAdditive g) : XorAdditive (fun x => f x ^^^ g x) := by
  intro a b
  simp only [hf a b, hg a b]
  ac_rfl

theorem low_succ {n : Nat} (w : BitVec n) (k : Nat) :
    (w.setWidth (k + 1)).setWidth n =
      (w.setWidth k).setWidth n ^^^ (if w.getLsbD k then BitVec.twoPow n k else 0#n) := by
  apply BitVec.eq_of_getLsbD_eq
  intro i hi
  by_cases hik : i = k
  · subst hik
    cases hb : w.getLsbD i <;>
      simp only [BitVec.getLsbD_xor, BitVec.getLsbD_setWidth, hb, hi] <;> simp [hi]
  · by_cases hb : w.getLsbD k = true
    · simp only [hb, if_true, BitVec.getLsbD_xor, BitVec.getLsbD_setWidth, BitVec.getLsbD_twoPow]
      have : decide (k = i) = false := by simp; omega
      simp only [hi, this, decide_true, Bool.true_and, Bool.and_false, Bool.xor_false]
      congr 1
      simp; omega
    · simp only [hb, BitVec.getLsbD_xor, BitVec.getLsbD_setWidth]
      simp only [hi, decide_true, Bool.true_and]
      simp
      by_cases hk : i < k
      · simp [hk]; intro; omega
      · have : ¬ i < k + 1 := by omega
        simp [hk, this]

/-- Two XOR-additive functions agreeing on all single-bit vectors are equal. -/
theorem XorAdditive.ext {n m : Nat} {f g : BitVec n → BitVec m}
    (hf : XorAdditive f) (hg : XorAdditive g)
    (h : ∀ i, i < n → f (BitVec.twoPow n i) = g (BitVec.twoPow n i)) : ∀ w, f w = g w := by
  intro w
  have key : ∀ k, k ≤ n → f ((w.setWidth k).setWidth n) = g ((w.setWidth k).setWidth n) := by
    intro k
    induction k with
    | zero =>
      intro _
      have : (w.setWidth 0).setWidth n = 0#n := by
        apply BitVec.eq_of_getLsbD_eq; intro i hi; simp
      rw [this, hf.zero, hg.zero]
    | succ k ih =>
      intro hk
      rw [low_succ, hf, hg, ih (by omega)]
      congr 1
      split
      · exact h k (by omega)
      · rw [hf.zero, hg.zero]
  have := key n (Nat.le_refl n)
  simpa using this

/-- An XOR-additive function vanishing on all single-bit vectors of a lower width. -/
theorem xorAdditive_setWidth (n m : Nat) : XorAdditive (fun w : BitVec n => w.setWidth m) := by
  intro a b
  apply BitVec.eq_of_getLsbD_eq; intro i hi; simp

end Redsea
