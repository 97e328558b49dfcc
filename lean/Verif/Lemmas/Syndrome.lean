import Verif.Model.BlockSync
import Verif.Spec.RdsCode
import Verif.Lemmas.BitVecLinear

namespace Redsea
open Spec

theorem shift_and_one (v : BitVec 32) (k : Nat) :
    (v >>> k) &&& 1#32 = if v.getLsbD k then 1#32 else 0#32 := by
  apply BitVec.eq_of_getLsbD_eq
  intro i hi
  have : (1#32).getLsbD i = decide (i = 0) := by
    rw [BitVec.getLsbD_one]; cases i <;> simp
  by_cases h0 : i = 0
  · subst h0; cases hb : v.getLsbD k <;> simp [hb]
  · cases hb : v.getLsbD k <;> simp [this, h0]

theorem syndromeTerm_eq (v : BitVec 32) (k : Nat) :
    syndromeTerm v k =
      if v.getLsbD k then parityCheckMatrix.getD (parityCheckMatrix.length - 1 - k) 0 else 0 := by
  unfold syndromeTerm
  rw [shift_and_one]
  split <;> simp

theorem syndromeTerm_additive (k : Nat) : XorAdditive (fun v => syndromeTerm v k) := by
  intro a b
  simp only [syndromeTerm_eq, BitVec.getLsbD_xor]
  cases a.getLsbD k <;> cases b.getLsbD k <;> simp

theorem foldl_xor_additive (l : List Nat) (f : Nat → BitVec 32 → BitVec 32)
    (hf : ∀ k, XorAdditive (f k)) (a b x y : BitVec 32) :
    l.foldl (fun r k => r ^^^ f k (a ^^^ b)) (x ^^^ y) =
      l.foldl (fun r k => r ^^^ f k a) x ^^^ l.foldl (fun r k => r ^^^ f k b) y := by
  induction l generalizing x y with
  | nil => rfl
  | cons k l ih =>
    simp only [List.foldl_cons]
    rw [← ih]
    congr 1
    rw [hf k a b]; ac_rfl

theorem calculateSyndrome_additive : XorAdditive calculateSyndrome := by
  intro a b
  unfold calculateSyndrome
  have := foldl_xor_additive (List.range 26) (fun k v => syndromeTerm v k)
    syndromeTerm_additive a b 0 0
  simpa using this

theorem polyRem_additive (n : Nat) : XorAdditive (polyRem n) := by
  induction n with
  | zero => intro a b; rfl
  | succ n ih =>
    intro a b
    simp only [polyRem]
    rw [← ih]
    congr 1
    simp only [BitVec.getLsbD_xor]
    cases a.getLsbD (10 + n) <;> cases b.getLsbD (10 + n) <;> simp
    · ac_rfl
    · ac_rfl
    · have : a ^^^ generator <<< n ^^^ (b ^^^ generator <<< n) =
        a ^^^ b ^^^ (generator <<< n ^^^ generator <<< n) := by ac_rfl
      rw [this]; simp

theorem getLsbD_mkBlock (d : BitVec 16) (c : BitVec 10) (i : Nat) :
    (mkBlock d c).getLsbD i = if i < 10 then c.getLsbD i else d.getLsbD (i - 10) :=
  BitVec.getLsbD_append

theorem append_zero_additive : XorAdditive (fun d : BitVec 16 => mkBlock d 0) := by
  intro a b
  apply BitVec.eq_of_getLsbD_eq; intro i hi
  simp only [getLsbD_mkBlock, BitVec.getLsbD_xor]
  split <;> simp

theorem checkword_additive : XorAdditive checkword :=
  (xorAdditive_setWidth 26 10).comp ((polyRem_additive 16).comp append_zero_additive)

/-- The linear part of the encoder. -/
def encode0 (d : BitVec 16) : BitVec 26 := mkBlock d (checkword d)

theorem encode0_additive : XorAdditive encode0 := by
  intro a b
  unfold encode0
  rw [checkword_additive a b]
  apply BitVec.eq_of_getLsbD_eq; intro i hi
  simp only [getLsbD_mkBlock, BitVec.getLsbD_xor]
  split <;> simp

theorem encode_eq (d : BitVec 16) (o : OffsetName) :
    encode d o = encode0 d ^^^ o.word.setWidth 26 := by
  unfold encode encode0
  apply BitVec.eq_of_getLsbD_eq; intro i hi
  simp only [getLsbD_mkBlock, BitVec.getLsbD_xor, BitVec.getLsbD_setWidth]
  split <;> rename_i h
  · simp [hi]
  · have : o.word.getLsbD i = false := BitVec.getLsbD_of_ge _ _ (by omega)
    simp [this]

/-- Codewords without offset have zero syndrome. -/
theorem syndrome_encode0 (d : BitVec 16) : calculateSyndrome ((encode0 d).setWidth 32) = 0 := by
  have h1 : XorAdditive (fun d => calculateSyndrome ((encode0 d).setWidth 32)) :=
    calculateSyndrome_additive.comp ((xorAdditive_setWidth 26 32).comp encode0_additive)
  have h2 : XorAdditive (fun _ : BitVec 16 => (0 : BitVec 32)) := by intro a b; simp
  exact XorAdditive.ext h1 h2 (by decide +kernel) d

/-- Correspondence of the offset names of the specification with the decoder's. -/
def toOffset : OffsetName → Offset
  | .A => .A | .B => .B | .C => .C | .Cprime => .Cprime | .D => .D

/-- Syndrome of each offset word. -/
def offsetSyndrome (o : OffsetName) : BitVec 32 := calculateSyndrome (o.word.setWidth 32)

theorem syndrome_encode (d : BitVec 16) (o : OffsetName) :
    calculateSyndrome ((encode d o).setWidth 32) = offsetSyndrome o := by
  rw [encode_eq, BitVec.setWidth_xor, calculateSyndrome_additive, syndrome_encode0]
  simp only [offsetSyndrome, BitVec.zero_xor, BitVec.ofNat_eq_ofNat]
  congr 1

theorem getOffset_offsetSyndrome (o : OffsetName) :
    getOffsetForSyndrome (offsetSyndrome o) = toOffset o := by
  cases o <;> decide +kernel

theorem getOffset_eq_iff (s : BitVec 32) (o : OffsetName) :
    getOffsetForSyndrome s = toOffset o ↔ s = offsetSyndrome o := by
  constructor
  · intro h
    have h5 : offsetSyndrome .A = 0b1111011000#32 ∧ offsetSyndrome .B = 0b1111010100#32 ∧
      offsetSyndrome .C = 0b1001011100#32 ∧ offsetSyndrome .Cprime = 0b1111001100#32 ∧
      offsetSyndrome .D = 0b1001011000#32 := by decide +kernel
    obtain ⟨hA, hB, hC, hC', hD⟩ := h5
    unfold getOffsetForSyndrome at h
    cases o <;> simp only [toOffset] at h <;> split at h <;> (try (simp_all; done)) <;>
      split at h <;> (try (simp_all; done)) <;>
      split at h <;> (try (simp_all; done)) <;>
      split at h <;> (try (simp_all; done)) <;>
      split at h <;> simp_all
  · intro h; rw [h, getOffset_offsetSyndrome]


/-! ### Codewords are exactly the words with the right syndrome -/

theorem syndrome_low_injective :
    ∀ c : BitVec 10, calculateSyndrome (c.setWidth 32) = 0 → c = 0 := by decide +kernel

/-- Data part of a 26-bit block. -/
def dataPart (w : BitVec 26) : BitVec 16 := (w >>> 10).setWidth 16
/-- Check part of a 26-bit block. -/
def checkPart (w : BitVec 26) : BitVec 10 := w.setWidth 10

theorem mkBlock_parts (w : BitVec 26) : mkBlock (dataPart w) (checkPart w) = w := by
  apply BitVec.eq_of_getLsbD_eq; intro i hi
  rw [getLsbD_mkBlock]
  simp only [dataPart, checkPart, BitVec.getLsbD_setWidth, BitVec.getLsbD_ushiftRight]
  split <;> rename_i h
  · simp [h]
  · have h1 : i - 10 < 16 := by omega
    have h2 : 10 + (i - 10) = i := by omega
    simp [h1, h2]

theorem dataPart_mkBlock (d : BitVec 16) (c : BitVec 10) : dataPart (mkBlock d c) = d := by
  apply BitVec.eq_of_getLsbD_eq; intro i hi
  simp only [dataPart, BitVec.getLsbD_setWidth, BitVec.getLsbD_ushiftRight, getLsbD_mkBlock]
  have h1 : ¬ (10 + i < 10) := by omega
  have h2 : 10 + i - 10 = i := by omega
  simp [h1, h2, hi]

theorem dataPart_encode (d : BitVec 16) (o : OffsetName) : dataPart (encode d o) = d :=
  dataPart_mkBlock _ _

theorem mkBlock_xor_same (d : BitVec 16) (c c' : BitVec 10) :
    mkBlock d c ^^^ mkBlock d c' = (c ^^^ c').setWidth 26 := by
  apply BitVec.eq_of_getLsbD_eq; intro i hi
  simp only [BitVec.getLsbD_xor, getLsbD_mkBlock, BitVec.getLsbD_setWidth]
  split <;> rename_i h
  · simp [hi]
  · rw [BitVec.getLsbD_of_ge c i (by omega), BitVec.getLsbD_of_ge c' i (by omega)]; simp

/-- A word whose syndrome is that of offset word `o` is the codeword of its data part. -/
theorem eq_encode_of_syndrome (w : BitVec 26) (o : OffsetName)
    (h : calculateSyndrome (w.setWidth 32) = offsetSyndrome o) : w = encode (dataPart w) o := by
  have hx : w ^^^ encode (dataPart w) o =
      (checkPart w ^^^ (checkword (dataPart w) ^^^ o.word)).setWidth 26 := by
    have := mkBlock_xor_same (dataPart w) (checkPart w) (checkword (dataPart w) ^^^ o.word)
    rw [mkBlock_parts] at this
    exact this
  have hs : calculateSyndrome ((w ^^^ encode (dataPart w) o).setWidth 32) = 0 := by
    rw [BitVec.setWidth_xor, calculateSyndrome_additive, h, syndrome_encode]; simp
  rw [hx] at hs
  have hc := syndrome_low_injective (checkPart w ^^^ (checkword (dataPart w) ^^^ o.word)) (by
    rw [← hs]; congr 1)
  rw [hc] at hx
  have h2 : (w ^^^ encode (dataPart w) o) ^^^ encode (dataPart w) o = w := by
    rw [BitVec.xor_assoc]; simp
  rw [hx] at h2
  simpa using h2.symm

end Redsea
