import Verif.Model.Rft
import Verif.Spec.Crc
import Verif.Lemmas.BitVecLinear

/-
C37: the CRC routine.
-/

namespace Redsea

open Spec

theorem crcBit_xor (s t : BitVec 16) (a b : Bool) :
    crcBit (s ^^^ t) (a ^^ b) = crcBit s a ^^^ crcBit t b := by
  simp only [crcBit, BitVec.getLsbD_xor, BitVec.shiftLeft_xor_distrib]
  have e : ((s.getLsbD 15 ^^ t.getLsbD 15) ^^ (a ^^ b)) = ((s.getLsbD 15 ^^ a) ^^ (t.getLsbD 15 ^^ b)) := by
    cases s.getLsbD 15 <;> cases t.getLsbD 15 <;> cases a <;> cases b <;> rfl
  rw [e]
  generalize (s.getLsbD 15 ^^ a) = x
  generalize (t.getLsbD 15 ^^ b) = y
  have e2 : (if (x ^^ y) = true then 0x1021#16 else 0#16) =
      (if x = true then 0x1021#16 else 0#16) ^^^ (if y = true then 0x1021#16 else 0#16) := by
    cases x <;> cases y <;> rfl
  rw [e2]
  ac_rfl

/-- The register after a whole byte. -/
def crcByte (s : BitVec 16) (b : Byte) : BitVec 16 := (byteBits b).foldl crcBit s

theorem crcByte_xor (s t : BitVec 16) (a b : Byte) :
    crcByte (s ^^^ t) (a ^^^ b) = crcByte s a ^^^ crcByte t b := by
  simp only [crcByte, byteBits, List.foldl_cons, List.foldl_nil, BitVec.getLsbD_xor, crcBit_xor]

theorem and_xor (m a b : BitVec 32) : (a ^^^ b) &&& m = (a &&& m) ^^^ (b &&& m) := by
  apply BitVec.eq_of_getLsbD_eq
  intro i hi
  simp only [BitVec.getLsbD_and, BitVec.getLsbD_xor]
  cases a.getLsbD i <;> cases b.getLsbD i <;> cases m.getLsbD i <;> rfl

theorem crcRot (c : BitVec 32) :
    ((c >>> 8) &&& 0xFF#32) ||| (c <<< 8) = ((c >>> 8) &&& 0xFF#32) ^^^ (c <<< 8) := by
  apply BitVec.eq_of_getLsbD_eq
  intro i hi
  simp only [BitVec.getLsbD_or, BitVec.getLsbD_xor, BitVec.getLsbD_and, BitVec.getLsbD_shiftLeft]
  by_cases h : i < 8
  · simp [h]
  · have : (0xFF#32).getLsbD i = false := by
      have h2 : (0xFF#32) = (0xFF#8).setWidth 32 := rfl
      rw [h2, BitVec.getLsbD_setWidth, BitVec.getLsbD_of_ge _ _ (by omega)]
      simp
    simp [this]

theorem setWidth32_xor (a b : Byte) :
    (a ^^^ b).setWidth 32 = a.setWidth 32 ^^^ b.setWidth 32 := xorAdditive_setWidth 8 32 a b

theorem crcStep_xor (s t : BitVec 32) (a b : Byte) :
    crcStep (s ^^^ t) (a ^^^ b) = crcStep s a ^^^ crcStep t b := by
  have h1 : ∀ x y : BitVec 32, ((x ^^^ y) >>> 8) = (x >>> 8) ^^^ (y >>> 8) := fun x y =>
    BitVec.ushiftRight_xor_distrib x y 8
  have h2 : ∀ x y : BitVec 32, ((x ^^^ y) >>> 4) = (x >>> 4) ^^^ (y >>> 4) := fun x y =>
    BitVec.ushiftRight_xor_distrib x y 4
  have h3 : ∀ (n : Nat) (x y : BitVec 32), ((x ^^^ y) <<< n) = (x <<< n) ^^^ (y <<< n) := fun n x y =>
    BitVec.shiftLeft_xor_distrib x y n
  have r : ∀ x y z w : BitVec 32, (x ^^^ y) ^^^ (z ^^^ w) = (x ^^^ z) ^^^ (y ^^^ w) := by
    intros; ac_rfl
  simp only [crcStep, crcRot]
  have e1 : (((s ^^^ t) >>> 8) &&& 0xFF#32) ^^^ ((s ^^^ t) <<< 8) ^^^ (a ^^^ b).setWidth 32 =
      (((s >>> 8) &&& 0xFF#32) ^^^ (s <<< 8) ^^^ a.setWidth 32) ^^^
      (((t >>> 8) &&& 0xFF#32) ^^^ (t <<< 8) ^^^ b.setWidth 32) := by
    rw [h1, h3, and_xor, setWidth32_xor, r ((s >>> 8) &&& 0xFF#32), r]
  rw [e1]
  generalize ((s >>> 8) &&& 0xFF#32) ^^^ (s <<< 8) ^^^ a.setWidth 32 = u
  generalize ((t >>> 8) &&& 0xFF#32) ^^^ (t <<< 8) ^^^ b.setWidth 32 = v
  have e2 : (u ^^^ v) ^^^ (((u ^^^ v) &&& 0xFF#32) >>> 4) =
      (u ^^^ ((u &&& 0xFF#32) >>> 4)) ^^^ (v ^^^ ((v &&& 0xFF#32) >>> 4)) := by
    rw [and_xor, h2, r]
  rw [e2]
  generalize u ^^^ ((u &&& 0xFF#32) >>> 4) = u
  generalize v ^^^ ((v &&& 0xFF#32) >>> 4) = v
  have e3 : (u ^^^ v) ^^^ (((u ^^^ v) <<< 8) <<< 4) =
      (u ^^^ ((u <<< 8) <<< 4)) ^^^ (v ^^^ ((v <<< 8) <<< 4)) := by
    rw [h3, h3, r]
  rw [e3]
  generalize u ^^^ ((u <<< 8) <<< 4) = u
  generalize v ^^^ ((v <<< 8) <<< 4) = v
  rw [and_xor, h3, h3, r]

/-- One byte: the table-free update does what eight single bits do. -/
theorem crcStep_eq (c : BitVec 32) (b : Byte) :
    (crcStep c b).setWidth 16 = crcByte (c.setWidth 16) b := by
  have key := XorAdditive.ext (n := 40) (m := 16)
    (f := fun x => (crcStep (x.extractLsb' 8 32) (x.extractLsb' 0 8)).setWidth 16)
    (g := fun x => crcByte ((x.extractLsb' 8 32).setWidth 16) (x.extractLsb' 0 8))
    (by
      intro x y
      have e1 : (x ^^^ y).extractLsb' 8 32 = x.extractLsb' 8 32 ^^^ y.extractLsb' 8 32 := by
        apply BitVec.eq_of_getLsbD_eq; intro i hi
        simp only [BitVec.getLsbD_extractLsb', BitVec.getLsbD_xor, Bool.and_xor_distrib_left]
      have e2 : (x ^^^ y).extractLsb' 0 8 = x.extractLsb' 0 8 ^^^ y.extractLsb' 0 8 := by
        apply BitVec.eq_of_getLsbD_eq; intro i hi
        simp only [BitVec.getLsbD_extractLsb', BitVec.getLsbD_xor, Bool.and_xor_distrib_left]
      dsimp only
      rw [e1, e2, crcStep_xor]
      exact xorAdditive_setWidth 32 16 _ _)
    (by
      intro x y
      have e1 : ((x ^^^ y).extractLsb' 8 32).setWidth 16 =
          (x.extractLsb' 8 32).setWidth 16 ^^^ (y.extractLsb' 8 32).setWidth 16 := by
        apply BitVec.eq_of_getLsbD_eq; intro i hi
        simp only [BitVec.getLsbD_setWidth, BitVec.getLsbD_extractLsb', BitVec.getLsbD_xor, Bool.and_xor_distrib_left]
      have e2 : (x ^^^ y).extractLsb' 0 8 = x.extractLsb' 0 8 ^^^ y.extractLsb' 0 8 := by
        apply BitVec.eq_of_getLsbD_eq; intro i hi
        simp only [BitVec.getLsbD_extractLsb', BitVec.getLsbD_xor, Bool.and_xor_distrib_left]
      dsimp only
      rw [e1, e2, crcByte_xor])
    (by decide +kernel)
    (c ++ b)
  have e1 : (c ++ b).extractLsb' 8 32 = c := by
    apply BitVec.eq_of_getLsbD_eq; intro i hi
    have hs : (c ++ b : BitVec (32 + 8)).getLsbD (8 + i) = c.getLsbD i := by
      rw [BitVec.getLsbD_append, if_neg (by omega)]; congr 1; omega
    rw [BitVec.getLsbD_extractLsb', hs]; simp [hi]
  have e2 : (c ++ b).extractLsb' 0 8 = b := by
    apply BitVec.eq_of_getLsbD_eq; intro i hi
    have hs : (c ++ b : BitVec (32 + 8)).getLsbD (0 + i) = b.getLsbD i := by
      rw [BitVec.getLsbD_append, if_pos (by omega)]; congr 1; omega
    rw [BitVec.getLsbD_extractLsb', hs]; simp [hi]
  simpa only [e1, e2] using key

theorem crc_fold (bytes : List Byte) (c : BitVec 32) :
    (bytes.foldl crcStep c).setWidth 16 = (bytes.flatMap byteBits).foldl crcBit (c.setWidth 16) := by
  induction bytes generalizing c with
  | nil => rfl
  | cons b bytes ih =>
    rw [List.foldl_cons, ih, List.flatMap_cons, List.foldl_append, crcStep_eq]
    rfl

/-- C37: the routine computes the CRC-16 of the addressed bytes. -/
theorem C37_crc (data : List Byte) (address length : Nat) (h : address + length ≤ data.length) :
    crc16Ccitt data address length =
      some ((crc16 ((data.drop address).take length)).setWidth 32) := by
  by_cases hpos : length = 0
  · subst hpos; rw [List.take_zero]; rfl
  rw [crc16Ccitt, if_neg hpos, if_pos h]
  have hf := crc_fold ((data.drop address).take length) 0xFFFF#32
  dsimp only
  generalize ((data.drop address).take length).foldl crcStep 0xFFFF#32 = c at hf
  rw [crc16]
  rw [show (0xFFFF#32).setWidth 16 = 0xFFFF#16 by rfl] at hf
  rw [← hf]
  congr 1
  have hm : ∀ i, (0xFFFF#32).getLsbD i = decide (i < 16) := by
    intro i
    rw [show 0xFFFF#32 = (BitVec.allOnes 16).setWidth 32 by rfl, BitVec.getLsbD_setWidth,
      BitVec.getLsbD_allOnes]
    by_cases h : i < 16 <;> simp [h]; omega
  apply BitVec.eq_of_getLsbD_eq
  intro i hi
  simp only [BitVec.getLsbD_and, BitVec.getLsbD_xor, BitVec.getLsbD_setWidth, BitVec.getLsbD_not, hm]
  by_cases h : i < 16 <;> simp [h, hi]

/-- The checksum of the digits 1 to 9 is the published check value. -/
example : crc16Ccitt (ascii "123456789") 0 9 = some 0xD64E#32 := by decide +kernel
example : crc16Ccitt (ascii "xx123456789yy") 2 9 = some 0xD64E#32 := by decide +kernel

end Redsea
