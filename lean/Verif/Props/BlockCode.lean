import Verif.Lemmas.BurstTable

/-
Properties C01, C02, C03: the block code.
-/

namespace Redsea
open Spec

theorem kBlockBitmask_getLsbD (i : Nat) : kBlockBitmask.getLsbD i = decide (i < 26) := by
  by_cases h : i < 32
  · revert i; decide +kernel
  · rw [BitVec.getLsbD_of_ge _ _ (by omega)]; symm; simp; omega

theorem and_mask_eq (reg : BitVec 32) :
    reg &&& kBlockBitmask = (reg.setWidth 26).setWidth 32 := by
  apply BitVec.eq_of_getLsbD_eq; intro i hi
  simp only [BitVec.getLsbD_and, kBlockBitmask_getLsbD, BitVec.getLsbD_setWidth, hi]
  cases h : decide (i < 26) <;> simp

theorem shiftData_eq (w : BitVec 26) :
    ((w.setWidth 32) >>> kCheckwordLength).setWidth 16 = dataPart w := by
  apply BitVec.eq_of_getLsbD_eq; intro i hi
  have h1 : 10 + i < 32 := by omega
  simp [dataPart, kCheckwordLength, h1, BitVec.getElem_setWidth]

/-- **C01.** If the last 26 bits in the receiver's register are the standard encoding of
a data word with offset word `o`, the receiver finds exactly offset `o`, and the data
bits it extracts are the transmitted ones. The upper six bits of the register are
arbitrary. -/
theorem C01_codeword_recognised (d : BitVec 16) (o : OffsetName) (reg : BitVec 32)
    (h : reg.setWidth 26 = encode d o) :
    (BlockStream.registerBlock reg).offset = toOffset o ∧
    ((BlockStream.registerBlock reg).raw >>> kCheckwordLength).setWidth 16 = d := by
  simp only [BlockStream.registerBlock, and_mask_eq, h, syndrome_encode,
    getOffset_offsetSyndrome, shiftData_eq, dataPart_encode, and_self]

example : ∃ (d : BitVec 16) (o : OffsetName) (reg : BitVec 32), reg.setWidth 26 = encode d o ∧
    (BlockStream.registerBlock reg).offset = .Cprime :=
  ⟨0x6204#16, .Cprime, (0x3F#6 ++ encode 0x6204 .Cprime).setWidth 32,
   by decide +kernel, by decide +kernel⟩

/-- **C01 (converse).** A register content is only ever classified as carrying offset `o`
if it is the standard encoding, with offset word `o`, of the extracted data. -/
theorem C01_only_codewords (reg : BitVec 32) (o : OffsetName)
    (h : (BlockStream.registerBlock reg).offset = toOffset o) :
    reg.setWidth 26 =
      encode (((BlockStream.registerBlock reg).raw >>> kCheckwordLength).setWidth 16) o := by
  simp only [BlockStream.registerBlock, and_mask_eq, shiftData_eq] at h ⊢
  exact eq_encode_of_syndrome _ _ ((getOffset_eq_iff _ _).1 h)

/-- **C02.** A block hit by one wrong bit or two adjacent wrong bits is restored exactly. -/
theorem C02_burst_corrected (d : BitVec 16) (o : OffsetName) (e : BitVec 26) (he : IsBurst e) :
    correctBurstErrors ((encode d o ^^^ e).setWidth 32) (toOffset o) =
      some ((encode d o).setWidth 32) := by
  unfold correctBurstErrors
  rw [BitVec.setWidth_xor, calculateSyndrome_additive, syndrome_encode, lookupError_burst o e he]
  simp only [Option.map_some, Option.some.injEq]
  rw [BitVec.xor_assoc]; simp

/-- A concrete two-bit burst in a concrete block. -/
example : IsBurst 0b110#26 ∧
    correctBurstErrors ((encode 0x6204 .B ^^^ 0b110#26).setWidth 32) .B =
      some ((encode 0x6204 .B).setWidth 32) :=
  ⟨.double 1 (by decide), C02_burst_corrected 0x6204 .B 0b110 (.double 1 (by decide))⟩

/-- **C03.** Correction succeeds exactly when the received word is a burst away from a
codeword with the expected offset; in that case the result is that codeword. -/
theorem C03_correction_exact (w : BitVec 26) (o : OffsetName) (r : BitVec 32) :
    correctBurstErrors (w.setWidth 32) (toOffset o) = some r ↔
      ∃ (d : BitVec 16) (e : BitVec 26), IsBurst e ∧ w = encode d o ^^^ e ∧
        r = (encode d o).setWidth 32 := by
  constructor
  · intro h
    unfold correctBurstErrors at h
    rw [Option.map_eq_some_iff] at h
    obtain ⟨ev, hev, rfl⟩ := h
    obtain ⟨n, b, hn, rfl, hb, hs⟩ := lookupError_sound _ _ _ hev
    obtain rfl := toOffset_injective hn
    have hcw : calculateSyndrome ((w ^^^ b).setWidth 32) = offsetSyndrome o := by
      rw [BitVec.setWidth_xor, calculateSyndrome_additive, hs, BitVec.xor_assoc]; simp
    have henc := eq_encode_of_syndrome _ _ hcw
    refine ⟨dataPart (w ^^^ b), b, hb, ?_, ?_⟩
    · rw [← henc, BitVec.xor_assoc]; simp
    · rw [← henc, BitVec.setWidth_xor]
  · rintro ⟨d, e, he, rfl, rfl⟩
    exact C02_burst_corrected d o e he

/-- **C03 (failure).** Without such a codeword the correction reports failure. -/
theorem C03_failure (w : BitVec 26) (o : OffsetName) :
    correctBurstErrors (w.setWidth 32) (toOffset o) = none ↔
      ¬ ∃ (d : BitVec 16) (e : BitVec 26), IsBurst e ∧ w = encode d o ^^^ e := by
  rw [Option.eq_none_iff_forall_ne_some]
  constructor
  · rintro h ⟨d, e, he, hw⟩
    exact h _ ((C03_correction_exact w o _).2 ⟨d, e, he, hw, rfl⟩)
  · intro h r hr
    obtain ⟨d, e, he, hw, _⟩ := (C03_correction_exact w o r).1 hr
    exact h ⟨d, e, he, hw⟩

/-- A three-bit burst which is rejected. -/
example : correctBurstErrors ((encode 0x6204 .B ^^^ 0b111#26).setWidth 32) .B = none := by
  decide +kernel

/-- With an invalid expected offset nothing is ever corrected. -/
theorem C03_invalid_offset (raw : BitVec 32) : correctBurstErrors raw .invalid = none := by
  unfold correctBurstErrors
  rw [Option.map_eq_none_iff, Option.eq_none_iff_forall_ne_some]
  intro e he
  obtain ⟨n, b, hn, _⟩ := lookupError_sound _ _ _ he
  cases n <;> simp [toOffset] at hn

end Redsea
