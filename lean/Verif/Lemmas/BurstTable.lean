import Verif.Lemmas.Syndrome

namespace Redsea
open Spec

/-! ### The error table -/

theorem errorVectors_eq_bursts :
    ∀ e ∈ errorVectors, ∃ b : BitVec 26, b.setWidth 32 = e ∧
      ((∃ i, i < 26 ∧ b = BitVec.twoPow 26 i) ∨
       (∃ i, i + 1 < 26 ∧ b = BitVec.twoPow 26 i ^^^ BitVec.twoPow 26 (i + 1))) := by
  intro e he
  simp only [errorVectors, List.mem_flatMap, List.mem_map, List.mem_range] at he
  obtain ⟨bits, hbits, sh, hsh, rfl⟩ := he
  simp only [List.mem_cons, List.not_mem_nil, or_false] at hbits
  rcases hbits with rfl | rfl
  · refine ⟨BitVec.twoPow 26 sh, ?_, Or.inl ⟨sh, hsh, rfl⟩⟩
    revert sh; decide +kernel
  · by_cases h : sh = 25
    · subst h
      exact ⟨BitVec.twoPow 26 25, by decide +kernel, Or.inl ⟨25, by omega, rfl⟩⟩
    · refine ⟨BitVec.twoPow 26 sh ^^^ BitVec.twoPow 26 (sh + 1), ?_, Or.inr ⟨sh, by omega, rfl⟩⟩
      have : ∀ sh, sh < 25 → BitVec.setWidth 32 (BitVec.twoPow 26 sh ^^^ BitVec.twoPow 26 (sh + 1)) =
          3#32 <<< sh &&& kBlockBitmask := by decide +kernel
      exact this sh (by omega)

theorem errorVectors_isBurst (e : BitVec 32) (he : e ∈ errorVectors) :
    ∃ b : BitVec 26, b.setWidth 32 = e ∧ IsBurst b := by
  obtain ⟨b, hb, h | h⟩ := errorVectors_eq_bursts e he
  · obtain ⟨i, hi, rfl⟩ := h; exact ⟨_, hb, .single i hi⟩
  · obtain ⟨i, hi, rfl⟩ := h; exact ⟨_, hb, .double i hi⟩

theorem lookupError_single :
    ∀ o : OffsetName, ∀ i, i < 26 →
      lookupError (offsetSyndrome o ^^^ calculateSyndrome ((BitVec.twoPow 26 i).setWidth 32))
        (toOffset o) = some ((BitVec.twoPow 26 i).setWidth 32) := by
  intro o; cases o <;> decide +kernel

theorem lookupError_double :
    ∀ o : OffsetName, ∀ i, i < 25 →
      lookupError (offsetSyndrome o ^^^
          calculateSyndrome ((BitVec.twoPow 26 i ^^^ BitVec.twoPow 26 (i + 1)).setWidth 32))
        (toOffset o) =
        some ((BitVec.twoPow 26 i ^^^ BitVec.twoPow 26 (i + 1)).setWidth 32) := by
  intro o; cases o <;> decide +kernel

theorem lookupError_burst (o : OffsetName) (b : BitVec 26) (hb : IsBurst b) :
    lookupError (offsetSyndrome o ^^^ calculateSyndrome (b.setWidth 32)) (toOffset o) =
      some (b.setWidth 32) := by
  cases hb with
  | single i h => exact lookupError_single o i h
  | double i h => exact lookupError_double o i (by omega)

theorem offsetWords_mem (p : Offset × BitVec 32) (h : p ∈ offsetWords) :
    ∃ o : OffsetName, p = (toOffset o, o.word.setWidth 32) := by
  simp only [offsetWords, List.mem_cons, List.not_mem_nil, or_false] at h
  rcases h with rfl | rfl | rfl | rfl | rfl
  · exact ⟨.A, rfl⟩
  · exact ⟨.B, rfl⟩
  · exact ⟨.C, rfl⟩
  · exact ⟨.Cprime, rfl⟩
  · exact ⟨.D, rfl⟩

theorem toOffset_injective {a b : OffsetName} (h : toOffset a = toOffset b) : a = b := by
  cases a <;> cases b <;> first | rfl | (simp [toOffset] at h)

/-- Whatever the table returns is a burst that explains the syndrome. -/
theorem lookupError_sound (s : BitVec 32) (o : Offset) (e : BitVec 32)
    (h : lookupError s o = some e) :
    ∃ (n : OffsetName) (b : BitVec 26), o = toOffset n ∧ e = b.setWidth 32 ∧ IsBurst b ∧
      s = offsetSyndrome n ^^^ calculateSyndrome (b.setWidth 32) := by
  unfold lookupError at h
  rw [Option.map_eq_some_iff] at h
  obtain ⟨ent, hfind, rfl⟩ := h
  have hmem := List.mem_of_find?_eq_some hfind
  have hp := List.find?_some hfind
  simp only [Bool.and_eq_true, beq_iff_eq] at hp
  simp only [errorLookupTable, List.mem_flatMap, List.mem_map] at hmem
  obtain ⟨ow, how, ev, hev, rfl⟩ := hmem
  obtain ⟨n, rfl⟩ := offsetWords_mem ow how
  obtain ⟨b, hb, hburst⟩ := errorVectors_isBurst ev hev
  refine ⟨n, b, hp.2.symm, hb.symm, hburst, ?_⟩
  rw [← hp.1, hb, calculateSyndrome_additive]
  simp [offsetSyndrome, BitVec.xor_comm]

end Redsea
