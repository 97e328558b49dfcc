import Verif.Spec.TmcData
import Verif.Lemmas.CsvTable
import Verif.Lemmas.StationOps

/-
C68: the table of service keys.
-/

namespace Redsea

open _root_.Redsea.Spec

theorem comma_ok : (0x2C : Byte) ≠ 0x0D ∧ (0x2C : Byte) ≠ 0x0A := by decide

theorem ofInt8_toNat (n : Nat) (h : n < 256) : (BitVec.ofInt 8 (n : Int)).toNat = n := by
  rw [BitVec.ofInt_natCast, BitVec.toNat_ofNat]
  exact Nat.mod_eq_of_lt h

theorem keyOfRow_row (r : KeyRow) (hv : r.Valid) :
    ∃ k, keyOfRow (CSVRow.new r.line 0x2C) = some (BitVec.ofNat 16 r.encid, k) ∧ r.Describes k := by
  obtain ⟨v1, v2, v3, v4⟩ := hv
  have hclean : CleanRow 0x2C [decimal r.encid, decimal r.xorval, decimal r.xorstart, decimal r.nrot] := by
    refine ⟨by simp, ?_⟩
    intro c hc
    simp only [List.mem_cons, List.not_mem_nil, or_false] at hc
    rcases hc with rfl | rfl | rfl | rfl <;> exact (decimal_clean _).2.1
  unfold keyOfRow KeyRow.line
  rw [row_length comma_ok hclean, row_at comma_ok hclean, row_at comma_ok hclean, row_at comma_ok hclean,
    row_at comma_ok hclean]
  simp only [List.length_cons, List.length_nil, List.getElem?_cons_zero, List.getElem?_cons_succ, Option.bind_eq_bind,
    Option.bind_some, stoi_decimal r.encid (by omega), stoi_decimal r.xorval (by omega), stoi_decimal r.xorstart (by omega),
    stoi_decimal r.nrot (by omega)]
  refine ⟨{ xorval := BitVec.ofInt 8 r.xorval, xorstart := BitVec.ofInt 8 r.xorstart, nrot := BitVec.ofInt 8 r.nrot },
    ?_, ofInt8_toNat _ v2, ofInt8_toNat _ v3, ofInt8_toNat _ v4⟩
  show some (BitVec.ofInt 16 (r.encid : Int), _) = _
  rw [BitVec.ofInt_natCast]

/-- **C68**: of any table of keys the first row of each encryption identifier is the key of that identifier;
there are no other keys. -/
theorem C68_keys (rows : List KeyRow) (hv : ∀ r ∈ rows, r.Valid) (encid : Word) :
    Option.Rel KeyRow.Describes (rows.find? fun r => r.encid == encid.toNat)
      ((loadServiceKeys (rows.map KeyRow.line)).lookup encid) := by
  unfold loadServiceKeys
  rw [List.filterMap_map]
  induction rows with
  | nil => exact .none
  | cons r rows ih =>
    obtain ⟨k, hk, hD⟩ := keyOfRow_row r (hv r List.mem_cons_self)
    rw [List.filterMap_cons, Function.comp_apply, hk, List.find?_cons, List.lookup_cons]
    have hb : (encid == BitVec.ofNat 16 r.encid) = (r.encid == encid.toNat) := by
      have := (hv r List.mem_cons_self).1
      rw [Bool.eq_iff_iff, beq_iff_eq, beq_iff_eq, ← BitVec.toNat_inj, BitVec.toNat_ofNat, Nat.mod_eq_of_lt this]
      exact ⟨fun h => h.symm, fun h => h.symm⟩
    rw [hb]
    cases r.encid == encid.toNat with
    | true => exact .some hD
    | false => exact ih fun r hr => hv r (List.mem_cons_of_mem _ hr)

theorem stoi_no_number {c : Str} (h : c = [] ∨ ∃ b ∈ c.head?, (0x41 ≤ b.toNat ∧ b.toNat ≤ 0x5A) ∨
    (0x61 ≤ b.toNat ∧ b.toNat ≤ 0x7A) ∨ b = 0x23) : stoi c = none := by
  rcases h with rfl | ⟨b, hb, h⟩
  · decide
  · cases c with
    | nil => cases hb
    | cons b' c =>
      obtain rfl : b' = b := by simpa using hb
      have hf : ∀ b : Byte, ((0x41 ≤ b.toNat ∧ b.toNat ≤ 0x5A) ∨ (0x61 ≤ b.toNat ∧ b.toNat ≤ 0x7A) ∨ b = 0x23) →
          isSpaceByte b = false ∧ b ≠ 0x2D ∧ b ≠ 0x2B ∧ digitOf b = none := by decide +kernel
      obtain ⟨f1, f2, f3, f4⟩ := hf b' h
      unfold stoi
      have e1 : (b' :: c).dropWhile isSpaceByte = b' :: c := by
        rw [List.dropWhile_cons, f1]
        rfl
      rw [e1]
      have n2 : ¬ ((b' :: c).head? = some 0x2D ∨ (b' :: c).head? = some 0x2B) := by
        rintro (h | h)
        · exact f2 (by simpa using h)
        · exact f3 (by simpa using h)
      have e2 : leadingDigits (b' :: c) = [] := by
        rw [leadingDigits, f4]
      simp only [if_neg n2, e2, if_true]

/-- **C68**: lines that are no rows (titles, comments, rows with missing cells) are skipped; the keys in the
other lines stay the same. -/
theorem C68_other_lines (before after : List Str) (cells : List Str) (h : NoKeyRow cells) :
    loadServiceKeys (before ++ joinCells 0x2C cells :: after) = loadServiceKeys (before ++ after) := by
  have hnone : keyOfRow (CSVRow.new (joinCells 0x2C cells) 0x2C) = none := by
    obtain ⟨hc, h⟩ := h
    unfold keyOfRow
    rw [row_length comma_ok hc, row_at comma_ok hc, row_at comma_ok hc, row_at comma_ok hc, row_at comma_ok hc]
    by_cases hl : 4 ≤ cells.length
    · rcases h with h | ⟨c, hm, h⟩
      · omega
      · have hs := stoi_no_number h
        match cells, hl with
        | a0 :: a1 :: a2 :: a3 :: rest, hl =>
          simp only [List.take_succ_cons, List.take_zero, List.mem_cons, List.not_mem_nil, or_false] at hm
          simp only [List.getElem?_cons_zero, List.getElem?_cons_succ, Option.bind_eq_bind, Option.bind_some, guard]
          rw [if_pos hl]
          rcases hm with rfl | rfl | rfl | rfl
          · simp [hs]
          · cases stoi a0 <;> simp [hs]
          · cases stoi a0 <;> cases stoi a1 <;> simp [hs]
          · cases stoi a0 <;> cases stoi a1 <;> cases stoi a2 <;> simp [hs]
    · simp [guard, hl]
  unfold loadServiceKeys
  rw [List.filterMap_append, List.filterMap_append, List.filterMap_cons, hnone]

/-- **C68** (partial): with shifts of at most 24 the keys can be used for any message (the assumption
`KeysOk` of C60). Missing for the full property: larger shifts, see `C68_shift_violated`. -/
theorem C68_usable_partial (rows : List KeyRow) (hv : ∀ r ∈ rows, r.Valid ∧ r.xorstart ≤ 24) (env : TmcEnv)
    (he : ∀ i, env.serviceKey i = (loadServiceKeys (rows.map KeyRow.line)).lookup (BitVec.ofNat 16 i)) :
    env.KeysOk := by
  intro i k hk
  rw [he] at hk
  have h := C68_keys rows (fun r hr => (hv r hr).1) (BitVec.ofNat 16 i)
  rw [hk] at h
  generalize hf : rows.find? (fun r => r.encid == (BitVec.ofNat 16 i).toNat) = o at h
  cases h with
  | @some r _ hD =>
    obtain ⟨h1, h2⟩ := hv r (List.mem_of_find?_eq_some hf)
    obtain ⟨d1, d2, -⟩ := hD
    rw [d1, d2]
    refine ⟨by omega, ?_⟩
    calc r.xorval * 2 ^ r.xorstart
        ≤ r.xorval * 2 ^ 24 := Nat.mul_le_mul_left _ (Nat.pow_le_pow_right (by decide) h2)
      _ < 2 ^ 8 * 2 ^ 24 := Nat.mul_lt_mul_of_pos_right h1.2.1 (by decide)
      _ = 2 ^ 32 := by decide

/-- The negation for larger shifts: a row that fits its types makes the decryption of every message
undefined. -/
theorem C68_shift_violated : ∃ r : KeyRow, r.Valid ∧
    ∀ k, (loadServiceKeys [r.line]).lookup (BitVec.ofNat 16 r.encid) = some k →
      ∀ m : Message, m.isEncrypted = true → m.decrypt k = none := by
  refine ⟨{ encid := 1, xorval := 255, xorstart := 40, nrot := 0 }, ⟨by decide, by decide, by decide, by decide⟩, ?_⟩
  intro k hk m hm
  have h := C68_keys [{ encid := 1, xorval := 255, xorstart := 40, nrot := 0 }]
    (by intro r hr; rw [List.mem_singleton.mp hr]; exact ⟨by decide, by decide, by decide, by decide⟩) (BitVec.ofNat 16 1)
  rw [List.map_singleton, hk] at h
  have hf : [({ encid := 1, xorval := 255, xorstart := 40, nrot := 0 } : KeyRow)].find?
      (fun r => r.encid == (BitVec.ofNat 16 1).toNat) = some { encid := 1, xorval := 255, xorstart := 40, nrot := 0 } := by
    decide
  rw [hf] at h
  cases h with
  | some hD =>
    unfold Message.decrypt
    rw [hm, if_neg (by decide), hD.2.1, if_neg (by intro hc; exact absurd hc.1 (by decide))]

/-! Cases that meet the hypotheses. -/

example : (⟨3, 90, 4, 5⟩ : KeyRow).Valid ∧ (⟨3, 90, 4, 5⟩ : KeyRow).line = ascii "3,90,4,5" :=
  ⟨⟨by decide, by decide, by decide, by decide⟩, by decide +kernel⟩

example : NoKeyRow [ascii "encid", ascii "xorval", ascii "xorstart", ascii "nrot"] := by
  refine ⟨⟨by decide, ?_⟩, .inr ⟨ascii "encid", by decide +kernel, .inr ⟨0x65, by decide +kernel, by decide⟩⟩⟩
  unfold CleanCell
  decide +kernel

end Redsea
