import Verif.Spec.TmcData
import Verif.Lemmas.CsvTable

/-
C67: the event list is loaded completely.
-/

namespace Redsea

open _root_.Redsea.Spec

theorem optDecimal_clean (o : Option Nat) : CleanCell 0x3B (optDecimal o) := by
  cases o with
  | none => exact ⟨by simp [optDecimal], by simp [optDecimal], by simp [optDecimal]⟩
  | some n => exact (decimal_clean n).1

theorem eventRow_clean {r : EventRow} (h : r.Valid) : CleanRow 0x3B r.cells := by
  refine ⟨by simp [EventRow.cells], ?_⟩
  intro c hc
  simp only [EventRow.cells, List.mem_cons, List.not_mem_nil, or_false] at hc
  rcases hc with rfl | rfl | rfl | rfl | rfl | rfl | rfl | rfl | rfl | rfl
  · exact (decimal_clean _).1
  · exact h.text
  · exact h.textWithQ
  · exact h.nature
  · exact optDecimal_clean _
  · exact h.duration
  · exact optDecimal_clean _
  · exact h.urgency
  · exact (decimal_clean _).1
  · exact h.reference

theorem eventTitles_ok : CleanRow 0x3B eventTitles ∧ eventTitles.Nodup := by
  refine ⟨⟨by decide, ?_⟩, by decide +kernel⟩
  unfold CleanCell
  decide +kernel

/-- The columns of a row of the event list. -/
theorem event_cells (r : EventRow) :
    cell eventTitles r.cells (ascii "Code") = some (decimal r.code) ∧
    cell eventTitles r.cells (ascii "Description") = some r.text ∧
    cell eventTitles r.cells (ascii "Description with Q") = some r.textWithQ ∧
    cell eventTitles r.cells (ascii "N") = some r.nature ∧
    cell eventTitles r.cells (ascii "Q") = some (optDecimal r.quantifier) ∧
    cell eventTitles r.cells (ascii "T") = some r.duration ∧
    cell eventTitles r.cells (ascii "D") = some (optDecimal r.directions) ∧
    cell eventTitles r.cells (ascii "U") = some r.urgency ∧
    cell eventTitles r.cells (ascii "C") = some (decimal r.updateClass) := by
  have h := eventTitles_ok.2
  refine ⟨?_, ?_, ?_, ?_, ?_, ?_, ?_, ?_, ?_⟩
  · exact cell_at h (i := 0) rfl _
  · exact cell_at h (i := 1) rfl _
  · exact cell_at h (i := 2) rfl _
  · exact cell_at h (i := 3) rfl _
  · exact cell_at h (i := 4) rfl _
  · exact cell_at h (i := 5) rfl _
  · exact cell_at h (i := 6) rfl _
  · exact cell_at h (i := 7) rfl _
  · exact cell_at h (i := 8) rfl _

theorem quantifierTypes_number (q : Nat) (h : q ≤ 12) :
    quantifierNumber (quantifierTypes.getD q .smallNumber) = q := by
  have : ∀ q : Fin 13, quantifierNumber (quantifierTypes.getD q.val .smallNumber) = q.val := by decide
  exact this ⟨q, by omega⟩

theorem optDecimal_empty (o : Option Nat) : (optDecimal o).isEmpty = o.isNone := by
  cases o with
  | none => rfl
  | some n =>
    have := (decimal_clean n).2.2
    show (decimal n).isEmpty = false
    cases hd : decimal n with
    | nil => exact absurd hd this
    | cons _ _ => rfl

theorem ofInt_natCast (n : Nat) : BitVec.ofInt 16 (n : Int) = BitVec.ofNat 16 n := BitVec.ofInt_natCast 16 n

/-- A row of the event list is loaded under its code, as the event that it describes. -/
theorem eventOfRow_row (t : CSVTable) (row : CSVRow) (r : EventRow) (hv : r.Valid)
    (hc : ∀ title, t.getString row title = cell eventTitles r.cells title) :
    ∃ e, eventOfRow t row = some (BitVec.ofNat 16 r.code, e) ∧ r.Describes e := by
  obtain ⟨c0, c1, c2, c3, c4, c5, c6, c7, c8⟩ := event_cells r
  have hopt : ∀ (o : Option Nat) (title : Str), cell eventTitles r.cells title = some (optDecimal o) →
      (∀ v ∈ o, v < 2 ^ 16) →
      optInt t row title = some ((o.getD 0 : Nat) : Int) := by
    intro o title h hb
    unfold optInt CSVTable.rowContains CSVTable.getInt
    rw [hc, h]
    simp only [Option.map_some, Option.bind_eq_bind, Option.bind_some, optDecimal_empty]
    cases o with
    | none => rfl
    | some v =>
      have := hb v rfl
      exact stoi_decimal v (by omega)
  have hq := hopt _ _ c4 (fun q hq => by have := hv.quantifier q hq; omega)
  have hd := hopt _ _ c6 hv.directions
  have hcode : t.getUint16 row (ascii "Code") = some (BitVec.ofNat 16 r.code) := by
    unfold CSVTable.getUint16 CSVTable.getInt
    rw [hc, c0, Option.bind_some, stoi_decimal _ (by have := hv.code; omega), Option.map_some, ofInt_natCast]
  have hclass : t.getUint16 row (ascii "C") = some (BitVec.ofNat 16 r.updateClass) := by
    unfold CSVTable.getUint16 CSVTable.getInt
    rw [hc, c8, Option.bind_some, stoi_decimal _ (by have := hv.updateClass; omega), Option.map_some, ofInt_natCast]
  have hqle : r.quantifier.getD 0 ≤ 12 := by
    cases hr : r.quantifier with
    | none => exact Nat.zero_le _
    | some q => exact hv.quantifier q hr
  unfold eventOfRow
  simp only [hcode, hc, c1, c2, c3, hq, c7, c5, hd, hclass, Option.bind_eq_bind, Option.bind_some]
  refine ⟨_, rfl, ?_⟩
  constructor
  · rfl
  · rfl
  · show (!r.textWithQ.isEmpty) = true ↔ _
    simp
  · show quantifierNumber (if (0 : Int) ≤ ((r.quantifier.getD 0 : Nat) : Int) ∧ ((r.quantifier.getD 0 : Nat) : Int) ≤ 12 then
      quantifierTypes.getD ((r.quantifier.getD 0 : Nat) : Int).toNat .smallNumber else .smallNumber) = _
    rw [if_pos (by omega), Int.toNat_natCast]
    exact quantifierTypes_number _ hqle
  · show (((r.directions.getD 0 : Nat) : Int) == 2) = true ↔ _
    rw [beq_iff_eq]
    cases r.directions with
    | none => simp
    | some d =>
      simp only [Option.getD_some, Option.some.injEq]
      omega
  · show (if r.urgency = ascii "U" then Urgency.u else if r.urgency = ascii "X" then Urgency.x else Urgency.none) = .u ↔ _
    by_cases h1 : r.urgency = ascii "U"
    · simp [h1]
    · rw [if_neg h1]
      split <;> simp [h1]
  · show (if r.urgency = ascii "U" then Urgency.u else if r.urgency = ascii "X" then Urgency.x else Urgency.none) = .x ↔ _
    have hne : ascii "U" ≠ ascii "X" := by decide +kernel
    by_cases h1 : r.urgency = ascii "U"
    · rw [if_pos h1, h1]
      simp [hne]
    · rw [if_neg h1]
      split <;> simp_all
  · show (BitVec.ofNat 16 r.updateClass).toNat = _
    rw [BitVec.toNat_ofNat]
    exact Nat.mod_eq_of_lt hv.updateClass

theorem loaded_rows {α β : Type} (rows : List α) (F : α → Option (Word × β)) (code : α → Word) (D : α → β → Prop)
    (h : ∀ r ∈ rows, ∃ e, F r = some (code r, e) ∧ D r e) (c : Word) :
    Option.Rel D (rows.reverse.find? fun r => code r == c) ((rows.filterMap F).reverse.lookup c) := by
  rw [← List.filterMap_reverse]
  have h : ∀ r ∈ rows.reverse, ∃ e, F r = some (code r, e) ∧ D r e := fun r hr => h r (List.mem_reverse.mp hr)
  generalize rows.reverse = l at h
  induction l with
  | nil => exact .none
  | cons r l ih =>
    obtain ⟨e, he, hD⟩ := h r List.mem_cons_self
    rw [List.filterMap_cons, he, List.find?_cons, List.lookup_cons]
    have hcomm : (c == code r) = (code r == c) := BEq.comm
    rw [hcomm]
    cases hb : code r == c with
    | true => exact .some hD
    | false => exact ih fun r hr => h r (List.mem_cons_of_mem _ hr)

/-- **C67**, loading: of any event list the latest row of each code is loaded, as the event that the row
describes, and nothing else is loaded. -/
theorem C67_rows (rows : List EventRow) (hv : ∀ r ∈ rows, r.Valid) :
    ∃ table, loadEvents (joinCells 0x3B eventTitles :: rows.map EventRow.line) = some table ∧
      ∀ code : Word, Option.Rel EventRow.Describes (rows.reverse.find? fun r => r.code == code.toNat)
        (table.lookup code) := by
  obtain ⟨t, h1, h2, h3⟩ := table_read (d := 0x3B) (by decide) eventTitles_ok.1 eventTitles_ok.2
    (rows.map EventRow.cells) (by
      intro c hc
      obtain ⟨r, hr, rfl⟩ := List.mem_map.mp hc
      exact eventRow_clean (hv r hr))
  rw [List.map_map] at h1 h2
  have h1 : readCSVWithTitles (joinCells 0x3B eventTitles :: rows.map EventRow.line) 0x3B = some t := h1
  unfold loadEvents
  rw [h1]
  refine ⟨_, rfl, ?_⟩
  intro code
  have := loaded_rows rows (fun r => eventOfRow t (CSVRow.new r.line 0x3B)) (fun r => BitVec.ofNat 16 r.code)
    EventRow.Describes (by
      intro r hr
      exact eventOfRow_row t _ r (hv r hr) fun title => h3 r.cells (List.mem_map.mpr ⟨r, hr, rfl⟩) title) code
  rw [h2, List.filterMap_map]
  rw [show eventOfRow t ∘ (fun r => CSVRow.new (joinCells 0x3B r) 0x3B) ∘ EventRow.cells =
    fun r : EventRow => eventOfRow t (CSVRow.new r.line 0x3B) from rfl]
  have hf : rows.reverse.find? (fun r => BitVec.ofNat 16 r.code == code) =
      rows.reverse.find? (fun r => r.code == code.toNat) := by
    have : ∀ r ∈ rows.reverse, (BitVec.ofNat 16 r.code == code) = (r.code == code.toNat) := by
      intro r hr
      have := (hv r (List.mem_reverse.mp hr)).code
      rw [Bool.eq_iff_iff, beq_iff_eq, beq_iff_eq, ← BitVec.toNat_inj, BitVec.toNat_ofNat, Nat.mod_eq_of_lt this]
    generalize rows.reverse = l at this
    induction l with
    | nil => rfl
    | cons r l ih =>
      rw [List.find?_cons, List.find?_cons, this r List.mem_cons_self, ih fun r hr => this r (List.mem_cons_of_mem _ hr)]
  rw [hf] at this
  exact this

end Redsea
