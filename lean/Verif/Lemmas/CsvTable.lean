import Verif.Spec.Tables
import Verif.Props.Csv
import Verif.Model.TmcData

/-
Rows and tables that are written as text are read again.
-/

namespace Redsea

open _root_.Redsea.Spec

theorem joinCells_cons (d : Byte) (a b : Str) (l : List Str) :
    joinCells d (a :: b :: l) = a ++ d :: joinCells d (b :: l) := by
  unfold joinCells
  rw [intercalate_cons_ne _ _ _ (by simp)]
  simp

theorem joinCells_one (d : Byte) (a : Str) : joinCells d [a] = a := by
  simp [joinCells, List.intercalate]

theorem split_first {d : Byte} {a b x y : Str} (ha : d ∉ a) (hb : d ∉ b) (h : a ++ d :: x = b ++ d :: y) :
    a = b ∧ x = y := by
  induction a generalizing b with
  | nil =>
    cases b with
    | nil => simpa using h
    | cons c b =>
      simp only [List.nil_append, List.cons_append, List.cons.injEq] at h
      exact absurd (h.1 ▸ List.mem_cons_self) hb
  | cons c a ih =>
    cases b with
    | nil =>
      simp only [List.nil_append, List.cons_append, List.cons.injEq] at h
      exact absurd (h.1 ▸ List.mem_cons_self) ha
    | cons c' b =>
      simp only [List.cons_append, List.cons.injEq] at h
      obtain ⟨h1, h2⟩ := ih (fun hm => ha (List.mem_cons_of_mem _ hm)) (fun hm => hb (List.mem_cons_of_mem _ hm)) h.2
      exact ⟨by rw [h.1, h1], h2⟩

/-- The cells of a row are determined by its text. -/
theorem joinCells_inj (d : Byte) {l m : List Str} (hl : l ≠ []) (hm : m ≠ []) (cl : ∀ c ∈ l, d ∉ c)
    (cm : ∀ c ∈ m, d ∉ c) (h : joinCells d l = joinCells d m) : l = m := by
  induction l generalizing m with
  | nil => exact absurd rfl hl
  | cons a l ih =>
    cases m with
    | nil => exact absurd rfl hm
    | cons b m =>
      have ha := cl a List.mem_cons_self
      have hb := cm b List.mem_cons_self
      cases l with
      | nil =>
        cases m with
        | nil => rw [joinCells_one, joinCells_one] at h; rw [h]
        | cons b' m =>
          rw [joinCells_one, joinCells_cons] at h
          exact absurd (h ▸ List.mem_append_right _ List.mem_cons_self) ha
      | cons a' l =>
        cases m with
        | nil =>
          rw [joinCells_one, joinCells_cons] at h
          exact absurd (h.symm ▸ List.mem_append_right _ List.mem_cons_self) hb
        | cons b' m =>
          rw [joinCells_cons, joinCells_cons] at h
          obtain ⟨h1, h2⟩ := split_first ha hb h
          rw [h1, ih (by simp) (by simp) (fun c hc => cl c (List.mem_cons_of_mem _ hc))
            (fun c hc => cm c (List.mem_cons_of_mem _ hc)) h2]

theorem mem_joinCells {d c : Byte} {cells : List Str} (h : c ∈ joinCells d cells) : c = d ∨ ∃ s ∈ cells, c ∈ s := by
  induction cells with
  | nil => cases h
  | cons a l ih =>
    cases l with
    | nil => rw [joinCells_one] at h; exact .inr ⟨a, List.mem_cons_self, h⟩
    | cons b l =>
      rw [joinCells_cons] at h
      rcases List.mem_append.mp h with h | h
      · exact .inr ⟨a, List.mem_cons_self, h⟩
      · rcases List.mem_cons.mp h with h | h
        · exact .inl h
        · rcases ih h with h | ⟨s, hs, hc⟩
          · exact .inl h
          · exact .inr ⟨s, List.mem_cons_of_mem _ hs, hc⟩

theorem lineEnd_clean (line : Str) (h : (0x0D : Byte) ∉ line ∧ (0x0A : Byte) ∉ line) : lineEnd line = line.length := by
  unfold lineEnd
  rw [List.findIdx_eq_length]
  intro c hc
  have h1 : c ≠ 0x0D := fun e => h.1 (e ▸ hc)
  have h2 : c ≠ 0x0A := fun e => h.2 (e ▸ hc)
  rw [Bool.or_eq_false_iff, beq_eq_false_iff_ne, beq_eq_false_iff_ne]
  exact ⟨h1, h2⟩

theorem lineEnd_return (line : Str) (h : (0x0D : Byte) ∉ line ∧ (0x0A : Byte) ∉ line) :
    lineEnd (line ++ [0x0D]) = line.length := by
  have h1 := lineEnd_clean line h
  unfold lineEnd at h1 ⊢
  rw [List.findIdx_append, h1, if_neg (Nat.lt_irrefl _)]
  exact Nat.zero_add _

/-- The cells of a row that was written are read. -/
theorem line_texts {d : Byte} (hd : d ≠ 0x0D ∧ d ≠ 0x0A) {cells : List Str} {line : Str} (h : IsLine d cells line) :
    (CSVRow.new line d).texts = cells := by
  obtain ⟨h, hline⟩ := h
  have hmem : ∀ s ∈ cells, CleanCell d s := by
    rcases h with h | rfl
    · exact h.2
    · simp
  have hclean : (0x0D : Byte) ∉ joinCells d cells ∧ (0x0A : Byte) ∉ joinCells d cells := by
    constructor <;> intro hm <;> rcases mem_joinCells hm with e | ⟨s, hs, hc⟩
    · exact hd.1 e.symm
    · exact (hmem s hs).2.1 hc
    · exact hd.2 e.symm
    · exact (hmem s hs).2.2 hc
  have hlen : (joinCells d cells).length = 0 ↔ cells = [] := by
    constructor
    · intro h0
      rcases h with ⟨h2, -⟩ | h
      · match cells, h2 with
        | a :: b :: l, _ => rw [joinCells_cons, List.length_append, List.length_cons] at h0; omega
      · exact h
    · rintro rfl
      rfl
  obtain ⟨hend, htake, hdrop⟩ : lineEnd line = (joinCells d cells).length ∧
      line.take (joinCells d cells).length = joinCells d cells ∧ d ∉ line.drop (joinCells d cells).length := by
    rcases hline with rfl | rfl
    · exact ⟨lineEnd_clean _ hclean, List.take_length, by rw [List.drop_length]; simp⟩
    · refine ⟨lineEnd_return _ hclean, ?_, ?_⟩
      · rw [List.take_append_of_le_length (Nat.le_refl _), List.take_length]
      · rw [List.drop_append_of_le_length (Nat.le_refl _), List.drop_length, List.nil_append, List.mem_singleton]
        exact hd.1
  obtain ⟨h1, h2, h3⟩ := C56_fields_partial line d (by rw [hend]; exact hdrop)
  rw [hend, htake] at h1
  rw [hend, hlen] at h3
  by_cases he : cells = []
  · rw [he, h3]
    exact he
  · exact joinCells_inj d (fun e => he (h3.mp e)) he (fun c hc => (h2 c hc).1) (fun c hc => (hmem c hc).1) h1

theorem line_at {d : Byte} (hd : d ≠ 0x0D ∧ d ≠ 0x0A) {cells : List Str} {line : Str} (h : IsLine d cells line)
    (i : Nat) : (CSVRow.new line d).at? i = cells[i]? := by
  rw [(C56_access line d i).1, line_texts hd h]

theorem row_at {d : Byte} (hd : d ≠ 0x0D ∧ d ≠ 0x0A) {cells : List Str} (h : CleanRow d cells) (i : Nat) :
    (CSVRow.new (joinCells d cells) d).at? i = cells[i]? := line_at hd ⟨.inl h, .inl rfl⟩ i

theorem row_length {d : Byte} (hd : d ≠ 0x0D ∧ d ≠ 0x0A) {cells : List Str} (h : CleanRow d cells) :
    (CSVRow.new (joinCells d cells) d).fields.length = cells.length := by
  have := congrArg List.length (line_texts hd ⟨.inl h, .inl rfl⟩)
  unfold CSVRow.texts at this
  rwa [List.length_map] at this

theorem cell_none {titles : List Str} {title : Str} (h : title ∉ titles) (row : List Str) :
    cell titles row title = none := by
  unfold cell
  induction titles generalizing row with
  | nil => rfl
  | cons t titles ih =>
    cases row with
    | nil => rfl
    | cons c row =>
      rw [List.zip_cons_cons, List.lookup_cons]
      have : (title == t) = false := by
        rw [beq_eq_false_iff_ne]
        exact fun e => h (e ▸ List.mem_cons_self)
      rw [this]
      exact ih (fun hm => h (List.mem_cons_of_mem _ hm)) row

theorem cell_at {titles : List Str} (hn : titles.Nodup) {title : Str} {i : Nat} (h : titles[i]? = some title)
    (row : List Str) : cell titles row title = row[i]? := by
  unfold cell
  induction titles generalizing row i with
  | nil => cases h
  | cons t titles ih =>
    cases row with
    | nil => rfl
    | cons c row =>
      rw [List.zip_cons_cons, List.lookup_cons]
      cases i with
      | zero =>
        rw [List.getElem?_cons_zero] at h
        rw [Option.some.inj h, beq_self_eq_true]
        rfl
      | succ i =>
        rw [List.getElem?_cons_succ] at h
        have : (title == t) = false := by
          rw [beq_eq_false_iff_ne]
          rintro rfl
          exact (List.nodup_cons.mp hn).1 (List.mem_of_getElem? h)
        rw [this, List.getElem?_cons_succ]
        exact ih (List.nodup_cons.mp hn).2 h row

/-- A table that was written is read: its rows in order, and the cell of a row below each title. -/
theorem lines_read {d : Byte} (hd : d ≠ 0x0D ∧ d ≠ 0x0A) {titles : List Str} {first : Str}
    (ht : IsLine d titles first) (hn : titles.Nodup) (lines : List Str) :
    ∃ t, readCSVWithTitles (first :: lines) d = some t ∧ t.rows = lines.map (fun l => CSVRow.new l d) ∧
      ∀ line cells, IsLine d cells line → ∀ title,
        t.getString (CSVRow.new line d) title = cell titles cells title := by
  obtain ⟨t, h1, h2, h3, h4⟩ := C56_titles first lines d
  refine ⟨t, h1, h2, ?_⟩
  intro line cells hl title
  rw [line_texts hd ht] at h4
  have h4 := h4 hn (CSVRow.new line d) title
  by_cases hmem : title ∈ titles
  · obtain ⟨i, hi⟩ := List.mem_iff_getElem?.mp hmem
    rw [h4 i hi, line_at hd hl, cell_at hn hi]
  · rw [cell_none hmem]
    cases hg : t.getString (CSVRow.new line d) title with
    | none => rfl
    | some x =>
      obtain ⟨i, hi, -⟩ := h3 _ _ _ hg
      rw [line_texts hd ht] at hi
      exact absurd (List.mem_of_getElem? hi) hmem

theorem table_read {d : Byte} (hd : d ≠ 0x0D ∧ d ≠ 0x0A) {titles : List Str} (ht : CleanRow d titles)
    (hn : titles.Nodup) (rows : List (List Str)) (hr : ∀ r ∈ rows, CleanRow d r) :
    ∃ t, readCSVWithTitles (joinCells d titles :: rows.map (joinCells d)) d = some t ∧
      t.rows = rows.map (fun r => CSVRow.new (joinCells d r) d) ∧
      ∀ r ∈ rows, ∀ title, t.getString (CSVRow.new (joinCells d r) d) title = cell titles r title := by
  obtain ⟨t, h1, h2, h3⟩ := lines_read hd ⟨.inl ht, .inl rfl⟩ hn (rows.map (joinCells d))
  refine ⟨t, h1, by rw [h2, List.map_map]; rfl, ?_⟩
  intro r hm title
  exact h3 _ r ⟨.inl (hr r hm), .inl rfl⟩ title

theorem filterMap_eq_of_mem {α β : Type} {f g : α → Option β} {l : List α} (h : ∀ a ∈ l, f a = g a) :
    l.filterMap f = l.filterMap g := by
  induction l with
  | nil => rfl
  | cons a l ih =>
    rw [List.filterMap_cons, List.filterMap_cons, h a List.mem_cons_self, ih fun b hb => h b (List.mem_cons_of_mem _ hb)]

/-- Reading the records of a table: the rows and the records belong together. -/
theorem written_read {R : Type} {shows : List Str → List Str → R → Prop} {lines : List Str} {records : List R}
    (hw : Written 0x3B shows lines records) :
    ∃ (t : CSVTable) (zs : List (CSVRow × R)), readCSVWithTitles lines 0x3B = some t ∧
      t.rows = zs.map (·.1) ∧ records = zs.map (·.2) ∧
      ∀ z ∈ zs, ∃ titles cells, (∀ title, t.getString z.1 title = cell titles cells title) ∧ shows titles cells z.2 := by
  obtain ⟨titles, first, rows, hn, hf, rfl, rfl, hr⟩ := hw
  obtain ⟨t, h1, h2, h3⟩ := lines_read (d := 0x3B) (by decide) hf hn (rows.map (·.1))
  refine ⟨t, rows.map fun r => (CSVRow.new r.1 0x3B, r.2), h1, ?_, ?_, ?_⟩
  · rw [h2, List.map_map, List.map_map]
    rfl
  · rw [List.map_map]
    rfl
  · intro z hz
    obtain ⟨row, hm, rfl⟩ := List.mem_map.mp hz
    obtain ⟨cells, hl, hs⟩ := hr row hm
    exact ⟨titles, cells, fun title => h3 row.1 cells hl title, hs⟩

/-! ### Numbers -/

theorem digit_byte (n : Nat) (h : n < 10) :
    BitVec.ofNat 8 (n.digitChar).toNat = BitVec.ofNat 8 (0x30 + n) ∧ digitOf (BitVec.ofNat 8 (0x30 + n)) = some n := by
  have : ∀ n : Fin 10, BitVec.ofNat 8 (n.val.digitChar).toNat = BitVec.ofNat 8 (0x30 + n.val) ∧
      digitOf (BitVec.ofNat 8 (0x30 + n.val)) = some n.val := by decide +kernel
  exact this ⟨n, h⟩

theorem decimal_rec (n : Nat) :
    decimal n = if n < 10 then [BitVec.ofNat 8 (0x30 + n)] else decimal (n / 10) ++ [BitVec.ofNat 8 (0x30 + n % 10)] := by
  have hd : ∀ n, decimal n = (Nat.toDigits 10 n).map fun c => BitVec.ofNat 8 c.toNat := by
    intro n
    unfold decimal ascii
    rw [Nat.toString_eq_ofList_toDigits, String.toList_ofList]
  split
  · rename_i h
    rw [hd, Nat.toDigits_of_lt_base h, List.map_singleton, (digit_byte n h).1]
  · rename_i h
    rw [hd, hd, Nat.toDigits_of_base_le (by decide) (by omega), List.map_append, List.map_singleton,
      (digit_byte (n % 10) (by omega)).1]

theorem leadingDigits_append {s : Str} (h : ∀ c ∈ s, (digitOf c).isSome) (t : Str) :
    leadingDigits (s ++ t) = leadingDigits s ++ leadingDigits t := by
  induction s with
  | nil => rfl
  | cons c s ih =>
    obtain ⟨d, hd⟩ := Option.isSome_iff_exists.mp (h c List.mem_cons_self)
    rw [List.cons_append, leadingDigits, leadingDigits, hd]
    dsimp only
    rw [ih fun c hc => h c (List.mem_cons_of_mem _ hc)]
    rfl

theorem decimal_digits (n : Nat) : (∀ c ∈ decimal n, (digitOf c).isSome) ∧
    leadingDigits (decimal n) ≠ [] ∧ (leadingDigits (decimal n)).foldl (fun v d => v * 10 + d) 0 = n := by
  induction n using Nat.strongRecOn with
  | ind n ih =>
    rw [decimal_rec]
    split
    · rename_i h
      have hb := (digit_byte n h).2
      have e : leadingDigits [BitVec.ofNat 8 (0x30 + n)] = [n] := by
        rw [leadingDigits, hb]
        rfl
      rw [e]
      refine ⟨?_, by simp, by simp⟩
      intro c hc
      rw [List.mem_singleton.mp hc, hb]
      rfl
    · rename_i h
      obtain ⟨h1, h2, h3⟩ := ih (n / 10) (by omega)
      have hb := (digit_byte (n % 10) (by omega)).2
      have e : leadingDigits [BitVec.ofNat 8 (0x30 + n % 10)] = [n % 10] := by
        rw [leadingDigits, hb]
        rfl
      rw [leadingDigits_append h1, e]
      refine ⟨?_, by simp, ?_⟩
      · intro c hc
        rcases List.mem_append.mp hc with hc | hc
        · exact h1 c hc
        · rw [List.mem_singleton.mp hc, hb]
          rfl
      · rw [List.foldl_append, h3]
        simp only [List.foldl_cons, List.foldl_nil]
        omega

theorem digit_facts (c : Byte) (h : (digitOf c).isSome) : isSpaceByte c = false ∧ c ≠ 0x2D ∧ c ≠ 0x2B ∧
    c ≠ 0x3B ∧ c ≠ 0x2C ∧ c ≠ 0x0D ∧ c ≠ 0x0A := by
  revert c
  decide +kernel

theorem stoi_negative (n : Nat) (h0 : 0 < n) (h : n ≤ 2147483648) :
    stoi (0x2D#8 :: decimal n) = some (-(n : Int)) := by
  obtain ⟨h1, h2, h3⟩ := decimal_digits n
  unfold stoi
  have e1 : (0x2D#8 :: decimal n).dropWhile isSpaceByte = 0x2D#8 :: decimal n := by
    rw [List.dropWhile_cons]
    rfl
  have n1 : (0x2D#8 :: decimal n).head? = some (0x2D : Byte) := rfl
  rw [e1]
  simp only [n1, if_true, true_or, List.tail_cons, if_neg h2, h3]
  rw [if_pos (by omega)]

/-- A number that was written in decimal is read. -/
theorem stoi_decimal (n : Nat) (h : n < 2147483648) : stoi (decimal n) = some (n : Int) := by
  obtain ⟨h1, h2, h3⟩ := decimal_digits n
  cases hd : decimal n with
  | nil => rw [hd] at h2; exact absurd rfl h2
  | cons c s =>
    rw [hd] at h1 h2 h3
    obtain ⟨f1, f2, f3, -⟩ := digit_facts c (h1 c List.mem_cons_self)
    unfold stoi
    have e1 : (c :: s).dropWhile isSpaceByte = c :: s := by
      rw [List.dropWhile_cons, f1]
      rfl
    rw [e1]
    have n1 : ¬ ((c :: s).head? = some 0x2D) := by simpa using f2
    have n2 : ¬ ((c :: s).head? = some 0x2D ∨ (c :: s).head? = some 0x2B) := by
      rintro (h | h)
      · exact n1 h
      · exact f3 (by simpa using h)
    simp only [if_neg n1, if_neg n2, if_neg h2, h3]
    rw [if_pos (by omega)]

theorem decimal_clean (n : Nat) : CleanCell 0x3B (decimal n) ∧ CleanCell 0x2C (decimal n) ∧ decimal n ≠ [] := by
  have h := decimal_digits n
  have f : ∀ c ∈ decimal n, _ := fun c hc => digit_facts c (h.1 c hc)
  refine ⟨⟨fun hm => (f _ hm).2.2.2.1 rfl, fun hm => (f _ hm).2.2.2.2.2.1 rfl, fun hm => (f _ hm).2.2.2.2.2.2 rfl⟩,
    ⟨fun hm => (f _ hm).2.2.2.2.1 rfl, fun hm => (f _ hm).2.2.2.2.2.1 rfl, fun hm => (f _ hm).2.2.2.2.2.2 rfl⟩, ?_⟩
  intro e
  rw [e] at h
  exact h.2.1 rfl

end Redsea
