import Verif.Model.Csv

/-! # C56: rows of CSV tables -/

namespace Redsea

/-- The texts of the fields of a row. -/
def CSVRow.texts (r : CSVRow) : List Str :=
  r.fields.map fun f => (r.rowString.drop f.1).take f.2

theorem csvFields_eq (line : Str) (d : Byte) (start : Nat) :
    csvFields line d start = if start - 1 < lineEnd line then
      (start, fieldEnd line d start - start) :: csvFields line d (fieldEnd line d start + 1)
    else [] := by
  conv => lhs; rw [csvFields]
  split <;> rfl

theorem lineEnd_le (line : Str) : lineEnd line ≤ line.length := List.findIdx_le_length

theorem lineEnd_not_mem (line : Str) {c : Byte} (h : c ∈ line.take (lineEnd line)) :
    c ≠ 0x0D ∧ c ≠ 0x0A := by
  obtain ⟨i, hi, rfl⟩ := List.mem_iff_getElem.mp h
  rw [List.length_take] at hi
  have := List.not_of_lt_findIdx (p := fun c : Byte => c == 0x0D || c == 0x0A) (xs := line) (i := i)
    (by have := lineEnd_le line; unfold lineEnd at hi this; omega)
  rw [List.getElem_take]
  simpa using this

theorem findFrom_none {line : Str} {d : Byte} {start : Nat} (h : findFrom line d start = none) :
    d ∉ line.drop start := by
  unfold findFrom at h
  rw [Option.map_eq_none_iff, List.findIdx?_eq_none_iff] at h
  intro hm
  have := h d hm
  simp at this

theorem findFrom_some {line : Str} {d : Byte} {start e : Nat} (h : findFrom line d start = some e) :
    start ≤ e ∧ line[e]? = some d ∧ d ∉ (line.drop start).take (e - start) := by
  unfold findFrom at h
  rw [Option.map_eq_some_iff] at h
  obtain ⟨i, h, rfl⟩ := h
  rw [List.findIdx?_eq_some_iff_getElem] at h
  obtain ⟨hi, h1, h2⟩ := h
  refine ⟨by omega, ?_, ?_⟩
  · rw [List.getElem_drop, beq_iff_eq] at h1
    rw [List.length_drop] at hi
    rw [Nat.add_comm i start, ← h1]
    exact List.getElem?_eq_getElem _
  · intro hm
    obtain ⟨j, hj, hd⟩ := List.mem_iff_getElem.mp hm
    rw [List.length_take] at hj
    have := h2 j (by omega)
    rw [List.getElem_take] at hd
    rw [hd] at this
    simp at this

/-- The end of a field is inside the line, and the field does not contain the delimiter. -/
theorem fieldEnd_spec (line : Str) (d : Byte) (start : Nat) (h : start ≤ lineEnd line) :
    start ≤ fieldEnd line d start ∧ fieldEnd line d start ≤ line.length ∧
      d ∉ (line.drop start).take (fieldEnd line d start - start) ∧
      (line[fieldEnd line d start]? = some d ∨
        (fieldEnd line d start = lineEnd line ∧ d ∉ line.drop start)) := by
  refine ⟨le_fieldEnd line d start h, ?_⟩
  unfold fieldEnd
  cases hf : findFrom line d start with
  | none =>
    have := findFrom_none hf
    exact ⟨lineEnd_le line, fun hm => this (List.mem_of_mem_take hm), .inr ⟨rfl, this⟩⟩
  | some e =>
    obtain ⟨h1, h2, h3⟩ := findFrom_some hf
    exact ⟨Nat.le_of_lt (List.getElem?_eq_some_iff.mp h2).1, h3, .inl h2⟩

theorem csvFields_inside (line : Str) (d : Byte) (start : Nat) :
    ∀ f ∈ csvFields line d start, f.1 + f.2 ≤ line.length ∧ d ∉ (line.drop f.1).take f.2 := by
  induction hn : lineEnd line + 1 - start using Nat.strongRecOn generalizing start with
  | ind n ih =>
    intro f hf
    rw [csvFields_eq] at hf
    by_cases hs : start - 1 < lineEnd line
    · rw [if_pos hs] at hf
      obtain ⟨h1, h2, h3, -⟩ := fieldEnd_spec line d start (by omega)
      rcases List.mem_cons.mp hf with rfl | hf
      · exact ⟨by show start + (fieldEnd line d start - start) ≤ _; omega, h3⟩
      · exact ih _ (by omega) _ rfl f hf
    · rw [if_neg hs] at hf
      cases hf

/-- **C56**: access to a field gives the text of the field, a part of the line without delimiter;
`CSVRow::at` throws exactly for an index after the last field, and nothing outside the line is read. -/
theorem C56_access (line : Str) (d : Byte) (i : Nat) :
    (CSVRow.new line d).at? i = (CSVRow.new line d).texts[i]? ∧
    (∀ f ∈ (CSVRow.new line d).fields, f.1 + f.2 ≤ line.length) ∧
    ∀ t ∈ (CSVRow.new line d).texts, d ∉ t := by
  have hin := csvFields_inside line d 0
  refine ⟨?_, fun f hf => (hin f hf).1, ?_⟩
  · unfold CSVRow.at? CSVRow.texts
    rw [List.getElem?_map]
    cases hf : (CSVRow.new line d).fields[i]? with
    | none => rfl
    | some f =>
      have := (hin f (List.mem_of_getElem? hf)).1
      show substr line f.1 f.2 = some _
      unfold substr
      rw [if_pos (by omega)]
      rfl
  · intro t ht
    unfold CSVRow.texts at ht
    obtain ⟨f, hf, rfl⟩ := List.mem_map.mp ht
    exact (hin f hf).2

theorem intercalate_cons_ne (sep a : Str) (l : List Str) (h : l ≠ []) :
    List.intercalate sep (a :: l) = a ++ sep ++ List.intercalate sep l := by
  cases l with
  | nil => exact absurd rfl h
  | cons b l => simp [List.intercalate, List.intersperse]

theorem csv_split (line : Str) (d : Byte) (hd : d ∉ line.drop (lineEnd line)) (start : Nat)
    (hs : start - 1 < lineEnd line) :
    List.intercalate [d] ((csvFields line d start).map fun f => (line.drop f.1).take f.2) =
        (line.take (lineEnd line)).drop start ∧
      csvFields line d start ≠ [] ∧
      ∀ f ∈ csvFields line d start, f.1 + f.2 ≤ lineEnd line := by
  induction hn : lineEnd line + 1 - start using Nat.strongRecOn generalizing start with
  | ind n ih =>
    rw [csvFields_eq, if_pos hs]
    obtain ⟨h1, h2, h3, h4⟩ := fieldEnd_spec line d start (by omega)
    have hle := lineEnd_le line
    generalize fieldEnd line d start = e at h1 h2 h3 h4
    refine ⟨?_, List.cons_ne_nil _ _, ?_⟩
    · rw [List.map_cons]
      rcases h4 with h4 | ⟨h4, -⟩
      · have helt : e < lineEnd line := by
          by_cases hc : e < lineEnd line
          · exact hc
          · exfalso
            apply hd
            have : line.drop (lineEnd line) = line.drop (lineEnd line) := rfl
            refine List.mem_of_getElem? (i := e - lineEnd line) ?_
            rw [List.getElem?_drop, show lineEnd line + (e - lineEnd line) = e by omega]
            exact h4
        obtain ⟨i1, i2, -⟩ := ih _ (by omega) (e + 1) (by omega) rfl
        rw [intercalate_cons_ne _ _ _ (by simpa using i2), i1]
        show (line.drop start).take (e - start) ++ [d] ++ _ = _
        obtain ⟨he, hed⟩ := List.getElem?_eq_some_iff.mp h4
        rw [List.drop_take, List.drop_take]
        have hdrop : (line.drop start).drop (e - start) = d :: line.drop (e + 1) := by
          rw [List.drop_drop, show start + (e - start) = e by omega, List.drop_eq_getElem_cons he, hed]
        conv => rhs; rw [← List.take_append_drop (e - start) (line.drop start), hdrop]
        rw [List.take_append, List.length_take, List.length_drop,
          Nat.min_eq_left (by omega), List.take_of_length_le (i := lineEnd line - start) (by
            rw [List.length_take, List.length_drop]; omega),
          show lineEnd line - start - (e - start) = (lineEnd line - (e + 1)) + 1 by omega,
          List.take_succ_cons, List.append_assoc]
        rfl
      · rw [csvFields_eq, if_neg (by omega)]
        show List.intercalate [d] [(line.drop start).take (e - start)] = _
        rw [h4, List.drop_take]
        simp [List.intercalate]
    · intro f hf
      have helt : e ≤ lineEnd line := by
        rcases h4 with h4 | ⟨h4, -⟩
        · by_cases hc : e ≤ lineEnd line
          · exact hc
          · exfalso
            apply hd
            refine List.mem_of_getElem? (i := e - lineEnd line) ?_
            rw [List.getElem?_drop, show lineEnd line + (e - lineEnd line) = e by omega]
            exact h4
        · omega
      rcases List.mem_cons.mp hf with rfl | hf
      · show start + (e - start) ≤ _
        omega
      · by_cases hc : e + 1 - 1 < lineEnd line
        · exact (ih _ (by omega) (e + 1) hc rfl).2.2 f hf
        · rw [csvFields_eq, if_neg hc] at hf
          cases hf

/-- **C56** (partial): if there is no delimiter after the line end, the fields are the pieces of the
line up to its end: joined by the delimiter they give it back, and they contain neither a delimiter nor
a line end. (A line that is empty up to its end has no fields.) Missing for the full property: lines in
which a delimiter follows after the first carriage return, for which see `C56_carriage_return_violated`. -/
theorem C56_fields_partial (line : Str) (d : Byte) (hd : d ∉ line.drop (lineEnd line)) :
    List.intercalate [d] (CSVRow.new line d).texts = line.take (lineEnd line) ∧
    (∀ t ∈ (CSVRow.new line d).texts, d ∉ t ∧ (0x0D : Byte) ∉ t ∧ (0x0A : Byte) ∉ t) ∧
    ((CSVRow.new line d).texts = [] ↔ lineEnd line = 0) := by
  by_cases h0 : 0 < lineEnd line
  · obtain ⟨h1, h2, h3⟩ := csv_split line d hd 0 (by omega)
    refine ⟨h1, ?_, ?_⟩
    · intro t ht
      refine ⟨(C56_access line d 0).2.2 t ht, ?_⟩
      unfold CSVRow.texts at ht
      obtain ⟨f, hf, rfl⟩ := List.mem_map.mp ht
      have hb := h3 f hf
      have hsub : ∀ c ∈ (line.drop f.1).take f.2, c ∈ line.take (lineEnd line) := by
        intro c hc
        obtain ⟨j, hj⟩ := List.mem_iff_getElem?.mp hc
        have hjl := (List.getElem?_eq_some_iff.mp hj).1
        rw [List.length_take] at hjl
        rw [List.getElem?_take_of_lt (by omega), List.getElem?_drop] at hj
        refine List.mem_of_getElem? (i := f.1 + j) ?_
        rw [List.getElem?_take_of_lt (by omega)]
        exact hj
      exact ⟨fun hm => (lineEnd_not_mem line (hsub _ hm)).1 rfl,
        fun hm => (lineEnd_not_mem line (hsub _ hm)).2 rfl⟩
    · refine ⟨fun h => ?_, fun h => by omega⟩
      unfold CSVRow.texts at h
      exact absurd (List.map_eq_nil_iff.mp h) h2
  · have e : (CSVRow.new line d).texts = [] := by
      unfold CSVRow.texts CSVRow.new
      rw [csvFields_eq, if_neg (by omega)]
      rfl
    have h0' : lineEnd line = 0 := by omega
    rw [e, h0']
    refine ⟨rfl, fun t ht => (by cases ht), by simp⟩

/-- **C56, violated**: with a delimiter after the line end (as in a file with carriage returns only) a
field contains the line end. -/
theorem C56_carriage_return_violated : ∃ (line : Str) (d : Byte) (t : Str),
    (CSVRow.new line d).at? 0 = some t ∧ (0x0D : Byte) ∈ t ∧
    List.intercalate [d] (CSVRow.new line d).texts ≠ line.take (lineEnd line) := by
  have e : (CSVRow.new (ascii "a\rb;c") 0x3B).fields = [(0, 3)] := by
    unfold CSVRow.new
    rw [csvFields_eq, if_pos (by decide), csvFields_eq, if_neg (by decide)]
    rfl
  refine ⟨ascii "a\rb;c", 0x3B, ascii "a\rb", ?_, by decide, ?_⟩
  · unfold CSVRow.at?
    rw [e]
    rfl
  · unfold CSVRow.texts
    rw [e]
    decide

/-- A row with an empty field and a carriage return at its end. -/
example : (0x3B : Byte) ∉ (ascii "1;;abc;\r").drop (lineEnd (ascii "1;;abc;\r")) ∧
    (CSVRow.new (ascii "1;;abc;\r") 0x3B).texts = [ascii "1", [], ascii "abc", []] := by
  refine ⟨by decide, ?_⟩
  unfold CSVRow.texts CSVRow.new
  rw [csvFields_eq, csvFields_eq, csvFields_eq, csvFields_eq, csvFields_eq]
  decide

/-! ### Tables with titles -/

theorem csvTitles_eq (row : CSVRow) (fs : List (Nat × Nat)) (i : Nat)
    (h : ∀ f ∈ fs, f.1 ≤ row.rowString.length) :
    csvTitles row i fs =
      some (((fs.map fun f => (row.rowString.drop f.1).take f.2).zipIdx i).reverse) := by
  induction fs generalizing i with
  | nil => rfl
  | cons f fs ih =>
    rw [csvTitles, ih _ fun f hf => h f (List.mem_cons_of_mem _ hf)]
    unfold substr
    rw [if_pos (h f List.mem_cons_self), List.map_cons, List.zipIdx_cons, List.reverse_cons]
    rfl

theorem lookup_some_mem {l : List (Str × Nat)} {t : Str} {i : Nat} (h : l.lookup t = some i) :
    (t, i) ∈ l := by
  induction l with
  | nil => cases h
  | cons p l ih =>
    rw [List.lookup_cons] at h
    split at h
    · rename_i he
      rw [beq_iff_eq] at he
      rw [he, ← Option.some.inj h]
      exact List.mem_cons_self
    · exact List.mem_cons_of_mem _ (ih h)

theorem lookup_isSome {l : List (Str × Nat)} {t : Str} {i : Nat} (h : (t, i) ∈ l) :
    ∃ j, l.lookup t = some j := by
  induction l with
  | nil => cases h
  | cons p l ih =>
    rw [List.lookup_cons]
    split
    · exact ⟨_, rfl⟩
    · rename_i he
      rcases List.mem_cons.mp h with rfl | h
      · simp at he
      · exact ih h

/-- **C56** for tables with titles: a table is read from any lines without an exception, its rows are
those of the other lines, and access by title gives the field below that title (if it is in the row).
If no two titles are the same, it gives it for every title. -/
theorem C56_titles (first : Str) (lines : List Str) (d : Byte) : ∃ t,
    readCSVWithTitles (first :: lines) d = some t ∧
    t.rows = lines.map (fun l => CSVRow.new l d) ∧
    (∀ (row : CSVRow) (title x : Str), t.getString row title = some x →
      ∃ i, (CSVRow.new first d).texts[i]? = some title ∧ row.at? i = some x) ∧
    ((CSVRow.new first d).texts.Nodup → ∀ (row : CSVRow) (title : Str) (i : Nat),
      (CSVRow.new first d).texts[i]? = some title → t.getString row title = row.at? i) := by
  have hin : ∀ f ∈ (CSVRow.new first d).fields, f.1 ≤ (CSVRow.new first d).rowString.length := by
    intro f hf
    have := (C56_access first d 0).2.1 f hf
    show f.1 ≤ first.length
    omega
  have ht := csvTitles_eq (CSVRow.new first d) (CSVRow.new first d).fields 0 hin
  refine ⟨{ titles := ((CSVRow.new first d).texts.zipIdx 0).reverse,
            rows := lines.map fun l => CSVRow.new l d }, ?_, rfl, ?_, ?_⟩
  · unfold readCSVWithTitles
    dsimp only
    rw [ht]
    rfl
  · intro row title x hx
    unfold CSVTable.getString at hx
    obtain ⟨i, hi, hx⟩ := Option.bind_eq_some_iff.mp hx
    have := List.mem_reverse.mp (lookup_some_mem hi)
    exact ⟨i, List.mk_mem_zipIdx_iff_getElem?.mp this, hx⟩
  · intro hnd row title i hi
    have hm : (title, i) ∈ ((CSVRow.new first d).texts.zipIdx 0).reverse :=
      List.mem_reverse.mpr (List.mk_mem_zipIdx_iff_getElem?.mpr hi)
    obtain ⟨j, hj⟩ := lookup_isSome hm
    have hj' := List.mk_mem_zipIdx_iff_getElem?.mp (List.mem_reverse.mp (lookup_some_mem hj))
    have e : j = i := by
      obtain ⟨h1, h2⟩ := List.getElem?_eq_some_iff.mp hj'
      obtain ⟨h3, h4⟩ := List.getElem?_eq_some_iff.mp hi
      exact (List.getElem_inj hnd).mp (h2.trans h4.symm)
    unfold CSVTable.getString
    rw [hj, e]
    rfl

/-- Two different titles. -/
example : (CSVRow.new (ascii "CID;LCD") 0x3B).texts = [ascii "CID", ascii "LCD"] ∧
    [ascii "CID", ascii "LCD"].Nodup := by
  refine ⟨?_, by decide⟩
  unfold CSVRow.texts CSVRow.new
  rw [csvFields_eq, csvFields_eq, csvFields_eq]
  decide

end Redsea
