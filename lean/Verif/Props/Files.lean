import Verif.Spec.Files
import Verif.Props.Main
import Verif.Props.TmcProgram
import Verif.Lemmas.JsonText

/-
Property C87: files are read line by line.
-/

namespace Redsea

open _root_.Redsea.Spec

theorem fileLinesFrom_line (l rest : Str) (h : (0x0A : Byte) ∉ l) (line : Str) :
    fileLinesFrom line (l ++ 0x0A :: rest) = (line ++ l) :: fileLinesFrom [] rest := by
  induction l generalizing line with
  | nil => rw [List.nil_append, fileLinesFrom, if_pos rfl, List.append_nil]
  | cons c l ih =>
    rw [List.mem_cons, not_or] at h
    rw [List.cons_append, fileLinesFrom, if_neg (fun e => h.1 e.symm), ih h.2, List.append_assoc, List.singleton_append]

theorem fileLinesFrom_last (l : Str) (h : (0x0A : Byte) ∉ l) (line : Str) :
    fileLinesFrom line l = if line ++ l = [] then [] else [line ++ l] := by
  induction l generalizing line with
  | nil => rw [fileLinesFrom, List.append_nil]
  | cons c l ih =>
    rw [List.mem_cons, not_or] at h
    rw [fileLinesFrom, if_neg (fun e => h.1 e.symm), ih h.2, List.append_assoc, List.singleton_append]

/-- **C87**: the lines of a file are read as they are, whether or not the last one ends with a line feed. -/
theorem C87_lines (lines : List Str) (h : ∀ l ∈ lines, (0x0A : Byte) ∉ l) (text : Str) (ht : TextOf lines text) :
    fileLines (some text) = lines := by
  show fileLinesFrom [] text = lines
  rcases ht with rfl | ⟨last, hlast, hne, he⟩
  · induction lines with
    | nil => rfl
    | cons l lines ih =>
      rw [List.flatMap_cons, List.append_assoc, List.singleton_append, fileLinesFrom_line l _ (h l List.mem_cons_self),
        ih fun x hx => h x (List.mem_cons_of_mem _ hx), List.nil_append]
  · induction lines generalizing text with
    | nil => cases hlast
    | cons l lines ih =>
      cases lines with
      | nil =>
        rw [List.getLast?_singleton] at hlast
        have e := Option.some.inj hlast
        subst e
        have : text = l := by
          rw [List.flatMap_singleton] at he
          exact List.append_cancel_right he
        rw [this, fileLinesFrom_last l (h l List.mem_cons_self), List.nil_append, if_neg hne]
      | cons l2 lines =>
        rw [List.getLast?_cons_cons] at hlast
        rw [List.flatMap_cons] at he
        obtain ⟨rest, hr⟩ : ∃ rest, text = l ++ 0x0A :: rest ∧
            rest ++ [0x0A] = (l2 :: lines).flatMap (· ++ [0x0A]) := by
          obtain ⟨ys, hy⟩ : ∃ ys, (l2 :: lines).flatMap (· ++ [(0x0A : Byte)]) = ys ++ [0x0A] := by
            rcases List.eq_nil_or_concat (l2 :: lines) with e | ⟨xs, x, e⟩
            · cases e
            · rw [e, List.concat_eq_append, List.flatMap_append, List.flatMap_singleton]
              exact ⟨_, (List.append_assoc _ _ _).symm⟩
          refine ⟨ys, ?_, hy.symm⟩
          rw [hy, ← List.append_assoc] at he
          have := List.append_cancel_right he
          rw [this, List.append_assoc, List.singleton_append]
        rw [hr.1, fileLinesFrom_line l _ (h l List.mem_cons_self),
          ih (fun x hx => h x (List.mem_cons_of_mem _ hx)) rest hlast hr.2, List.nil_append]

/-- **C87**: nothing is lost or added, whatever the file contains. -/
theorem C87_every_text (text : Str) :
    TextOf (fileLines (some text)) text ∧ ∀ l ∈ fileLines (some text), (0x0A : Byte) ∉ l := by
  have key : ∀ (text line : Str), (0x0A : Byte) ∉ line →
      TextOf (fileLinesFrom line text) (line ++ text) ∧ ∀ l ∈ fileLinesFrom line text, (0x0A : Byte) ∉ l := by
    intro text
    induction text with
    | nil =>
      intro line hl
      rw [fileLinesFrom, List.append_nil]
      split
      · rename_i e
        subst e
        exact ⟨.inl rfl, by intro l hl; cases hl⟩
      · rename_i e
        refine ⟨.inr ⟨line, rfl, e, ?_⟩, ?_⟩
        · rw [List.flatMap_singleton]
        · intro l h
          rw [List.mem_singleton.mp h]
          exact hl
    | cons c text ih =>
      intro line hl
      rw [fileLinesFrom]
      split
      · rename_i e
        subst e
        obtain ⟨i1, i2⟩ := ih [] (by simp)
        rw [List.nil_append] at i1
        refine ⟨?_, ?_⟩
        · rcases i1 with i1 | ⟨last, a, b, i1⟩
          · refine .inl ?_
            rw [List.flatMap_cons, List.append_assoc, List.singleton_append, ← i1]
          · refine .inr ⟨last, ?_, b, ?_⟩
            · rw [List.getLast?_cons, a]
              rfl
            · rw [List.flatMap_cons, ← i1]
              simp
        · intro l h
          rcases List.mem_cons.mp h with rfl | h
          · exact hl
          · exact i2 l h
      · rename_i e
        have := ih (line ++ [c]) (by
          rw [List.mem_append, not_or, List.mem_singleton]
          exact ⟨hl, fun x => e x.symm⟩)
        rw [List.append_assoc, List.singleton_append] at this
        exact this
  exact key text [] (by simp)

/-- The lines of a file that exists, or none. -/
def FileHas (file : Option Str) (lines : List Str) : Prop := ∃ text, file = some text ∧ TextOf lines text

theorem fileHas_lines {file : Option Str} {lines : List Str} (h : FileHas file lines) (hl : ∀ l ∈ lines, (0x0A : Byte) ∉ l) :
    fileLines file = lines := by
  obtain ⟨text, rfl, ht⟩ := h
  exact C87_lines lines hl text ht

theorem isLine_no_feed {d : Byte} (hd : d ≠ 0x0A) {cells : List Str} {line : Str} (h : IsLine d cells line) :
    (0x0A : Byte) ∉ line := by
  have hj : ∀ cells : List Str, (∀ c ∈ cells, CleanCell d c) → (0x0A : Byte) ∉ joinCells d cells := by
    intro cells hc hm
    unfold joinCells at hm
    induction cells with
    | nil => cases hm
    | cons c cells ih =>
      cases cells with
      | nil =>
        have : (0x0A : Byte) ∈ c := by simpa [List.intercalate] using hm
        exact (hc c List.mem_cons_self).2.2 this
      | cons c2 cells =>
        have e : List.intercalate [d] (c :: c2 :: cells) = c ++ d :: List.intercalate [d] (c2 :: cells) := by
          simp [List.intercalate, List.intersperse]
        rw [e, List.mem_append, List.mem_cons] at hm
        rcases hm with hm | hm | hm
        · exact (hc c List.mem_cons_self).2.2 hm
        · exact hd hm.symm
        · exact ih (fun x hx => hc x (List.mem_cons_of_mem _ hx)) hm
  have hc : (0x0A : Byte) ∉ joinCells d cells := by
    rcases h.1 with hc | rfl
    · exact hj cells hc.2
    · exact hj [] (by intro c hc; cases hc)
  rcases h.2 with rfl | rfl
  · exact hc
  · rw [List.mem_append, not_or]
    exact ⟨hc, by decide⟩

theorem written_no_feed {R : Type} {shows : List Str → List Str → R → Prop} {lines : List Str} {records : List R}
    (h : Written 0x3B shows lines records) : ∀ l ∈ lines, (0x0A : Byte) ∉ l := by
  obtain ⟨titles, first, rows, -, hf, rfl, -, hr⟩ := h
  intro l hl
  rcases List.mem_cons.mp hl with rfl | hl
  · exact isLine_no_feed (by decide) hf
  · obtain ⟨row, hrow, rfl⟩ := List.mem_map.mp hl
    obtain ⟨cells, hc, -⟩ := hr row hrow
    exact isLine_no_feed (by decide) hc

/-- A location table is in the files of a directory, whose lines end in any of the usual ways. -/
structure TableAt (files : Str → Option Str) (dir : Str) (t : LocationTable) (lines : LocationFiles) : Prop where
  names : FileHas (files (dir ++ ascii "/NAMES.DAT")) lines.names
  roads : FileHas (files (dir ++ ascii "/ROADS.DAT")) lines.roads
  segments : FileHas (files (dir ++ ascii "/SEGMENTS.DAT")) lines.segments
  points : FileHas (files (dir ++ ascii "/POINTS.DAT")) lines.points
  offsets : FileHas (files (dir ++ ascii "/POFFSETS.DAT")) lines.offsets
  written : t.InFiles lines

/-- **C87**: a location table in the files of a directory is found there under the names of the files. Together with C69, its
points and roads are loaded; together with C84, messages are printed in its words. -/
theorem C87_table (files : Str → Option Str) (dir : Str) (t : LocationTable) (lines : LocationFiles)
    (h : TableAt files dir t lines) : t.InFiles (tableFiles files dir) := by
  have w := h.written
  refine ⟨?_, ?_, ?_, ?_, ?_⟩
  · show Written 0x3B showsName (fileLines _) _
    rw [fileHas_lines h.names (written_no_feed w.names)]
    exact w.names
  · show Written 0x3B showsRoad (fileLines _) _
    rw [fileHas_lines h.roads (written_no_feed w.roads)]
    exact w.roads
  · show Written 0x3B showsSegment (fileLines _) _
    rw [fileHas_lines h.segments (written_no_feed w.segments)]
    exact w.segments
  · show Written 0x3B (showsPoint t.number) (fileLines _) _
    rw [fileHas_lines h.points (written_no_feed w.points)]
    exact w.points
  · show Written 0x3B showsOffset (fileLines _) _
    rw [fileHas_lines h.offsets (written_no_feed w.offsets)]
    exact w.offsets

/-- **C87**: the number under which the table is found is that of the last row of LOCATIONDATASETS.DAT that has one. -/
theorem C87_number (files : Str → Option Str) (dir : Str) (lines : List Str) (rows : List (Option Word))
    (h : FileHas (files (dir ++ ascii "/LOCATIONDATASETS.DAT")) lines) (hw : Written 0x3B showsTable lines rows) :
    readLTN (tableFiles files dir) = some ((latest some rows).getD 0) := by
  refine C69_number _ rows ?_
  show Written 0x3B showsTable (fileLines _) rows
  rw [fileHas_lines h (written_no_feed hw)]
  exact hw

/-- **C87**: so are the keys of service_key_table.csv. -/
theorem C87_keys {F : Type} (m : Machine F) (rows : List KeyRow)
    (h : FileHas (m.files (ascii "service_key_table.csv")) (rows.map KeyRow.line)) : m.keyFile = rows.map KeyRow.line := by
  refine fileHas_lines h ?_
  intro l hl
  obtain ⟨r, -, rfl⟩ := List.mem_map.mp hl
  have hdec : ∀ n, CleanCell 0x2C (decimal n) := by
    intro n
    refine ⟨?_, ?_, ?_⟩ <;>
      (intro hm
       have := (decimal_facts n).1 _ hm
       revert this
       decide)
  refine isLine_no_feed (d := 0x2C) (by decide) ⟨.inl ⟨by simp, ?_⟩, .inl rfl⟩
  intro c hc
  simp only [List.mem_cons, List.not_mem_nil, or_false] at hc
  rcases hc with rfl | rfl | rfl | rfl <;> exact hdec _

/-- **C87**: what does not exist is as if it were empty: there are no keys, and a table without locations has number 0. -/
theorem C87_missing {F : Type} (m : Machine F) :
    (m.files (ascii "service_key_table.csv") = none → m.keyFile = []) ∧
    ∀ dir, (∀ name, m.files (dir ++ name) = none) → m.converter (ascii "UTF-8") ≠ none →
      readLTN (m.directory dir) = some 0 ∧
      ∃ db, loadLocationDatabase m.converter m.toDegrees (m.directory dir) = some db ∧ db.ltn = 0 ∧
        (∀ lcd, db.points lcd = none) ∧ ∀ lcd, db.roads lcd = none := by
  refine ⟨fun h => by unfold Machine.keyFile; rw [h]; rfl, ?_⟩
  intro dir h hc
  have e : m.directory dir = {} := by
    unfold Machine.directory tableFiles
    simp only [h]
    rfl
  rw [e]
  refine ⟨rfl, ?_⟩
  obtain ⟨convert, hconv⟩ := Option.ne_none_iff_exists'.mp hc
  have he : locationEncoding {} = ascii "UTF-8" := by decide +kernel
  unfold loadLocationDatabase
  rw [he, hconv]
  exact ⟨_, rfl, rfl, fun _ => rfl, fun _ => rfl⟩

/-! Cases that meet the hypotheses. -/

/-- The files of the small table: ROADS.DAT does not end with a line break. -/
theorem smallDirectory_table : TableAt (fun p => smallDirectory.lookup p) (ascii "/tables") smallTable smallFiles :=
  ⟨⟨_, by decide +kernel, .inl rfl⟩,
    ⟨ascii "LCD;ROADNUMBER;RNID\nx;;\n5;E 18;1", by decide +kernel, .inr ⟨ascii "5;E 18;1", by decide +kernel, by decide +kernel, by decide +kernel⟩⟩,
    ⟨_, by decide +kernel, .inl rfl⟩, ⟨_, by decide +kernel, .inl rfl⟩, ⟨_, by decide +kernel, .inl rfl⟩, smallTable_files⟩

example : smallTable.InFiles (demoTraffic.directory (ascii "/tables")) := C87_table _ _ _ _ smallDirectory_table

example : fileLines (some (ascii "a;b\r\n\nc")) = [ascii "a;b\r", [], ascii "c"] ∧ fileLines (some (ascii "a\n\n")) = [ascii "a", []] ∧
    fileLines (some []) = [] := by decide +kernel

example {F : Type} (lib : FloatLib) : (demoMachine F lib).keyFile = [KeyRow.line { encid := 1, xorval := 92, xorstart := 4, nrot := 11 }] := by
  refine C87_keys _ [{ encid := 1, xorval := 92, xorstart := 4, nrot := 11 }] ⟨ascii "1,92,4,11\n", ?_, .inl ?_⟩
  · show demoFiles (ascii "service_key_table.csv") = some (ascii "1,92,4,11\n")
    decide +kernel
  · rw [List.map_singleton, demoRow_line, List.flatMap_singleton]
    decide +kernel

end Redsea
