import Verif.Lemmas.LocationPoints

/-
C69: the location tables of traffic messages.
-/

namespace Redsea

open _root_.Redsea.Spec

/-- **C69**: a location table that is loaded from its files is the one that was written: the number of the table, each
road, each point with its names, coordinates, road and neighbours, and no other location. Damaged rows are
skipped without effect. -/
theorem C69_locations (l : LocationTable) (hv : l.Valid) (f : LocationFiles) (hf : l.InFiles f)
    (converter : TextConverter) (convert : Str → Option Str) (hc : converter (locationEncoding f) = some convert)
    (toDegrees : Int → BitVec 32) :
    ∃ db, loadLocationDatabase converter toDegrees f = some db ∧
      ((∃ r, some r ∈ l.points) → db.ltn = l.number) ∧
      (∀ lcd, Option.Rel (l.RoadIs convert) (l.road lcd) (db.roads lcd)) ∧
      ∀ lcd, Option.Rel (l.PointIs convert toDegrees) (l.point lcd) (db.points lcd) := by
  obtain ⟨db, h1, h2, h3, h4, -⟩ := locations_loaded l hv f hf converter convert hc toDegrees
  refine ⟨db, h1, h2, ?_, ?_⟩
  · intro lcd
    rw [h3]
    cases l.road lcd with
    | none => exact .none
    | some r => exact .some ⟨rfl, rfl⟩
  · intro lcd
    rw [h4]
    cases hp : l.point lcd with
    | none => exact .none
    | some r =>
      refine .some ⟨rfl, rfl, rfl, rfl, ?_⟩
      have : r.lcd = lcd := by
        obtain ⟨o, -, he⟩ := List.mem_filterMap.mp (List.mem_of_getLast? hp)
        cases o with
        | none => cases he
        | some r' =>
          rw [Option.bind_some] at he
          split at he
          · rename_i h
            rw [← Option.some.inj he]
            exact h
          · cases he
      rw [this]

/-- **C69** (partial): the name of the road of a point, if the point has one in its own row or belongs to a road by its
own row (or to none). Missing: points that have their road from their segment, see
`C69_road_name_violated`. -/
theorem C69_road_name_partial (l : LocationTable) (hv : l.Valid) (f : LocationFiles) (hf : l.InFiles f)
    (converter : TextConverter) (convert : Str → Option Str) (hc : converter (locationEncoding f) = some convert)
    (toDegrees : Int → BitVec 32) (lcd : Word) (r : PointRecord) (hr : l.point lcd = some r)
    (h : r.rnid ≠ none ∨ r.road ≠ none ∨ l.road (l.roadOf r) = none) :
    ∃ db p, loadLocationDatabase converter toDegrees f = some db ∧ db.points lcd = some p ∧
      p.roadName = l.roadName convert r := by
  obtain ⟨db, h1, -, -, h4, -⟩ := locations_loaded l hv f hf converter convert hc toDegrees
  refine ⟨db, _, h1, by rw [h4, hr]; rfl, ?_⟩
  show l.name convert r.rnid = _
  unfold LocationTable.roadName
  cases hn : r.rnid with
  | some i => rfl
  | none =>
    cases hr : r.road with
    | some w => rfl
    | none =>
      rcases h with h | h | h
      · exact absurd hn h
      · exact absurd hr h
      · dsimp only
        rw [h]
        rfl

/-- The number of a location table is that of the last row that can be read. -/
theorem C69_number (f : LocationFiles) (rows : List (Option Word)) (h : Written 0x3B showsTable f.datasets rows) :
    readLTN f = some ((latest some rows).getD 0) := by
  obtain ⟨t, h1, h2⟩ := written_filterMap (α := Word) h
  unfold readLTN
  rw [h1]
  simp only [Option.bind_eq_bind, Option.bind_some, Option.pure_def]
  rw [h2 (fun t row => t.getUint16 row (ascii "TABCD")) (fun r => r.bind some)]
  · rfl
  · intro t row titles cells r hr hs
    cases r with
    | none => exact getUint16_no hr hs
    | some w => exact getUint16_cell hr hs

theorem endsWord_isWord {rest : Str} (h : EndsWord rest) : (rest.head?.map fun c : Byte =>
    (0x30 ≤ c.toNat && c.toNat ≤ 0x39) || (0x41 ≤ c.toNat && c.toNat ≤ 0x5A) ||
      (0x61 ≤ c.toNat && c.toNat ≤ 0x7A) || c == 0x5F).getD false = false := by
  cases rest with
  | nil => rfl
  | cons b rest =>
    have := h b rfl
    rw [List.head?_cons, Option.map_some, Option.getD_some, Bool.eq_false_iff]
    intro hb
    apply this
    simp only [Bool.or_eq_true, Bool.and_eq_true, decide_eq_true_eq, beq_iff_eq] at hb
    rcases hb with ((hb | hb) | hb) | hb
    · exact .inl hb
    · exact .inr (.inl hb)
    · exact .inr (.inr (.inl hb))
    · exact .inr (.inr (.inr hb))

theorem matchesIso_latin1 (c : Byte) (rest : Str) (hc : c ≠ 0x0A ∧ c ≠ 0x0D)
    (hr : (0x0A : Byte) ∉ rest ∧ (0x0D : Byte) ∉ rest) (he : EndsWord rest) :
    matchesIso (ascii "1") (ascii "ISO" ++ [c] ++ ascii "8859-1" ++ rest) = true := by
  have h1 : ascii "ISO" = [0x49, 0x53, 0x4F] := by decide
  have h2 : ascii "8859-1" = [0x38, 0x38, 0x35, 0x39, 0x2D, 0x31] := by decide
  have h3 : ascii "8859-" ++ ascii "1" = [0x38, 0x38, 0x35, 0x39, 0x2D, 0x31] := by decide
  have h4 : (ascii "1").length = 1 := by decide
  have h5 := endsWord_isWord he
  unfold matchesIso
  rw [h1, h2, h3, h4]
  dsimp only
  simp only [List.cons_append, List.nil_append, List.take_succ_cons, List.take_zero, List.drop_succ_cons,
    List.drop_zero, List.head?_cons, Option.map_some, Option.getD_some, beq_self_eq_true, Bool.true_and, Bool.and_true,
    h5, Bool.not_false, Bool.and_eq_true, bne_iff_ne, ne_eq, List.all_eq_true]
  exact ⟨hc, fun b hb => ⟨fun e => hr.1 (e ▸ hb), fun e => hr.2 (e ▸ hb)⟩⟩

theorem matchesIso_latin9 (c : Byte) (rest : Str) (hc : c ≠ 0x0A ∧ c ≠ 0x0D)
    (hr : (0x0A : Byte) ∉ rest ∧ (0x0D : Byte) ∉ rest) (he : EndsWord rest) :
    matchesIso (ascii "1") (ascii "ISO" ++ [c] ++ ascii "8859-15" ++ rest) = false ∧
    matchesIso (ascii "15") (ascii "ISO" ++ [c] ++ ascii "8859-15" ++ rest) = true := by
  have h1 : ascii "ISO" = [0x49, 0x53, 0x4F] := by decide
  have h2 : ascii "8859-15" = [0x38, 0x38, 0x35, 0x39, 0x2D, 0x31, 0x35] := by decide
  have h3 : ascii "8859-" ++ ascii "1" = [0x38, 0x38, 0x35, 0x39, 0x2D, 0x31] := by decide
  have h3' : ascii "8859-" ++ ascii "15" = [0x38, 0x38, 0x35, 0x39, 0x2D, 0x31, 0x35] := by decide
  have h4 : (ascii "1").length = 1 := by decide
  have h4' : (ascii "15").length = 2 := by decide
  have h5 := endsWord_isWord he
  unfold matchesIso
  rw [h1, h2, h3, h3', h4, h4']
  dsimp only
  constructor
  · simp
  · simp only [List.cons_append, List.nil_append, List.take_succ_cons, List.take_zero,
      List.drop_succ_cons, List.drop_zero, List.head?_cons, Option.map_some, Option.getD_some, beq_self_eq_true,
      Bool.true_and, Bool.and_true, h5, Bool.not_false, Bool.and_eq_true, bne_iff_ne, ne_eq, List.all_eq_true]
    exact ⟨hc, fun b hb => ⟨fun e => hr.1 (e ▸ hb), fun e => hr.2 (e ▸ hb)⟩⟩

theorem matchesIso_other (n e : Str) (h : e.take 3 ≠ ascii "ISO") : matchesIso n e = false := by
  unfold matchesIso
  have : (e.take 3 == ascii "ISO") = false := by
    rw [beq_eq_false_iff_ne]
    exact h
  simp only [this, Bool.false_and]

theorem fifth_cells (lines : List Str) (rows : List (List Str)) (hl : lines.length = rows.length)
    (h : ∀ p ∈ rows.zip lines, IsLine 0x3B p.1 p.2) :
    (lines.filterMap fun line => (CSVRow.new line 0x3B).at? 4) = rows.filterMap (·[4]?) := by
  induction rows generalizing lines with
  | nil => rw [List.length_eq_zero_iff.mp hl]; rfl
  | cons r rows ih =>
    cases lines with
    | nil => cases hl
    | cons line lines =>
      rw [List.filterMap_cons, List.filterMap_cons,
        line_at (by decide) (h (r, line) (by rw [List.zip_cons_cons]; exact List.mem_cons_self)),
        ih lines (by simpa using hl) (fun p hp => h p (by rw [List.zip_cons_cons]; exact List.mem_cons_of_mem _ hp))]

/-- **C69**: the encoding of the names is the one in the fifth cell of the last complete row of the description of the
table, also for the spellings of ISO 8859-1 and ISO 8859-15 that are in use; without such a row it is UTF-8. -/
theorem C69_encoding (f : LocationFiles) (rows : List (List Str)) (hl : f.readme.length = rows.length)
    (h : ∀ p ∈ rows.zip f.readme, IsLine 0x3B p.1 p.2) (e : Str)
    (he : EncodingName (((rows.filterMap (·[4]?)).getLast?).getD (ascii "UTF-8")) e) : locationEncoding f = e := by
  have hclean : ∀ b ∈ ((rows.filterMap (·[4]?)).getLast?).getD (ascii "UTF-8"), b ≠ 0x0A ∧ b ≠ 0x0D := by
    cases hg : (rows.filterMap (·[4]?)).getLast? with
    | none => decide +kernel
    | some x =>
      rw [Option.getD_some]
      obtain ⟨r, hr, hx⟩ := List.mem_filterMap.mp (List.mem_of_getLast? hg)
      obtain ⟨i, hi, rfl⟩ := List.mem_iff_getElem.mp hr
      have hmem : (rows[i], f.readme[i]'(by omega)) ∈ rows.zip f.readme := by
        rw [List.mem_iff_getElem]
        exact ⟨i, by rw [List.length_zip]; omega, by rw [List.getElem_zip]⟩
      have hc : CleanCell 0x3B x := by
        rcases (h _ hmem).1 with h | h
        · exact h.2 x (List.mem_of_getElem? hx)
        · dsimp only at h
          rw [h] at hx
          cases hx
      intro b hb
      exact ⟨fun e => hc.2.2 (e ▸ hb), fun e => hc.2.1 (e ▸ hb)⟩
  unfold locationEncoding
  rw [fifth_cells f.readme rows hl h]
  generalize ((rows.filterMap (·[4]?)).getLast?).getD (ascii "UTF-8") = x at he hclean
  dsimp only
  cases he with
  | latin1 c rest hw =>
    have hm := matchesIso_latin1 c rest (hclean c (by simp))
      ⟨fun hb => (hclean _ (List.mem_append_right _ hb)).1 rfl, fun hb => (hclean _ (List.mem_append_right _ hb)).2 rfl⟩ hw
    rw [hm, if_pos rfl, if_neg (by decide +kernel)]
  | latin9 c rest hw =>
    have hm := matchesIso_latin9 c rest (hclean c (by simp))
      ⟨fun hb => (hclean _ (List.mem_append_right _ hb)).1 rfl, fun hb => (hclean _ (List.mem_append_right _ hb)).2 rfl⟩ hw
    simp only [hm.1, hm.2, Bool.false_eq_true, if_false, if_true]
  | other _ hne =>
    simp only [matchesIso_other _ _ hne, Bool.false_eq_true, if_false]

/-! ### A small table -/

/-- A road with a name, a segment of it, and a point of the segment. -/
def smallTable : LocationTable where
  number := 17
  names := [some { nid := 1, name := ascii "Ring" }, some { nid := 2, name := ascii "Bridge" }]
  roads := [none, some { lcd := 5, number := ascii "E 18", rnid := some 1 }]
  segments := [some { lcd := 6, road := 5 }]
  points := [some { lcd := 7, n1id := some 2, x := some 2500000, y := some (-6000000), road := none, segment := some 6, rnid := none },
    some { lcd := 8, n1id := none, x := none, y := none, road := some 5, segment := none, rnid := none }]
  offsets := [some { lcd := 7, negative := 0, positive := 8 }]

/-- Its files. -/
def smallFiles : LocationFiles where
  readme := [ascii "a;b;c;d;ISO 8859-15 (Latin 9)"]
  names := [ascii "NID;NAME", ascii "1;Ring", ascii "2;Bridge"]
  roads := [ascii "LCD;ROADNUMBER;RNID", ascii "x;;", ascii "5;E 18;1"]
  segments := [ascii "LCD;ROA_LCD", ascii "6;5"]
  points := [ascii "TABCD;LCD;N1ID;XCOORD;YCOORD;ROA_LCD;SEG_LCD;RNID", ascii "17;7;2;+02500000;-06000000;;6;",
    ascii "17;8;;;;5;;"]
  offsets := [ascii "LCD;NEG_OFF_LCD;POS_OFF_LCD", ascii "7;0;8"]

theorem written_join {R : Type} {shows : List Str → List Str → R → Prop} (titles : List Str) (rows : List (List Str × R))
    (hn : titles.Nodup) (ht : CleanRow 0x3B titles) (hr : ∀ r ∈ rows, CleanRow 0x3B r.1 ∧ shows titles r.1 r.2) :
    Written 0x3B shows (joinCells 0x3B titles :: rows.map fun r => joinCells 0x3B r.1) (rows.map (·.2)) := by
  refine ⟨titles, joinCells 0x3B titles, rows.map fun r => (joinCells 0x3B r.1, r.2), hn, ⟨.inl ht, .inl rfl⟩, ?_, ?_, ?_⟩
  · rw [List.map_map]
    rfl
  · rw [List.map_map]
    rfl
  · intro row hm
    obtain ⟨r, hr', rfl⟩ := List.mem_map.mp hm
    exact ⟨r.1, ⟨.inl (hr r hr').1, .inl rfl⟩, (hr r hr').2⟩

theorem smallTable_valid : smallTable.Valid := by
  refine ⟨?_, ?_, ?_⟩
  · intro r hr
    simp only [smallTable, List.mem_cons, Option.some.injEq, List.not_mem_nil, or_false] at hr
    rcases hr with rfl | rfl <;> decide
  · intro r hr
    simp only [smallTable, List.mem_cons, Option.some.injEq, List.not_mem_nil, or_false] at hr
    subst hr
    exact ⟨by decide, _, List.mem_cons_of_mem _ List.mem_cons_self, rfl⟩
  · intro r hr
    simp only [smallTable, List.mem_cons, Option.some.injEq, List.not_mem_nil, or_false] at hr
    rcases hr with rfl | rfl <;> decide

theorem smallTable_files : smallTable.InFiles smallFiles := by
  have num : ∀ (titles cells : List Str) (title s : Str) (z : Int) (sign : Str) (zeros : Nat),
      cell titles cells title = some s → -2147483648 ≤ z → z ≤ 2147483647 →
      (((sign = [] ∨ sign = [0x2B]) ∧ 0 ≤ z) ∨ (sign = [0x2D] ∧ z ≤ 0)) →
      s = sign ++ List.replicate zeros 0x30 ++ decimal z.natAbs → CellIs titles cells title z :=
    fun titles cells title s z sign zeros h1 h2 h3 h4 h5 => ⟨s, h1, h2, h3, sign, zeros, h4, h5⟩
  refine ⟨?_, ?_, ?_, ?_, ?_⟩
  · have e : smallFiles.names = joinCells 0x3B [ascii "NID", ascii "NAME"] ::
        ([([ascii "1", ascii "Ring"], some { nid := 1, name := ascii "Ring" }),
          ([ascii "2", ascii "Bridge"], some { nid := 2, name := ascii "Bridge" })] :
            List (List Str × Option NameRecord)).map fun r => joinCells 0x3B r.1 := by decide +kernel
    rw [e]
    refine written_join _ _ (by decide +kernel) (by unfold CleanRow CleanCell; decide +kernel) ?_
    simp only [List.forall_mem_cons]
    refine ⟨⟨by unfold CleanRow CleanCell; decide +kernel,
        num _ _ _ (ascii "1") 1 [] 0 (by decide +kernel) (by decide) (by decide) (by decide) (by decide +kernel),
        by decide +kernel⟩,
      ⟨by unfold CleanRow CleanCell; decide +kernel,
        num _ _ _ (ascii "2") 2 [] 0 (by decide +kernel) (by decide) (by decide) (by decide) (by decide +kernel),
        by decide +kernel⟩, by simp⟩
  · have e : smallFiles.roads = joinCells 0x3B [ascii "LCD", ascii "ROADNUMBER", ascii "RNID"] ::
        ([([ascii "x", [], []], none),
          ([ascii "5", ascii "E 18", ascii "1"], some { lcd := 5, number := ascii "E 18", rnid := some 1 })] :
            List (List Str × Option RoadRecord)).map fun r => joinCells 0x3B r.1 := by decide +kernel
    rw [e]
    refine written_join _ _ (by decide +kernel) (by unfold CleanRow CleanCell; decide +kernel) ?_
    simp only [List.forall_mem_cons]
    refine ⟨⟨by unfold CleanRow CleanCell; decide +kernel, ?_⟩,
      ⟨by unfold CleanRow CleanCell; decide +kernel,
        num _ _ _ (ascii "5") 5 [] 0 (by decide +kernel) (by decide) (by decide) (by decide) (by decide +kernel),
        by decide +kernel,
        num _ _ _ (ascii "1") 1 [] 0 (by decide +kernel) (by decide) (by decide) (by decide) (by decide +kernel)⟩, by simp⟩
    intro s hs
    have : cell [ascii "LCD", ascii "ROADNUMBER", ascii "RNID"] [ascii "x", [], []] (ascii "LCD") = some (ascii "x") := by
      decide +kernel
    rw [this] at hs
    obtain rfl := Option.some.inj hs
    exact .inr ⟨0x78, by decide +kernel, by decide⟩
  · have e : smallFiles.segments = joinCells 0x3B [ascii "LCD", ascii "ROA_LCD"] ::
        ([([ascii "6", ascii "5"], some { lcd := 6, road := 5 })] :
            List (List Str × Option SegmentRecord)).map fun r => joinCells 0x3B r.1 := by decide +kernel
    rw [e]
    refine written_join _ _ (by decide +kernel) (by unfold CleanRow CleanCell; decide +kernel) ?_
    simp only [List.forall_mem_cons]
    exact ⟨⟨by unfold CleanRow CleanCell; decide +kernel,
        num _ _ _ (ascii "6") 6 [] 0 (by decide +kernel) (by decide) (by decide) (by decide) (by decide +kernel),
        num _ _ _ (ascii "5") 5 [] 0 (by decide +kernel) (by decide) (by decide) (by decide) (by decide +kernel)⟩, by simp⟩
  · have e : smallFiles.points = joinCells 0x3B [ascii "TABCD", ascii "LCD", ascii "N1ID", ascii "XCOORD", ascii "YCOORD",
          ascii "ROA_LCD", ascii "SEG_LCD", ascii "RNID"] ::
        ([([ascii "17", ascii "7", ascii "2", ascii "+02500000", ascii "-06000000", [], ascii "6", []],
            some { lcd := 7, n1id := some 2, x := some 2500000, y := some (-6000000), road := none, segment := some 6, rnid := none }),
          ([ascii "17", ascii "8", [], [], [], ascii "5", [], []],
            some { lcd := 8, n1id := none, x := none, y := none, road := some 5, segment := none, rnid := none })] :
            List (List Str × Option PointRecord)).map fun r => joinCells 0x3B r.1 := by decide +kernel
    rw [e]
    refine written_join _ _ (by decide +kernel) (by unfold CleanRow CleanCell; decide +kernel) ?_
    simp only [List.forall_mem_cons]
    refine ⟨⟨by unfold CleanRow CleanCell; decide +kernel,
        num _ _ _ (ascii "17") 17 [] 0 (by decide +kernel) (by decide) (by decide) (by decide) (by decide +kernel),
        num _ _ _ (ascii "7") 7 [] 0 (by decide +kernel) (by decide) (by decide) (by decide) (by decide +kernel),
        num _ _ _ (ascii "2") 2 [] 0 (by decide +kernel) (by decide) (by decide) (by decide) (by decide +kernel),
        num _ _ _ (ascii "+02500000") 2500000 [0x2B] 1 (by decide +kernel) (by decide) (by decide) (by decide) (by decide +kernel),
        num _ _ _ (ascii "-06000000") (-6000000) [0x2D] 1 (by decide +kernel) (by decide) (by decide) (by decide) (by decide +kernel),
        by show cell _ _ _ = _; decide +kernel,
        num _ _ _ (ascii "6") 6 [] 0 (by decide +kernel) (by decide) (by decide) (by decide) (by decide +kernel),
        by show cell _ _ _ = _; decide +kernel⟩,
      ⟨by unfold CleanRow CleanCell; decide +kernel,
        num _ _ _ (ascii "17") 17 [] 0 (by decide +kernel) (by decide) (by decide) (by decide) (by decide +kernel),
        num _ _ _ (ascii "8") 8 [] 0 (by decide +kernel) (by decide) (by decide) (by decide) (by decide +kernel),
        by show cell _ _ _ = _; decide +kernel, by show cell _ _ _ = _; decide +kernel, by show cell _ _ _ = _; decide +kernel,
        num _ _ _ (ascii "5") 5 [] 0 (by decide +kernel) (by decide) (by decide) (by decide) (by decide +kernel),
        by show cell _ _ _ = _; decide +kernel, by show cell _ _ _ = _; decide +kernel⟩, by simp⟩
  · have e : smallFiles.offsets = joinCells 0x3B [ascii "LCD", ascii "NEG_OFF_LCD", ascii "POS_OFF_LCD"] ::
        ([([ascii "7", ascii "0", ascii "8"], some { lcd := 7, negative := 0, positive := 8 })] :
            List (List Str × Option OffsetRecord)).map fun r => joinCells 0x3B r.1 := by decide +kernel
    rw [e]
    refine written_join _ _ (by decide +kernel) (by unfold CleanRow CleanCell; decide +kernel) ?_
    simp only [List.forall_mem_cons]
    exact ⟨⟨by unfold CleanRow CleanCell; decide +kernel,
        num _ _ _ (ascii "7") 7 [] 0 (by decide +kernel) (by decide) (by decide) (by decide) (by decide +kernel),
        num _ _ _ (ascii "0") 0 [] 0 (by decide +kernel) (by decide) (by decide) (by decide) (by decide +kernel),
        num _ _ _ (ascii "8") 8 [] 0 (by decide +kernel) (by decide) (by decide) (by decide) (by decide +kernel)⟩, by simp⟩

/-- The negation: a point that has its road from its segment does not get the name of that road. -/
theorem C69_road_name_violated : ∃ (l : LocationTable) (f : LocationFiles) (r : PointRecord) (p : Point), l.Valid ∧ l.InFiles f ∧
    l.point 7 = some r ∧ ((loadLocationDatabase (fun _ => some some) (fun _ => 0) f).bind fun db => db.points 7) = some p ∧
    l.roadName some r ≠ [] ∧ p.roadName = [] := by
  exact ⟨smallTable, smallFiles,
    { lcd := 7, n1id := some 2, x := some 2500000, y := some (-6000000), road := none, segment := some 6, rnid := none },
    { name1 := ascii "Bridge", roaLcd := 5, posOff := 8 }, smallTable_valid, smallTable_files, rfl, by decide +kernel,
    by decide +kernel, rfl⟩

/-- The negation for the neighbours: if a point has a neighbour in one direction only, as at the end of a road, it is
not known. -/
theorem C69_one_offset_violated : ∃ (f : LocationFiles) (titles cells : List Str) (p : Point),
    f.offsets = [joinCells 0x3B titles, joinCells 0x3B cells] ∧ cell titles cells (ascii "LCD") = some (decimal 7) ∧
    cell titles cells (ascii "NEG_OFF_LCD") = some [] ∧ cell titles cells (ascii "POS_OFF_LCD") = some (decimal 8) ∧
    ((loadLocationDatabase (fun _ => some some) (fun _ => 0) f).bind fun db => db.points 7) = some p ∧ p.posOff = 0 := by
  refine ⟨{ smallFiles with offsets := [ascii "LCD;NEG_OFF_LCD;POS_OFF_LCD", ascii "7;;8"] },
    [ascii "LCD", ascii "NEG_OFF_LCD", ascii "POS_OFF_LCD"], [ascii "7", [], ascii "8"],
    { name1 := ascii "Bridge", roaLcd := 5 }, by decide +kernel, by decide +kernel, by decide +kernel, by decide +kernel,
    by decide +kernel, rfl⟩

/-! Cases that meet the hypotheses. -/

example : (∃ r, some r ∈ smallTable.points) ∧ smallTable.Valid ∧ smallTable.InFiles smallFiles :=
  ⟨⟨_, List.mem_cons_self⟩, smallTable_valid, smallTable_files⟩

example : ∃ r, smallTable.point 8 = some r ∧ r.road ≠ none := ⟨_, rfl, by decide⟩

example : locationEncoding smallFiles = ascii "ISO-8859-15" := by
  refine C69_encoding smallFiles [[ascii "a", ascii "b", ascii "c", ascii "d", ascii "ISO 8859-15 (Latin 9)"]] rfl ?_ _ ?_
  · intro p hp
    simp only [smallFiles, List.zip_cons_cons, List.zip_nil_right, List.mem_singleton] at hp
    subst hp
    exact ⟨.inl (by unfold CleanRow CleanCell; decide +kernel), .inl (by decide +kernel)⟩
  · have : (([[ascii "a", ascii "b", ascii "c", ascii "d", ascii "ISO 8859-15 (Latin 9)"]].filterMap (·[4]?)).getLast?).getD (ascii "UTF-8") =
        ascii "ISO" ++ [0x20] ++ ascii "8859-15" ++ ascii " (Latin 9)" := by decide +kernel
    rw [this]
    exact .latin9 _ _ (by unfold EndsWord; decide +kernel)

example : Written 0x3B showsTable [ascii "CID;TABCD", ascii "25;17"] [some 17] :=
  written_join [ascii "CID", ascii "TABCD"] [([ascii "25", ascii "17"], some 17)] (by decide +kernel)
    (by unfold CleanRow CleanCell; decide +kernel) (by
      simp only [List.forall_mem_cons]
      exact ⟨⟨by unfold CleanRow CleanCell; decide +kernel, ascii "17", by decide +kernel, by decide, by decide, [], 0, by decide,
        by decide +kernel⟩, by simp⟩)

end Redsea
