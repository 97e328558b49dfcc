import Verif.Lemmas.Locations

/-
Loading a location table.
-/

namespace Redsea

open _root_.Redsea.Spec

theorem latest_none {R α : Type} {value : R → Option α} {l : List (Option R)} (h : ∀ r, some r ∈ l → value r = none) :
    latest value l = none := by
  unfold latest
  rw [List.getLast?_eq_none_iff, List.filterMap_eq_nil_iff]
  intro r hr
  cases r with
  | none => rfl
  | some r => exact h r hr

theorem latest_map {R α : Type} (p : R → Prop) [DecidablePred p] (f : R → α) (l : List (Option R)) :
    latest (fun r => if p r then some (f r) else none) l = (latest (fun r => if p r then some r else none) l).map f := by
  unfold latest
  rw [← List.getLast?_map, List.map_filterMap]
  congr 1
  refine filterMap_eq_of_mem ?_
  intro r _
  cases r with
  | none => rfl
  | some r =>
    by_cases h : p r <;> simp [h]

theorem latest_isSome {R α : Type} {value : R → Option α} {l : List (Option R)} {r : R} (hr : some r ∈ l)
    (h : (value r).isSome) : (latest value l).isSome := by
  unfold latest
  cases hg : (l.filterMap fun r => r.bind value).getLast? with
  | some a => rfl
  | none =>
    have := List.filterMap_eq_nil_iff.mp (List.getLast?_eq_none_iff.mp hg) _ hr
    rw [Option.bind_some] at this
    rw [this] at h
    cases h

theorem lookup_keys {κ α : Type} [BEq κ] [LawfulBEq κ] (l : List (κ × α)) (k : κ) :
    (l.lookup k).isSome ↔ k ∈ l.map Prod.fst := by
  induction l with
  | nil => simp
  | cons p l ih =>
    rw [List.lookup_cons, List.map_cons, List.mem_cons, ← ih]
    by_cases h : k = p.1
    · subst h
      simp
    · have hb : (k == p.1) = false := by
        rw [beq_eq_false_iff_ne]
        exact h
      rw [hb]
      simp [h]

theorem mapSize_keys {κ α : Type} [BEq κ] [LawfulBEq κ] (l : List (κ × α)) : CountOf (· ∈ l.map Prod.fst) (mapSize l) := by
  induction l with
  | nil => exact ⟨[], .nil, rfl, by simp⟩
  | cons p l ih =>
    obtain ⟨ks, h1, h2, h3⟩ := ih
    have hany : l.any (·.1 == p.1) = true ↔ p.1 ∈ l.map Prod.fst := by
      rw [List.any_eq_true, List.mem_map]
      constructor
      · rintro ⟨q, hq, he⟩
        exact ⟨q, hq, eq_of_beq he⟩
      · rintro ⟨q, hq, he⟩
        exact ⟨q, hq, by rw [he]; exact beq_self_eq_true _⟩
    rw [mapSize]
    split
    · rename_i h
      refine ⟨ks, h1, h2, fun a => ?_⟩
      rw [h3]
      dsimp only
      rw [List.map_cons, List.mem_cons]
      exact ⟨.inr, fun h' => h'.elim (fun e => e ▸ hany.mp h) id⟩
    · rename_i h
      refine ⟨p.1 :: ks, List.nodup_cons.mpr ⟨fun hm => h (hany.mpr ((h3 _).mp hm)), h1⟩, by rw [List.length_cons, h2], ?_⟩
      intro a
      rw [List.mem_cons, h3]
      dsimp only
      rw [List.map_cons, List.mem_cons]

theorem countOf_congr {α : Type} {S T : α → Prop} {n : Nat} (h : ∀ a, S a ↔ T a) (hc : CountOf S n) : CountOf T n := by
  obtain ⟨l, h1, h2, h3⟩ := hc
  exact ⟨l, h1, h2, fun a => (h3 a).trans (h a)⟩

theorem countOf_unique {α : Type} {S : α → Prop} {n n' : Nat} (h : CountOf S n) (h' : CountOf S n') : n = n' := by
  obtain ⟨l, h1, rfl, h3⟩ := h
  obtain ⟨l', h1', rfl, h3'⟩ := h'
  exact ((List.perm_ext_iff_of_nodup h1 h1').mpr fun a => (h3 a).trans (h3' a).symm).length_eq

/-- The point of a record, without offsets. -/
def pointOf (l : LocationTable) (convert : Str → Option Str) (toDegrees : Int → BitVec 32) (r : PointRecord) : Point :=
  { name1 := l.name convert r.n1id, lon := (r.x.map toDegrees).getD 0, lat := (r.y.map toDegrees).getD 0
    roaLcd := l.roadOf r, roadName := l.name convert r.rnid }

/-- What has been loaded before the points. -/
structure Loaded (l : LocationTable) (convert : Str → Option Str) (names : List (Int × Str)) (roads : List (Word × Road))
    (segments : List (Word × Word)) : Prop where
  names : ∀ o : Option Int, (names.lookup (o.getD 0)).getD [] = l.name convert o
  roads : ∀ lcd, roads.lookup lcd =
    (l.road lcd).map fun r => { roadNumber := r.number, name := l.name convert r.rnid }
  segments : ∀ s, segments.lookup s = latest (fun g : SegmentRecord => if g.lcd = s then some g.road else none) l.segments

section
variable {l : LocationTable} {convert : Str → Option Str} {names : List (Int × Str)} {roads : List (Word × Road)}
  {segments : List (Word × Word)} (hl : Loaded l convert names roads segments) (hv : l.Valid)
  (toDegrees : Int → BitVec 32)
include hl hv

theorem pointStep_some {t : CSVTable} {row : CSVRow} {titles cells : List Str} (hr : Reads t row titles cells)
    {r : PointRecord} (h : showsPoint l.number titles cells (some r)) (hm : some r ∈ l.points) (st : PointState)
    (hst : ∀ i, (st.names.lookup i).getD [] = (names.lookup i).getD []) :
    ∃ names', pointStep toDegrees roads segments t st row =
        { ltn := l.number, names := names', points := (r.lcd, pointOf l convert toDegrees r) :: st.points } ∧
      (∀ i, (names'.lookup i).getD [] = (names.lookup i).getD []) ∧
      ∀ i, i ∈ names'.map Prod.fst ↔ i ∈ st.names.map Prod.fst ∨ (l.BySegment r ∧ r.rnid.getD 0 = i) := by
  unfold pointStep
  rw [getUint16_cell hr h.1]
  dsimp only
  rw [pointColumns_shows hr toDegrees st.names h]
  dsimp only
  rw [hst, hst, hl.names, hl.names]
  cases hroad : r.road with
  | some w =>
    have hw : w ≠ 0 := fun e => hv.points r hm (by rw [hroad, e])
    rw [Option.getD_some, if_neg hw]
    refine ⟨st.names, ?_, hst, fun i => ⟨.inl, fun h => h.elim id fun h => ?_⟩⟩
    · dsimp only
      unfold pointOf LocationTable.roadOf
      rw [hroad]
    · rw [h.1.1] at hroad
      cases hroad
  | none =>
    rw [Option.getD_none, if_pos rfl, hl.segments]
    have hzero : latest (fun g : SegmentRecord => if g.lcd = (none : Option Word).getD 0 then some g.road else none)
        l.segments = none := by
      refine latest_none fun g hg => ?_
      rw [if_neg]
      exact (hv.segments g hg).1
    have hof : l.roadOf r = (latest (fun g : SegmentRecord => if g.lcd = r.segment.getD 0 then some g.road else none)
        l.segments).getD 0 := by
      unfold LocationTable.roadOf
      rw [hroad]
      cases r.segment with
      | none => rw [hzero]; rfl
      | some s => rfl
    cases hs : latest (fun g : SegmentRecord => if g.lcd = r.segment.getD 0 then some g.road else none) l.segments with
    | none =>
      refine ⟨st.names, ?_, hst, fun i => ⟨.inl, fun h => h.elim id fun h => ?_⟩⟩
      · dsimp only
        unfold pointOf
        rw [hof, hs]
        rfl
      · obtain ⟨⟨-, g, hg, hgs⟩, -⟩ := h
        have := latest_isSome (value := fun g : SegmentRecord => if g.lcd = r.segment.getD 0 then some g.road else none) hg
          (by rw [if_pos (by rw [hgs]; rfl)]; rfl)
        rw [hs] at this
        cases this
    | some road =>
      obtain ⟨g, hg, hgr, hgl⟩ : ∃ g, some g ∈ l.segments ∧ g.road = road ∧ g.lcd = r.segment.getD 0 := by
        have := List.mem_of_getLast? hs
        obtain ⟨o, ho, he⟩ := List.mem_filterMap.mp this
        cases o with
        | none => cases he
        | some g =>
          refine ⟨g, ho, ?_⟩
          rw [Option.bind_some] at he
          split at he
          · rename_i hlcd
            exact ⟨Option.some.inj he, hlcd⟩
          · cases he
      have hby : l.BySegment r := by
        refine ⟨hroad, g, hg, ?_⟩
        cases hseg : r.segment with
        | none =>
          rw [hseg] at hgl
          exact absurd hgl (hv.segments g hg).1
        | some s =>
          rw [hseg] at hgl
          rw [hgl]
          rfl
      obtain ⟨-, rr, hrr, hlcd⟩ := hv.segments g hg
      have hsome : (l.road road).isSome := latest_isSome hrr (by rw [if_pos (hlcd.trans hgr)]; rfl)
      obtain ⟨rec, hrec⟩ := Option.isSome_iff_exists.mp hsome
      dsimp only
      rw [hl.roads, hrec]
      refine ⟨if (st.names.lookup (r.rnid.getD 0)).isSome then st.names else (r.rnid.getD 0, []) :: st.names, ?_, ?_, ?_⟩
      · rw [Option.map_some]
        dsimp only
        unfold pointOf
        rw [hof, hs]
        rfl
      · intro i
        split
        · exact hst i
        · rename_i hn
          rw [List.lookup_cons]
          split
          · rename_i hi
            rw [eq_of_beq hi, ← hst]
            cases hx : st.names.lookup (r.rnid.getD 0) with
            | none => rfl
            | some x => rw [hx] at hn; exact absurd rfl hn
          · exact hst i
      · intro i
        split
        · rename_i hn
          refine ⟨.inl, fun h => h.elim id fun h => ?_⟩
          rw [← h.2]
          exact (lookup_keys _ _).mp hn
        · rw [List.map_cons, List.mem_cons]
          exact ⟨fun h => h.elim (fun h => .inr ⟨hby, h.symm⟩) .inl, fun h => h.elim .inr fun h => .inl h.2.symm⟩

omit hl hv in
theorem pointStep_none {t : CSVTable} {row : CSVRow} {titles cells : List Str} (hr : Reads t row titles cells)
    (h : showsPoint l.number titles cells none) (st : PointState) :
    (pointStep toDegrees roads segments t st row = st) ∨
      (pointStep toDegrees roads segments t st row = { st with ltn := l.number }) := by
  unfold pointStep
  rcases h with h | ⟨h1, h2⟩
  · rw [getUint16_no hr h]
    exact .inl rfl
  · rw [getUint16_cell hr h1]
    right
    dsimp only
    unfold pointColumns
    rw [getUint16_no hr h2]
    rfl

theorem points_fold {t : CSVTable} (zs : List (CSVRow × Option PointRecord))
    (hz : ∀ z ∈ zs, (∃ titles cells, Reads t z.1 titles cells ∧ showsPoint l.number titles cells z.2) ∧ z.2 ∈ l.points)
    (st : PointState) (hst : ∀ i, (st.names.lookup i).getD [] = (names.lookup i).getD []) :
    let st' := (zs.map (·.1)).foldl (pointStep toDegrees roads segments t) st
    st'.points = ((zs.map (·.2)).filterMap fun r => r.map fun r => (r.lcd, pointOf l convert toDegrees r)).reverse ++ st.points ∧
    ((∃ z ∈ zs, z.2.isSome) ∨ st.ltn = l.number → st'.ltn = l.number) ∧
    ∀ i, i ∈ st'.names.map Prod.fst ↔ i ∈ st.names.map Prod.fst ∨
      ∃ r, some r ∈ zs.map (·.2) ∧ l.BySegment r ∧ r.rnid.getD 0 = i := by
  induction zs generalizing st with
  | nil => exact ⟨rfl, fun h => h.elim (fun ⟨z, hz, _⟩ => absurd hz (by simp)) id, fun i => by simp⟩
  | cons z zs ih =>
    obtain ⟨⟨titles, cells, hr, hs⟩, hmem⟩ := hz z List.mem_cons_self
    have hz' := fun z' h => hz z' (List.mem_cons_of_mem _ h)
    obtain ⟨row, rec⟩ := z
    dsimp only at hr hs hmem
    rw [List.map_cons, List.map_cons, List.foldl_cons]
    cases rec with
    | some r =>
      obtain ⟨names', h1, h2, h3⟩ := pointStep_some hl hv toDegrees hr hs hmem st hst
      rw [h1]
      obtain ⟨i1, i2, i3⟩ := ih hz' { ltn := l.number, names := names', points := (r.lcd, pointOf l convert toDegrees r) :: st.points } h2
      refine ⟨?_, fun _ => i2 (.inr rfl), fun i => ?_⟩
      · rw [i1, List.filterMap_cons, Option.map_some, List.reverse_cons, List.append_assoc, List.singleton_append]
      · rw [i3, h3]
        simp only [List.mem_cons, Option.some.injEq]
        constructor
        · rintro ((h | ⟨h, h'⟩) | ⟨r', h, h'⟩)
          · exact .inl h
          · exact .inr ⟨r, .inl rfl, h, h'⟩
          · exact .inr ⟨r', .inr h, h'⟩
        · rintro (h | ⟨r', rfl | h, h'⟩)
          · exact .inl (.inl h)
          · exact .inl (.inr h')
          · exact .inr ⟨r', h, h'⟩
    | none =>
      rw [List.filterMap_cons, Option.map_none]
      have hmore : ∀ i, (∃ r, some r ∈ (none : Option PointRecord) :: zs.map (·.2) ∧ l.BySegment r ∧ r.rnid.getD 0 = i) ↔
          ∃ r, some r ∈ zs.map (·.2) ∧ l.BySegment r ∧ r.rnid.getD 0 = i := by
        intro i
        simp only [List.mem_cons, reduceCtorEq, false_or]
      simp only [hmore]
      rcases pointStep_none (roads := roads) (segments := segments) toDegrees hr hs st with h1 | h1
      · rw [h1]
        obtain ⟨i1, i2, i3⟩ := ih hz' st hst
        refine ⟨i1, ?_, i3⟩
        rintro (⟨z, hz, hsome⟩ | h)
        · rcases List.mem_cons.mp hz with rfl | hz
          · cases hsome
          · exact i2 (.inl ⟨z, hz, hsome⟩)
        · exact i2 (.inr h)
      · rw [h1]
        obtain ⟨i1, i2, i3⟩ := ih hz' { st with ltn := l.number } hst
        exact ⟨i1, fun _ => i2 (.inr rfl), i3⟩

end

theorem setOffsets_lookup (points : List (Word × Point)) (o : Word × Word × Word) (lcd : Word) :
    (setOffsets points o).lookup lcd = (points.lookup lcd).map fun p =>
      if lcd = o.1 then { p with negOff := o.2.1, posOff := o.2.2 } else p := by
  unfold setOffsets
  by_cases h : lcd = o.1
  · subst h
    cases hp : points.lookup o.1 with
    | none => simp [hp]
    | some p => simp
  · have hb : (lcd == o.1) = false := by
      rw [beq_eq_false_iff_ne]
      exact h
    simp only [if_neg h, Option.map_id']
    cases points.lookup o.1 with
    | none => rfl
    | some p =>
      dsimp only
      rw [List.lookup_cons, hb]

theorem offsets_fold (os : List (Word × Word × Word)) (points : List (Word × Point)) (lcd : Word) :
    (os.foldl setOffsets points).lookup lcd = (points.lookup lcd).map fun p =>
      match os.reverse.lookup lcd with
      | none => p
      | some q => { p with negOff := q.1, posOff := q.2 } := by
  induction os using snocInduction with
  | nil => simp
  | snoc os o ih =>
    rw [List.foldl_append, List.foldl_cons, List.foldl_nil, setOffsets_lookup, ih, Option.map_map, List.reverse_append,
      List.reverse_singleton, List.singleton_append, List.lookup_cons]
    congr 1
    funext p
    rw [Function.comp_apply]
    by_cases h : lcd = o.1
    · subst h
      rw [if_pos rfl, beq_self_eq_true]
      dsimp only
      cases os.reverse.lookup o.1 <;> rfl
    · have hb : (lcd == o.1) = false := by
        rw [beq_eq_false_iff_ne]
        exact h
      rw [if_neg h, hb]

/-- Everything about the locations of a table, after its files have been loaded. -/
theorem locations_loaded (l : LocationTable) (hv : l.Valid) (f : LocationFiles) (hf : l.InFiles f)
    (converter : TextConverter) (convert : Str → Option Str) (hc : converter (locationEncoding f) = some convert)
    (toDegrees : Int → BitVec 32) :
    ∃ db, loadLocationDatabase converter toDegrees f = some db ∧
      ((∃ r, some r ∈ l.points) → db.ltn = l.number) ∧
      (∀ lcd, db.roads lcd = (l.road lcd).map fun r => { roadNumber := r.number, name := l.name convert r.rnid }) ∧
      (∀ lcd, db.points lcd = (l.point lcd).map fun r =>
        { pointOf l convert toDegrees r with negOff := (l.offset lcd).1, posOff := (l.offset lcd).2 }) ∧
      CountOf (fun lcd => (db.points lcd).isSome = true) db.numPoints ∧
      CountOf (fun lcd => (db.roads lcd).isSome = true) db.numRoads ∧
      CountOf (fun i => (∃ r, some r ∈ l.names ∧ r.nid = i ∧ (convert r.name).isSome) ∨
        ∃ r, some r ∈ l.points ∧ l.BySegment r ∧ r.rnid.getD 0 = i) db.numNames := by
  obtain ⟨tn, hn, hn'⟩ := written_filterMap (α := Int × Str) hf.names
  obtain ⟨tr, hr, hr'⟩ := written_filterMap (α := Word × Road) hf.roads
  obtain ⟨ts, hs, hs'⟩ := written_filterMap (α := Word × Word) hf.segments
  obtain ⟨tp, zs, hp, hp1, hp2, hp3⟩ := written_read hf.points
  obtain ⟨to, ho, ho'⟩ := written_filterMap (α := Word × Word × Word) hf.offsets
  unfold loadLocationDatabase
  rw [hc, hn, hr, hs, hp, ho]
  simp only [Option.bind_eq_bind, Option.bind_some, Option.pure_def, Option.some.injEq, exists_eq_left']
  rw [hn' (nameOfRow convert) (fun r => r.bind fun r => (convert r.name).map fun s => (r.nid, s))
    fun t row titles cells r h1 h2 => nameOfRow_shows h1 convert h2]
  rw [hs' segmentOfRow (fun r => r.bind fun r => (some r.road).map fun v => (r.lcd, v))
    fun t row titles cells r h1 h2 => (segmentOfRow_shows h1 h2).trans (by cases r <;> rfl)]
  rw [ho' offsetOfRow (fun r => r.bind fun r => (some (r.negative, r.positive)).map fun v => (r.lcd, v))
    fun t row titles cells r h1 h2 => (offsetOfRow_shows h1 h2).trans (by cases r <;> rfl)]
  have hnames : ∀ o : Option Int, (((l.names.filterMap fun r => r.bind fun r => (convert r.name).map fun s =>
      (r.nid, s)).reverse).lookup (o.getD 0)).getD [] = l.name convert o := by
    intro o
    rw [lookup_latest (fun r : NameRecord => r.nid) (fun r => convert r.name)]
    unfold LocationTable.name
    cases o with
    | some i => rfl
    | none =>
      rw [latest_none]
      · rfl
      · intro r hr
        rw [Option.getD_none, if_neg (hv.names r hr)]
  have hkeys : ∀ i, i ∈ ((l.names.filterMap fun r => r.bind fun r => (convert r.name).map fun s =>
      (r.nid, s)).reverse).map Prod.fst ↔ ∃ r, some r ∈ l.names ∧ r.nid = i ∧ (convert r.name).isSome := by
    intro i
    simp only [List.mem_map, List.mem_reverse, List.mem_filterMap]
    constructor
    · rintro ⟨p, ⟨o, ho, he⟩, rfl⟩
      obtain ⟨r, rfl, he⟩ := Option.bind_eq_some_iff.mp he
      obtain ⟨s, hs, rfl⟩ := Option.map_eq_some_iff.mp he
      exact ⟨r, ho, rfl, by rw [hs]; rfl⟩
    · rintro ⟨r, hr, rfl, hs⟩
      obtain ⟨s, hs⟩ := Option.isSome_iff_exists.mp hs
      exact ⟨(r.nid, s), ⟨some r, hr, by rw [Option.bind_some, hs]; rfl⟩, rfl⟩
  generalize (l.names.filterMap fun r => r.bind fun r => (convert r.name).map fun s => (r.nid, s)).reverse = names at hnames hkeys
  rw [hr' (roadOfRow names) (fun r => r.bind fun r => (some
      ({ roadNumber := r.number, name := l.name convert r.rnid } : Road)).map fun v => (r.lcd, v))
    fun t row titles cells r h1 h2 => (roadOfRow_shows h1 names h2).trans (by
      cases r with
      | none => rfl
      | some r => rw [Option.map_some, hnames]; rfl)]
  have hroads : ∀ lcd, ((l.roads.filterMap fun r => r.bind fun r => (some
      ({ roadNumber := r.number, name := l.name convert r.rnid } : Road)).map fun v => (r.lcd, v)).reverse).lookup lcd =
      (l.road lcd).map fun r => { roadNumber := r.number, name := l.name convert r.rnid } := by
    intro lcd
    rw [lookup_latest (fun r : RoadRecord => r.lcd) (fun r => some
      ({ roadNumber := r.number, name := l.name convert r.rnid } : Road))]
    exact latest_map (fun r : RoadRecord => r.lcd = lcd) _ l.roads
  generalize (l.roads.filterMap fun r => r.bind fun r => (some
      ({ roadNumber := r.number, name := l.name convert r.rnid } : Road)).map fun v => (r.lcd, v)).reverse = roads at hroads
  have hload : Loaded l convert names roads
      (l.segments.filterMap fun r => r.bind fun r => (some r.road).map fun v => (r.lcd, v)).reverse :=
    ⟨hnames, hroads, fun s => lookup_latest (fun r : SegmentRecord => r.lcd) (fun r => some r.road) l.segments s⟩
  rw [hp1]
  obtain ⟨f1, f2, f3⟩ := points_fold hload hv toDegrees zs (t := tp) (by
    intro z hz
    obtain ⟨titles, cells, h1, h2⟩ := hp3 z hz
    exact ⟨⟨titles, cells, h1, h2⟩, by rw [hp2]; exact List.mem_map.mpr ⟨z, hz, rfl⟩⟩) { names := names } (fun _ => rfl)
  refine ⟨?_, hroads, ?_, countOf_congr (fun lcd => (lookup_keys _ lcd).symm) (mapSize_keys _),
    countOf_congr (fun lcd => (lookup_keys _ lcd).symm) (mapSize_keys _), countOf_congr (fun i => ?_) (mapSize_keys _)⟩
  rotate_right
  · rw [f3, hkeys, ← hp2]
  · rintro ⟨r, hr⟩
    refine f2 (.inl ?_)
    rw [hp2] at hr
    obtain ⟨z, hz, he⟩ := List.mem_map.mp hr
    exact ⟨z, hz, by rw [he]; rfl⟩
  · intro lcd
    rw [offsets_fold, f1, List.append_nil, ← hp2,
      lookup_latest (fun r : OffsetRecord => r.lcd) (fun r => some (r.negative, r.positive))]
    have hpts : ((l.points.filterMap fun r => r.map fun r => (r.lcd, pointOf l convert toDegrees r)).reverse).lookup lcd =
        (l.point lcd).map (pointOf l convert toDegrees) := by
      have e : (fun r : Option PointRecord => r.map fun r => (r.lcd, pointOf l convert toDegrees r)) =
          fun r => r.bind fun r => (some (pointOf l convert toDegrees r)).map fun v => (r.lcd, v) := by
        funext r
        cases r <;> rfl
      rw [e, lookup_latest (fun r : PointRecord => r.lcd) (fun r => some (pointOf l convert toDegrees r))]
      exact latest_map (fun r : PointRecord => r.lcd = lcd) _ l.points
    rw [hpts, Option.map_map]
    congr 1
    funext r
    rw [Function.comp_apply]
    unfold LocationTable.offset
    cases latest (fun r : OffsetRecord => if r.lcd = lcd then some (r.negative, r.positive) else none) l.offsets <;> rfl

end Redsea
