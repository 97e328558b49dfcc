import Verif.Spec.Locations
import Verif.Lemmas.CsvTable
import Verif.Props.ServiceKeys

/-
Reading the files of a location table.
-/

namespace Redsea

open _root_.Redsea.Spec

/-! ### Numbers -/

theorem leadingDigits_zeros (k n : Nat) :
    (∀ c ∈ List.replicate k (0x30 : Byte) ++ decimal n, (digitOf c).isSome) ∧
    leadingDigits (List.replicate k 0x30 ++ decimal n) ≠ [] ∧
    (leadingDigits (List.replicate k 0x30 ++ decimal n)).foldl (fun v d => v * 10 + d) 0 = n := by
  induction k with
  | zero => exact decimal_digits n
  | succ k ih =>
    obtain ⟨h1, -, h3⟩ := ih
    rw [List.replicate_succ, List.cons_append]
    have e : leadingDigits (0x30 :: (List.replicate k 0x30 ++ decimal n)) = 0 :: leadingDigits (List.replicate k 0x30 ++ decimal n) := rfl
    rw [e]
    refine ⟨?_, by simp, h3⟩
    intro c hc
    rcases List.mem_cons.mp hc with rfl | hc
    · rfl
    · exact h1 c hc

/-- The text of a number is read. -/
theorem stoi_number {s : Str} {z : Int} (h : IsNumber s z) : stoi s = some z := by
  obtain ⟨hlo, hhi, sign, k, hs, rfl⟩ := h
  obtain ⟨h1, h2, h3⟩ := leadingDigits_zeros k z.natAbs
  rw [List.append_assoc]
  generalize List.replicate k (0x30 : Byte) ++ decimal z.natAbs = ds at h1 h2 h3 ⊢
  unfold stoi
  rcases hs with ⟨rfl | rfl, h0⟩ | ⟨rfl, h0⟩
  · cases ds with
    | nil => exact absurd rfl h2
    | cons c s =>
      obtain ⟨f1, f2, f3, -⟩ := digit_facts c (h1 c List.mem_cons_self)
      have e1 : (c :: s).dropWhile isSpaceByte = c :: s := by
        rw [List.dropWhile_cons, f1]
        rfl
      rw [List.nil_append, e1]
      have n1 : ¬ ((c :: s).head? = some 0x2D) := by simpa using f2
      have n2 : ¬ ((c :: s).head? = some 0x2D ∨ (c :: s).head? = some 0x2B) := by
        rintro (h | h)
        · exact n1 h
        · exact f3 (by simpa using h)
      simp only [if_neg n1, if_neg n2, if_neg h2, h3]
      rw [if_pos (by omega)]
      congr 1
      omega
  · have e1 : ([0x2B] ++ ds).dropWhile isSpaceByte = 0x2B#8 :: ds := by
      rw [List.singleton_append, List.dropWhile_cons]
      rfl
    have n1 : (0x2B#8 :: ds).head? = some (0x2B : Byte) := rfl
    have n2 : ¬ ((0x2B#8 :: ds).head? = some (0x2D : Byte)) := by
      rw [n1]
      decide
    rw [e1]
    dsimp only
    rw [if_pos (Or.inr n1)]
    simp only [if_neg n2, List.tail_cons, if_neg h2, h3]
    rw [if_pos (by omega)]
    congr 1
    omega
  · have e1 : ([0x2D] ++ ds).dropWhile isSpaceByte = 0x2D#8 :: ds := by
      rw [List.singleton_append, List.dropWhile_cons]
      rfl
    have n1 : (0x2D#8 :: ds).head? = some (0x2D : Byte) := rfl
    rw [e1]
    dsimp only
    rw [if_pos (Or.inl n1)]
    simp only [if_pos n1, List.tail_cons, if_neg h2, h3]
    rw [if_pos (by omega)]
    congr 1
    omega

theorem isNumber_ne_nil {s : Str} {z : Int} (h : IsNumber s z) : s ≠ [] := by
  obtain ⟨-, -, sign, k, -, rfl⟩ := h
  intro e
  exact (decimal_clean z.natAbs).2.2 (List.append_eq_nil_iff.mp e).2

/-- A row below titles. -/
def Reads (t : CSVTable) (row : CSVRow) (titles cells : List Str) : Prop :=
  ∀ title, t.getString row title = cell titles cells title

section
variable {t : CSVTable} {row : CSVRow} {titles cells : List Str} (hr : Reads t row titles cells)
include hr

theorem getInt_cell {title : Str} {z : Int} (h : CellIs titles cells title z) : t.getInt row title = some z := by
  obtain ⟨s, h1, h2⟩ := h
  unfold CSVTable.getInt
  rw [hr, h1]
  exact stoi_number h2

theorem getInt_no {title : Str} (h : NoNumber (cell titles cells title)) : t.getInt row title = none := by
  unfold CSVTable.getInt
  rw [hr]
  cases hc : cell titles cells title with
  | none => rfl
  | some s => exact stoi_no_number (h s hc)

theorem getUint16_cell {title : Str} {w : Word} (h : CellIs titles cells title w.toNat) :
    t.getUint16 row title = some w := by
  unfold CSVTable.getUint16
  rw [getInt_cell hr h, Option.map_some, BitVec.ofInt_natCast, BitVec.ofNat_toNat, BitVec.setWidth_eq]

theorem getUint16_no {title : Str} (h : NoNumber (cell titles cells title)) : t.getUint16 row title = none := by
  unfold CSVTable.getUint16
  rw [getInt_no hr h, Option.map_none]

theorem rowContains_may {title : Str} {o : Option Int} (h : CellMay titles cells title o) :
    t.rowContains row title = some o.isSome := by
  unfold CSVTable.rowContains
  rw [hr]
  cases o with
  | none => rw [show cell titles cells title = some [] from h]; rfl
  | some z =>
    obtain ⟨s, h1, h2⟩ := h
    rw [h1, Option.map_some]
    have := isNumber_ne_nil h2
    cases s with
    | nil => exact absurd rfl this
    | cons c s => rfl

theorem optInt_may {title : Str} {o : Option Int} (h : CellMay titles cells title o) :
    optInt t row title = some (o.getD 0) := by
  unfold optInt
  rw [rowContains_may hr h]
  cases o with
  | none => rfl
  | some z => exact getInt_cell hr h

theorem optLcd_may {title : Str} {o : Option Word} (h : CellMay titles cells title (o.map fun w => (w.toNat : Int))) :
    optLcd t row title = some (o.getD 0) := by
  unfold optLcd
  rw [rowContains_may hr h]
  cases o with
  | none => rfl
  | some z => exact getUint16_cell hr h

theorem coordinate_may (toDegrees : Int → BitVec 32) {title : Str} {o : Option Int} (h : CellMay titles cells title o) :
    coordinate toDegrees t row title = some ((o.map toDegrees).getD 0) := by
  unfold coordinate
  rw [rowContains_may hr h]
  cases o with
  | none => rfl
  | some z =>
    show (t.getInt row title).map toDegrees = _
    rw [getInt_cell hr h]
    rfl

/-! ### Rows -/

theorem nameOfRow_shows (convert : Str → Option Str) {r : Option NameRecord} (h : showsName titles cells r) :
    nameOfRow convert t row = r.bind fun r => (convert r.name).map fun s => (r.nid, s) := by
  unfold nameOfRow
  cases r with
  | none => rw [getInt_no hr h]; rfl
  | some r =>
    rw [getInt_cell hr h.1, hr, h.2]
    show (convert r.name >>= fun s => some (r.nid, s)) = (convert r.name).map fun s => (r.nid, s)
    cases convert r.name <;> rfl

theorem roadOfRow_shows (names : List (Int × Str)) {r : Option RoadRecord} (h : showsRoad titles cells r) :
    roadOfRow names t row =
      r.map fun r => (r.lcd, { roadNumber := r.number, name := (names.lookup (r.rnid.getD 0)).getD [] }) := by
  unfold roadOfRow
  cases r with
  | none => rw [getUint16_no hr h]; rfl
  | some r =>
    obtain ⟨h1, h2, h3⟩ := h
    rw [getUint16_cell hr h1, hr, h2, optInt_may hr h3]
    rfl

theorem segmentOfRow_shows {r : Option SegmentRecord} (h : showsSegment titles cells r) :
    segmentOfRow t row = r.map fun r => (r.lcd, r.road) := by
  unfold segmentOfRow
  cases r with
  | none =>
    rcases h with h | h
    · rw [getUint16_no hr h]; rfl
    · rw [getUint16_no hr h]
      cases t.getUint16 row (ascii "LCD") <;> rfl
  | some r =>
    rw [getUint16_cell hr h.1, getUint16_cell hr h.2]
    rfl

theorem offsetOfRow_shows {r : Option OffsetRecord} (h : showsOffset titles cells r) :
    offsetOfRow t row = r.map fun r => (r.lcd, r.negative, r.positive) := by
  unfold offsetOfRow
  cases r with
  | none =>
    rcases h with h | h | h
    · rw [getUint16_no hr h]; rfl
    · rw [getUint16_no hr h]
      cases t.getUint16 row (ascii "LCD") <;> rfl
    · rw [getUint16_no hr h]
      cases t.getUint16 row (ascii "LCD") <;> cases t.getUint16 row (ascii "NEG_OFF_LCD") <;> rfl
  | some r =>
    rw [getUint16_cell hr h.1, getUint16_cell hr h.2.1, getUint16_cell hr h.2.2]
    rfl

theorem pointColumns_shows (toDegrees : Int → BitVec 32) (names : List (Int × Str)) {number : Word} {r : PointRecord}
    (h : showsPoint number titles cells (some r)) :
    pointColumns toDegrees names t row = some (r.lcd,
      { name1 := (names.lookup (r.n1id.getD 0)).getD [], lon := (r.x.map toDegrees).getD 0,
        lat := (r.y.map toDegrees).getD 0, roaLcd := r.road.getD 0, roadName := (names.lookup (r.rnid.getD 0)).getD [] },
      r.segment.getD 0, r.rnid.getD 0) := by
  obtain ⟨-, h1, h2, h3, h4, h5, h6, h7⟩ := h
  unfold pointColumns
  rw [getUint16_cell hr h1, optInt_may hr h2, coordinate_may hr toDegrees h3, coordinate_may hr toDegrees h4,
    optLcd_may hr h5, optLcd_may hr h6, optInt_may hr h7]
  rfl

end

/-! ### Files -/

theorem written_filterMap {R α : Type} {shows : List Str → List Str → R → Prop} {lines : List Str} {records : List R}
    (hw : Written 0x3B shows lines records) : ∃ t, readCSVWithTitles lines 0x3B = some t ∧
      ∀ (f : CSVTable → CSVRow → Option α) (g : R → Option α),
        (∀ t row titles cells r, Reads t row titles cells → shows titles cells r → f t row = g r) →
        t.rows.filterMap (f t) = records.filterMap g := by
  obtain ⟨t, zs, h1, h2, h3, h4⟩ := written_read hw
  refine ⟨t, h1, ?_⟩
  intro f g hfg
  rw [h2, h3, List.filterMap_map, List.filterMap_map]
  refine filterMap_eq_of_mem ?_
  intro z hz
  obtain ⟨titles, cells, hr, hs⟩ := h4 z hz
  exact hfg t z.1 titles cells z.2 hr hs

/-- Looking up the latest assignment. -/
theorem lookup_latest {R κ α : Type} [BEq κ] [LawfulBEq κ] [DecidableEq κ] (key : R → κ) (value : R → Option α)
    (l : List (Option R)) (k : κ) :
    ((l.filterMap fun r => r.bind fun r => (value r).map fun v => (key r, v)).reverse).lookup k =
      latest (fun r => if key r = k then value r else none) l := by
  unfold latest
  induction l using snocInduction with
  | nil => rfl
  | snoc l r ih =>
    rw [List.filterMap_append, List.reverse_append, List.filterMap_append, List.getLast?_append]
    cases r with
    | none => exact ih
    | some r =>
      cases hv : value r with
      | none =>
        simp only [List.filterMap_cons, List.filterMap_nil, Option.bind_some, hv, Option.map_none, ite_self,
          List.reverse_nil, List.nil_append, List.getLast?_nil, Option.none_or]
        exact ih
      | some v =>
        simp only [List.filterMap_cons, List.filterMap_nil, Option.bind_some, hv, Option.map_some,
          List.reverse_singleton, List.singleton_append, List.lookup_cons]
        by_cases hk : key r = k
        · simp [hk]
        · have : (k == key r) = false := by
            rw [beq_eq_false_iff_ne]
            exact fun e => hk e.symm
          rw [this, if_neg hk]
          exact ih

end Redsea
