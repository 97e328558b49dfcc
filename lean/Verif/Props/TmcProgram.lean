import Verif.Props.TmcStation
import Verif.Props.TmcBuiltin
import Verif.Props.Locations
import Verif.Props.Main

/-
C84: traffic messages in plain text, from the event list in the program and the location tables in files.
-/

namespace Redsea

open _root_.Redsea.Spec

variable {F : Type}

theorem decimal_inj {a b : Nat} (ha : a < 2 ^ 16) (hb : b < 2 ^ 16) (h : decimal a = decimal b) : a = b := by
  have e1 := stoi_decimal a (by omega)
  have e2 := stoi_decimal b (by omega)
  rw [h, e2] at e1
  have := Option.some.inj e1
  omega

/-- A line is the line of one row only, as far as events are concerned. -/
theorem row_inj {r r' : EventRow} (hv : r.Valid) (hv' : r'.Valid) (h : r'.line = r.line) :
    r'.code = r.code ∧ r'.text = r.text ∧ r'.directions = r.directions ∧ r'.urgency = r.urgency ∧
      r'.updateClass = r.updateClass := by
  have hcells : r'.cells = r.cells := by
    refine joinCells_inj 0x3B ?_ ?_ (fun c hc => ((eventRow_clean hv').2 c hc).1)
      (fun c hc => ((eventRow_clean hv).2 c hc).1) h
    · simp [EventRow.cells]
    · simp [EventRow.cells]
  unfold EventRow.cells at hcells
  simp only [List.cons.injEq, and_true] at hcells
  obtain ⟨c1, c2, -, -, -, -, c7, c8, c9, -⟩ := hcells
  have ne : ∀ n : Nat, decimal n ≠ [] := fun n he => (decimal_digits n).2.1 (by rw [he]; rfl)
  refine ⟨decimal_inj hv'.code hv.code c1, c2, ?_, c8, decimal_inj hv'.updateClass hv.updateClass c9⟩
  cases h1 : r'.directions with
  | none =>
    cases h2 : r.directions with
    | none => rfl
    | some d => rw [h1, h2] at c7; exact absurd c7.symm (ne d)
  | some d' =>
    cases h2 : r.directions with
    | none => rw [h1, h2] at c7; exact absurd c7 (ne d')
    | some d =>
      rw [h1, h2] at c7
      rw [decimal_inj (hv'.directions d' h1) (hv.directions d h2) c7]

/-- The event that the program finds under a code. -/
theorem env_event (m : Machine F) (o : Options) (tables : List (Word × LocationDatabase)) (code : Nat) (hc : code < 2048) :
    (∀ r : EventRow, r.Valid → r.line ∈ eventLines → r.code = code →
      ∃ e, (m.env o tables).tmc.events code = some e ∧ e.description = r.text ∧
        (e.both = true ↔ r.directions = some 2) ∧ (e.urgency = .u ↔ r.urgency = ascii "U") ∧
        (e.urgency = .x ↔ r.urgency = ascii "X") ∧ e.updateClass = r.updateClass) ∧
    ((∀ r : EventRow, r.line ∈ eventLines → r.code ≠ code) → (m.env o tables).tmc.events code = none) := by
  obtain ⟨table, h1, h2, h3⟩ := C67_builtin_events
  have henv : (m.env o tables).tmc.events code = table.lookup (BitVec.ofNat 16 code) := by
    show ((loadEvents tmcDataEvents).getD []).lookup _ = _
    rw [h1]
    rfl
  rw [henv]
  constructor
  · intro r hv hr hcode
    obtain ⟨r', e, hl, hv', -, -, he, hd⟩ := h2 _ hr
    obtain ⟨e1, e2, e3, e4, e5⟩ := row_inj hv hv' hl
    rw [e1, hcode] at he
    exact ⟨e, he, hd.description.trans e2, by rw [hd.both, e3], by rw [hd.urgencyU, e4], by rw [hd.urgencyX, e4],
      hd.updateClass.trans e5⟩
  · intro hno
    cases hl : table.lookup (BitVec.ofNat 16 code) with
    | none => rfl
    | some e =>
      obtain ⟨r, hr, hcode, -⟩ := h3 _ e hl
      rw [BitVec.toNat_ofNat, Nat.mod_eq_of_lt (by omega)] at hcode
      exact absurd hcode (hno r hr)

/-- The location table that the program has for a number: that of the last directory with the number. -/
theorem env_locations (m : Machine F) (dirs : List Str) (tables : List (Word × LocationDatabase))
    (h : loadTables m dirs = some tables) (n : Word) :
    (∀ pre dir post db, dirs = pre ++ dir :: post → readLTN (m.directory dir) = some n →
      (∀ d ∈ post, readLTN (m.directory d) ≠ some n) →
      loadLocationDatabase m.converter m.toDegrees (m.directory dir) = some db → tables.lookup n = some db) ∧
    ((∀ d ∈ dirs, readLTN (m.directory d) ≠ some n) → tables.lookup n = none) := by
  induction dirs generalizing tables with
  | nil =>
    rw [loadTables] at h
    cases h
    refine ⟨?_, fun _ => rfl⟩
    intro pre dir post db he
    simp at he
  | cons d dirs ih =>
    rw [loadTables] at h
    simp only [Option.bind_eq_bind, Option.bind_eq_some_iff, Option.pure_def, Option.some.injEq] at h
    obtain ⟨ltn, h1, db0, h2, rest, h3, rfl⟩ := h
    obtain ⟨ih1, ih2⟩ := ih rest h3
    constructor
    · intro pre dir post db he hn hpost hdb
      rw [List.lookup_append]
      cases pre with
      | nil =>
        rw [List.nil_append] at he
        obtain ⟨rfl, rfl⟩ := List.cons.inj he
        rw [ih2 hpost, Option.none_or]
        rw [hn] at h1
        cases h1
        rw [hdb] at h2
        cases h2
        simp
      | cons p pre =>
        rw [List.cons_append] at he
        obtain ⟨rfl, rfl⟩ := List.cons.inj he
        rw [ih1 pre dir post db rfl hn hpost hdb, Option.some_or]
    · intro hall
      rw [List.lookup_append, ih2 fun x hx => hall x (List.mem_cons_of_mem _ hx), Option.none_or]
      have : ltn ≠ n := fun he => hall d List.mem_cons_self (he ▸ h1)
      rw [List.lookup_cons, beq_false_of_ne (Ne.symm this)]
      rfl

/-- The place of a message, in the words of a location table: coordinates of the points from the location on, names of
the first and the last point of a stretch, number and name of the road. -/
def ShowsTablePlace (t : LocationTable) (convert : Str → Option Str) (toDegrees : Int → BitVec 32) (lcd : Word)
    (r : PointRecord) (extent : Int) (j : J) : Prop :=
  ∃ rs last, t.Along (decide (0 ≤ extent)) lcd rs ∧ rs.head? = some r ∧ rs.getLast? = some last ∧
    rs.length ≤ extent.natAbs + 1 ∧
    (rs.length = extent.natAbs + 1 ∨ t.point (t.beyond (decide (0 ≤ extent)) lcd rs) = none) ∧
    j.at? ["tmc", "message", "coordinates"] = some (.arr (rs.map fun q =>
      .obj [("lat", .float ((q.y.map toDegrees).getD 0)), ("lon", .float ((q.x.map toDegrees).getD 0))])) ∧
    j.at? ["tmc", "message", "span_from"] =
      (if 2 ≤ rs.length ∧ t.name convert last.n1id ≠ [] then textMember (t.name convert r.n1id) else none) ∧
    j.at? ["tmc", "message", "span_to"] =
      (if 2 ≤ rs.length ∧ t.name convert r.n1id ≠ [] then textMember (t.name convert last.n1id) else none) ∧
    j.at? ["tmc", "message", "road_number"] = (t.road (t.roadOf r)).bind (fun road => textMember road.number) ∧
    j.at? ["tmc", "message", "road_name"] = (t.road (t.roadOf r)).bind
      fun road => (textMember (t.name convert road.rnid)).or (textMember (t.name convert r.rnid))

/-- A point of a table as it is loaded. -/
def loadedPoint (t : LocationTable) (convert : Str → Option Str) (toDegrees : Int → BitVec 32) (lcd : Word)
    (r : PointRecord) : Point :=
  { pointOf t convert toDegrees r with negOff := (t.offset lcd).1, posOff := (t.offset lcd).2 }

theorem linked_along {t : LocationTable} {convert : Str → Option Str} {toDegrees : Int → BitVec 32} {db : LocationDatabase}
    (hp : ∀ lcd, db.points lcd = (t.point lcd).map (loadedPoint t convert toDegrees lcd)) (pos : Bool)
    (points : List Point) (lcd : Word) (h : Linked db pos lcd points) :
    ∃ rs, t.Along pos lcd rs ∧ rs.length = points.length ∧ afterLast pos lcd points = t.beyond pos lcd rs ∧
      points.map (fun p => (p.name1, p.lat, p.lon)) = rs.map (fun r => (t.name convert r.n1id,
        (r.y.map toDegrees).getD 0, (r.x.map toDegrees).getD 0)) := by
  induction points generalizing lcd with
  | nil => exact ⟨[], trivial, rfl, rfl, rfl⟩
  | cons p points ih =>
    obtain ⟨h1, h2⟩ := h
    rw [hp, Option.map_eq_some_iff] at h1
    obtain ⟨r, hr, rfl⟩ := h1
    have hnext : (if pos then (loadedPoint t convert toDegrees lcd r).posOff else
        (loadedPoint t convert toDegrees lcd r).negOff) = t.next pos lcd := by
      unfold loadedPoint LocationTable.next
      cases pos <;> rfl
    rw [hnext] at h2
    obtain ⟨rs, i1, i2, i3, i4⟩ := ih _ h2
    refine ⟨r :: rs, ⟨hr, i1⟩, by simp [i2], ?_, ?_⟩
    · rw [afterLast, hnext, i3]
      rfl
    · rw [List.map_cons, List.map_cons, i4]
      rfl

theorem place_of_table (t : LocationTable) (hv : t.Valid) (f : LocationFiles) (hf : t.InFiles f) (converter : TextConverter)
    (convert : Str → Option Str) (hc : converter (locationEncoding f) = some convert) (toDegrees : Int → BitVec 32)
    (db : LocationDatabase) (hdb : loadLocationDatabase converter toDegrees f = some db) (ltn : Nat)
    (hl : ltn = t.number.toNat) (h0 : ltn ≠ 0) (location : Option Word) (extent : Int) (j : J)
    (h : ShowsPlace db ltn location extent j) :
    (∀ lcd r, location = some lcd → t.point lcd = some r → ShowsTablePlace t convert toDegrees lcd r extent j) ∧
    ((∀ lcd ∈ location, t.point lcd = none) → ∀ k ∈ placeMembers, j.at? ["tmc", "message", k] = none) := by
  obtain ⟨db', g1, g2, g3, g4, -⟩ := locations_loaded t hv f hf converter convert hc toDegrees
  rw [hdb] at g1
  cases g1
  have hp : ∀ lcd, db.points lcd = (t.point lcd).map (loadedPoint t convert toDegrees lcd) := g4
  constructor
  · intro lcd r hloc hr
    have hmem : ∃ r, some r ∈ t.points := by
      obtain ⟨o, ho, he⟩ := List.mem_filterMap.mp (List.mem_of_getLast? hr)
      cases o with
      | none => cases he
      | some r' => exact ⟨r', ho⟩
    obtain ⟨points, last, c1, c2, c3, c4, c5, c6, c7, c8, c9, c10⟩ := h.1 lcd (loadedPoint t convert toDegrees lcd r) hloc
      (by rw [g2 hmem, hl]) h0 (by rw [hp, hr]; rfl)
    obtain ⟨rs, d1, d2, d3, d4⟩ := linked_along hp _ points lcd c5
    have hhead : rs.head? = some r := by
      cases rs with
      | nil =>
        have : points = [] := List.length_eq_zero_iff.mp d2.symm
        rw [this] at c2
        cases c2
      | cons r' rs =>
        have := d1.1
        rw [hr] at this
        cases this
        rfl
    have hne : rs ≠ [] := by
      intro he
      rw [he] at hhead
      cases hhead
    obtain ⟨lastR, hlastR⟩ : ∃ l, rs.getLast? = some l := ⟨_, List.getLast?_eq_some_getLast hne⟩
    have hlastN : last.name1 = t.name convert lastR.n1id := by
      have := congrArg List.getLast? d4
      rw [List.getLast?_map, List.getLast?_map, c3, hlastR] at this
      exact (Prod.mk.inj (Option.some.inj this)).1
    have hname : (loadedPoint t convert toDegrees lcd r).name1 = t.name convert r.n1id := rfl
    have hroads : db.roads (loadedPoint t convert toDegrees lcd r).roaLcd =
        (t.road (t.roadOf r)).map fun road => { roadNumber := road.number, name := t.name convert road.rnid } := g3 _
    have hrn : (loadedPoint t convert toDegrees lcd r).roadName = t.name convert r.rnid := rfl
    rw [hname] at c7 c8
    rw [hlastN, ← d2] at c7 c8
    rw [hroads] at c9 c10
    rw [hrn] at c10
    refine ⟨rs, lastR, d1, hhead, hlastR, by rw [d2]; exact c4, ?_, ?_, c7, c8, ?_, ?_⟩
    · rw [d2]
      refine c6.imp id fun hb => ?_
      rw [hp, Option.map_eq_none_iff, d3] at hb
      exact hb
    · rw [c1]
      have := congrArg (List.map fun q : Str × BitVec 32 × BitVec 32 =>
        J.obj [("lat", .float q.2.1), ("lon", .float q.2.2)]) d4
      rw [List.map_map, List.map_map] at this
      exact congrArg (fun l => some (J.arr l)) this
    · rw [c9]
      cases t.road (t.roadOf r) <;> rfl
    · rw [c10]
      cases t.road (t.roadOf r) <;> rfl
  · intro hno
    refine h.2 (.inr (.inr ?_))
    intro lcd hlcd
    rw [hp, hno lcd hlcd]
    rfl

/-- The members that come from the event list, for a known event. -/
theorem event_members {env : TmcEnv} {y z : Word} {enc : Bool} {location : Option Word} {members : List (String × J)}
    (c1 : ShowsMessage env y z enc location [] members) (r : EventRow) (hc : r.code = y.toNat % 2048) (e : Event)
    (he : env.events (y.toNat % 2048) = some e) (e1 : e.description = r.text)
    (e2 : e.both = true ↔ r.directions = some 2) (e3 : e.urgency = .u ↔ r.urgency = ascii "U")
    (e4 : e.urgency = .x ↔ r.urgency = ascii "X") (e5 : e.updateClass = r.updateClass) :
    members.lookup "event_codes" = some (.arr [.nat r.code]) ∧
    members.lookup "description" = some (.str (capital r.text ++ ascii ".")) ∧
    members.lookup "update_class" = some (.nat r.updateClass) ∧
    members.lookup "direction" = some (.str (if r.directions = some 2 then ascii "both" else ascii "single")) ∧
    members.lookup "urgency" = some (.str (if r.urgency = ascii "U" then ascii "U"
      else if r.urgency = ascii "X" then ascii "X" else ascii "none")) := by
  have hget : env.getEvent (y.toNat % 2048) = e := by
    unfold TmcEnv.getEvent
    rw [he]
    rfl
  have hsent : messageSentences env (y.toNat % 2048) [] = [capital r.text] := by
    unfold messageSentences
    rw [eventParts, List.flatMap_cons, List.flatMap_nil]
    unfold sentenceOf
    rw [he]
    have : quantifierOf e [] = none := by
      unfold quantifierOf dataOf
      split <;> rfl
    dsimp only
    rw [this, e1]
    rfl
  refine ⟨?_, ?_, ?_, ?_, ?_⟩
  · rw [c1.events, hc]
    rfl
  · rw [c1.description, hsent, if_neg (by simp)]
    rfl
  · rw [c1.updateClass, he, Option.map_some, e5]
  · rw [c1.direction, hget]
    have hcc : controlCount 2 ([] : List (Nat × Nat)) = 0 := rfl
    rw [hcc]
    congr 3
    cases hb : e.both with
    | false =>
      have : r.directions ≠ some 2 := fun hd => by rw [e2.mpr hd] at hb; cases hb
      simp [this]
    | true => simp [e2.mp hb]
  · rw [c1.urgency, hget]
    have hcc : ∀ c, controlCount c ([] : List (Nat × Nat)) = 0 := fun c => rfl
    rw [hcc, hcc]
    congr 2
    cases hq : e.urgency with
    | none =>
      have n1 : r.urgency ≠ ascii "U" := fun hd => by rw [e3.mpr hd] at hq; cases hq
      have n2 : r.urgency ≠ ascii "X" := fun hd => by rw [e4.mpr hd] at hq; cases hq
      rw [if_neg n1, if_neg n2]
      rfl
    | u => rw [if_pos (e3.mp hq)]; rfl
    | x =>
      have n1 : r.urgency ≠ ascii "U" := fun hd => by rw [e3.mpr hd] at hq; cases hq
      rw [if_neg n1, if_pos (e4.mp hq)]
      rfl

/-- The same for an event that is not known. -/
theorem no_event_members {env : TmcEnv} {y z : Word} {enc : Bool} {location : Option Word} {members : List (String × J)}
    (c1 : ShowsMessage env y z enc location [] members) (he : env.events (y.toNat % 2048) = none) :
    members.lookup "event_codes" = some (.arr [.nat (y.toNat % 2048)]) ∧
    members.lookup "description" = none ∧ members.lookup "update_class" = none ∧
    members.lookup "direction" = some (.str (ascii "single")) ∧
    members.lookup "urgency" = some (.str (ascii "none")) := by
  have hget : env.getEvent (y.toNat % 2048) = {} := by
    unfold TmcEnv.getEvent
    rw [he]
    rfl
  have hsent : messageSentences env (y.toNat % 2048) [] = [] := by
    unfold messageSentences
    rw [eventParts, List.flatMap_cons, List.flatMap_nil]
    unfold sentenceOf
    rw [he]
    rfl
  refine ⟨?_, ?_, ?_, ?_, ?_⟩
  · rw [c1.events]; rfl
  · rw [c1.description, hsent, if_pos rfl]
  · rw [c1.updateClass, he]; rfl
  · rw [c1.direction, hget]; rfl
  · rw [c1.urgency, hget]; rfl

theorem locationTable_lt (l : List TmcGroup) : locationTable l < 2 ^ 16 := by
  unfold locationTable
  cases hg : ((inService l).filterMap tableGiven).getLast? with
  | none => decide
  | some n =>
    obtain ⟨x, -, hx⟩ := List.mem_filterMap.mp (List.mem_of_getLast? hg)
    rw [Option.getD_some]
    unfold tableGiven at hx
    split at hx
    · split at hx
      · have := Option.some.inj hx; omega
      · cases hx
    · rename_i g
      split at hx
      · have := Option.some.inj hx
        have := g.z.isLt
        omega
      · cases hx

section printed

variable {m : Machine F} {o o' : Options} {tables : List (Word × LocationDatabase)}
  (hk : (m.env o' tables).tmc.KeysOk) {w : Nat} {p : Word} {gs : List Group}
  {st : Station} {ls : List (Option Line)}
  (h : Station.receive (m.env o' tables) (Station.withPI o w p) gs = some (st, ls)) {g : Group} {st' : Station} {j : J}
  (hu : st.updateAndPrint (m.env o' tables) g = some (st', some (.json j)))

include hk h hu in
/-- **C84**, a message of one group about an event of the list. The description is the text of the row with a capital
letter and a full stop; class, direction and urgency are those of the row. -/
theorem C84_listed_event (u : UserGroup) (ht : tmcPart (decodedGroups gs ls) g = [.user u])
    (hlist : listening (history tmcPart (decodedGroups gs ls)) = true) (hx : u.x.toNat / 8 % 4 = 1)
    (r : EventRow) (hv : r.Valid) (hr : r.line ∈ eventLines) (hc : r.code = u.y.toNat % 2048) :
    j.at? ["tmc", "message", "event_codes"] = some (.arr [.nat r.code]) ∧
    j.at? ["tmc", "message", "description"] = some (.str (capital r.text ++ ascii ".")) ∧
    j.at? ["tmc", "message", "update_class"] = some (.nat r.updateClass) ∧
    j.at? ["tmc", "message", "direction"] =
      some (.str (if r.directions = some 2 then ascii "both" else ascii "single")) ∧
    j.at? ["tmc", "message", "urgency"] = some (.str (if r.urgency = ascii "U" then ascii "U"
      else if r.urgency = ascii "X" then ascii "X" else ascii "none")) := by
  obtain ⟨members, c1, c2, -⟩ := C75_single_message hk h hu u ht _ rfl hlist hx
  obtain ⟨e, he, e1, e2, e3, e4, e5⟩ := (env_event m o' tables (u.y.toNat % 2048) (by omega)).1 r hv hr hc
  obtain ⟨d1, d2, d3, d4, d5⟩ := event_members c1 r hc e he e1 e2 e3 e4 e5
  exact ⟨(c2 _ (by decide)).trans d1, (c2 _ (by decide)).trans d2, (c2 _ (by decide)).trans d3,
    (c2 _ (by decide)).trans d4, (c2 _ (by decide)).trans d5⟩

include hk h hu in
/-- **C84**, an event that is not in the list: there is no text, and nothing of another event appears. -/
theorem C84_unlisted_event (u : UserGroup) (ht : tmcPart (decodedGroups gs ls) g = [.user u])
    (hlist : listening (history tmcPart (decodedGroups gs ls)) = true) (hx : u.x.toNat / 8 % 4 = 1)
    (hno : ∀ r : EventRow, r.line ∈ eventLines → r.code ≠ u.y.toNat % 2048) :
    j.at? ["tmc", "message", "event_codes"] = some (.arr [.nat (u.y.toNat % 2048)]) ∧
    j.at? ["tmc", "message", "description"] = none ∧ j.at? ["tmc", "message", "update_class"] = none ∧
    j.at? ["tmc", "message", "direction"] = some (.str (ascii "single")) ∧
    j.at? ["tmc", "message", "urgency"] = some (.str (ascii "none")) := by
  obtain ⟨members, c1, c2, -⟩ := C75_single_message hk h hu u ht _ rfl hlist hx
  have he := (env_event m o' tables (u.y.toNat % 2048) (by omega)).2 hno
  obtain ⟨d1, d2, d3, d4, d5⟩ := no_event_members c1 he
  exact ⟨(c2 _ (by decide)).trans d1, (c2 _ (by decide)).trans d2, (c2 _ (by decide)).trans d3,
    (c2 _ (by decide)).trans d4, (c2 _ (by decide)).trans d5⟩

include hk h hu in
/-- **C84**, the place of a message of one group. The program was started with a location table in files (if there are
several with the same number, this is the last one), and the station has announced its number. -/
theorem C84_place (hload : loadTables m o'.loctableDirs = some tables) (pre post : List Str) (dir : Str)
    (hdirs : o'.loctableDirs = pre ++ dir :: post)
    (t : LocationTable) (hv : t.Valid) (hf : t.InFiles (m.directory dir)) (hn : readLTN (m.directory dir) = some t.number)
    (hpost : ∀ d ∈ post, readLTN (m.directory d) ≠ some t.number)
    (convert : Str → Option Str) (hconv : m.converter (locationEncoding (m.directory dir)) = some convert)
    (u : UserGroup) (ht : tmcPart (decodedGroups gs ls) g = [.user u])
    (l : List TmcGroup) (hl : l = history tmcPart (decodedGroups gs ls)) (hlist : listening l = true)
    (hx : u.x.toNat / 8 % 4 = 1) (hltn : locationTable l = t.number.toNat) (h0 : t.number ≠ 0) :
    (∀ lcd r, sentLocation (m.env o' tables).tmc.serviceKey l u.z = some lcd → t.point lcd = some r →
      ShowsTablePlace t convert m.toDegrees lcd r
        (if u.y.toNat / 2 ^ 14 % 2 = 1 then -(extentOf u.y [] : Int) else extentOf u.y []) j) ∧
    ((∀ lcd ∈ sentLocation (m.env o' tables).tmc.serviceKey l u.z, t.point lcd = none) →
      ∀ k ∈ placeMembers, j.at? ["tmc", "message", k] = none) := by
  obtain ⟨members, -, -, c3⟩ := C75_single_message hk h hu u ht l hl hlist hx
  obtain ⟨db, hdb, -⟩ := C69_locations t hv _ hf m.converter convert hconv m.toDegrees
  have hlook := (env_locations m _ tables hload t.number).1 pre dir post db hdirs hn hpost hdb
  have hloc : (m.env o' tables).tmc.locations (locationTable l) = db := by
    show (tables.lookup (BitVec.ofNat 16 (locationTable l))).getD {} = db
    rw [hltn, BitVec.ofNat_toNat, BitVec.setWidth_eq, hlook]
    rfl
  rw [hloc] at c3
  exact place_of_table t hv _ hf m.converter convert hconv m.toDegrees db hdb _ hltn (by
    rw [hltn]
    intro hz
    exact h0 (BitVec.eq_of_toNat_eq hz)) _ _ j c3

include hk h hu in
/-- **C84**, no location table was loaded under the number that the station has announced: no place is printed, even if
there are tables with other numbers. -/
theorem C84_no_table (hload : loadTables m o'.loctableDirs = some tables)
    (u : UserGroup) (ht : tmcPart (decodedGroups gs ls) g = [.user u])
    (l : List TmcGroup) (hl : l = history tmcPart (decodedGroups gs ls)) (hlist : listening l = true)
    (hx : u.x.toNat / 8 % 4 = 1)
    (hno : ∀ d ∈ o'.loctableDirs, ∀ n, readLTN (m.directory d) = some n → n.toNat ≠ locationTable l) :
    ∀ k ∈ placeMembers, j.at? ["tmc", "message", k] = none := by
  obtain ⟨members, -, -, c3⟩ := C75_single_message hk h hu u ht l hl hlist hx
  refine c3.2 ?_
  have hlt := locationTable_lt l
  have hlook := (env_locations m _ tables hload (BitVec.ofNat 16 (locationTable l))).2 (by
    intro d hd he
    refine hno d hd _ he ?_
    rw [BitVec.toNat_ofNat, Nat.mod_eq_of_lt hlt])
  have hloc : (m.env o' tables).tmc.locations (locationTable l) = {} := by
    show (tables.lookup (BitVec.ofNat 16 (locationTable l))).getD {} = _
    rw [hlook]
    rfl
  rw [hloc]
  by_cases hz : locationTable l = 0
  · exact .inr (.inl hz)
  · exact .inl (fun he => hz he.symm)

end printed

/-! ### Examples -/

/-- The files of a location table. Some end with a line break, others do not. -/
def smallDirectory : List (Str × Str) := [
  (ascii "/tables/README.DAT", ascii "a;b;c;d;ISO 8859-15 (Latin 9)"),
  (ascii "/tables/LOCATIONDATASETS.DAT", ascii "CID;TABCD\r\n25;17\r\n"),
  (ascii "/tables/NAMES.DAT", ascii "NID;NAME\n1;Ring\n2;Bridge\n"),
  (ascii "/tables/ROADS.DAT", ascii "LCD;ROADNUMBER;RNID\nx;;\n5;E 18;1"),
  (ascii "/tables/SEGMENTS.DAT", ascii "LCD;ROA_LCD\n6;5\n"),
  (ascii "/tables/POINTS.DAT", ascii "TABCD;LCD;N1ID;XCOORD;YCOORD;ROA_LCD;SEG_LCD;RNID\n17;7;2;+02500000;-06000000;;6;\n17;8;;;;5;;\n"),
  (ascii "/tables/POFFSETS.DAT", ascii "LCD;NEG_OFF_LCD;POS_OFF_LCD\n7;0;8\n")]

/-- A machine with the files of a location table. -/
def demoTraffic : Machine Unit :=
  { float := { strtof := fun _ => (.nan, true), mul := fun a _ => a }, conv := fun _ _ => [], ucs2 := fun _ => none, what := []
    converter := fun _ => some some, toDegrees := fun z => BitVec.ofInt 32 z, files := fun p => smallDirectory.lookup p
    delay := fun _ => 0, now := fun i => i, later := fun _ _ => 0, stdin := [], sound := fun _ => .nothing }

/-- A message of one group: event 417 at location 7, extent 1. -/
def demoQueue : UserGroup := ⟨0x000A, 0x09A1, 0x0007⟩

example : smallTable.InFiles (demoTraffic.directory (ascii "/tables")) ∧
    readLTN (demoTraffic.directory (ascii "/tables")) = some smallTable.number ∧ smallTable.number ≠ 0 ∧
    (loadTables demoTraffic [ascii "/tables"]).isSome ∧ smallTable.point 7 ≠ none ∧ smallTable.point 9 = none :=
  ⟨⟨by rw [show (demoTraffic.directory (ascii "/tables")).names = smallFiles.names by decide +kernel]; exact smallTable_files.names,
    by rw [show (demoTraffic.directory (ascii "/tables")).roads = smallFiles.roads by decide +kernel]; exact smallTable_files.roads,
    by rw [show (demoTraffic.directory (ascii "/tables")).segments = smallFiles.segments by decide +kernel]; exact smallTable_files.segments,
    by rw [show (demoTraffic.directory (ascii "/tables")).points = smallFiles.points by decide +kernel]; exact smallTable_files.points,
    by rw [show (demoTraffic.directory (ascii "/tables")).offsets = smallFiles.offsets by decide +kernel]; exact smallTable_files.offsets⟩, by decide +kernel, by decide, by decide +kernel, nofun, rfl⟩

example : tmcPart [demoHeard (demoTmc (tableWord 17 true false 5))] (demoHeard (demoUser demoQueue)) = [.user demoQueue] ∧
    listening (history tmcPart [demoHeard (demoTmc (tableWord 17 true false 5))]) = true ∧
    locationTable (history tmcPart [demoHeard (demoTmc (tableWord 17 true false 5))]) = smallTable.number.toNat ∧
    demoQueue.x.toNat / 8 % 4 = 1 ∧ row417.code = demoQueue.y.toNat % 2048 := by decide +kernel

/-- The groups above, with the location table, but without the event list. -/
def demoPlaceMember (path : List String) : Option Str :=
  let env : Env := { demoEnv with tmc := { demoEnv.tmc with
    locations := fun n => (((loadTables demoTraffic [ascii "/tables"]).getD []).lookup (BitVec.ofNat 16 n)).getD {} } }
  match (Station.receive env (Station.withPI {} 0 0x6204) [demoHeard (demoTmc (tableWord 17 true false 5))]).bind fun r =>
    r.1.updateAndPrint env (demoHeard (demoUser demoQueue)) with
  | some (_, some (.json j)) => match j.at? path with
    | some (.str t) => some t
    | some (.arr l) => some (decimal l.length)
    | _ => none
  | _ => none

example : demoPlaceMember ["tmc", "message", "coordinates"] = some (ascii "2") ∧
    demoPlaceMember ["tmc", "message", "road_number"] = some (ascii "E 18") ∧
    demoPlaceMember ["tmc", "message", "road_name"] = some (ascii "Ring") ∧
    demoPlaceMember ["tmc", "message", "span_from"] = none := by decide +kernel

end Redsea
