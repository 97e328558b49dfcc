import Verif.Props.TmcProgram
import Verif.Props.TmcQuantifier

/-
C102: messages of several groups: the words of the event list, the supplementary information and the location tables.
-/

namespace Redsea

open _root_.Redsea.Spec

variable {F : Type}

/-- The urgency that a row of the event list gives. -/
def Spec.EventRow.urgencyOf (r : EventRow) : Urgency :=
  if r.urgency = ascii "U" then .u else if r.urgency = ascii "X" then .x else .none

theorem listed_code {r : EventRow} (hv : r.Valid) (hr : r.line ∈ eventLines) : r.code < 2048 := by
  obtain ⟨table, -, h2, -⟩ := C67_builtin_events
  obtain ⟨r', e, hl, hv', -, hc, -⟩ := h2 _ hr
  have := (row_inj hv hv' hl).1
  omega

theorem digit_not_semicolon {c : Byte} (h : (digitOf c).isSome) : c ≠ 0x3B := by
  intro he
  rw [he] at h
  exact absurd h (by decide)

/-- A line "code;text" can be read in one way. -/
theorem code_text_inj {a b : Nat} {s t : Str} (h : decimal a ++ ascii ";" ++ s = decimal b ++ ascii ";" ++ t) :
    decimal a = decimal b ∧ s = t := by
  have sep : ascii ";" = [0x3B#8] := by decide +kernel
  rw [sep, List.append_assoc, List.append_assoc, List.singleton_append, List.singleton_append] at h
  have key : ∀ (x y : Str), (∀ c ∈ x, c ≠ 0x3B#8) → (∀ c ∈ y, c ≠ 0x3B#8) → x ++ 0x3B#8 :: s = y ++ 0x3B#8 :: t → x = y ∧ s = t := by
    intro x
    induction x with
    | nil =>
      intro y _ hy he
      cases y with
      | nil => exact ⟨rfl, (List.cons.inj he).2⟩
      | cons c y => exact absurd (List.cons.inj he).1.symm (hy c List.mem_cons_self)
    | cons c x ih =>
      intro y hx hy he
      cases y with
      | nil => exact absurd (List.cons.inj he).1 (hx c List.mem_cons_self)
      | cons d y =>
        obtain ⟨e1, e2⟩ := List.cons.inj he
        obtain ⟨e3, e4⟩ := ih y (fun c hc => hx c (List.mem_cons_of_mem _ hc)) (fun c hc => hy c (List.mem_cons_of_mem _ hc)) e2
        exact ⟨by rw [e1, e3], e4⟩
  exact key _ _ (fun c hc => digit_not_semicolon ((decimal_digits a).1 c hc))
    (fun c hc => digit_not_semicolon ((decimal_digits b).1 c hc)) h

/-- The supplementary information that the program finds under a code. -/
theorem env_supplementary (m : Machine F) (o : Options) (tables : List (Word × LocationDatabase)) (code : Nat) (text : Str)
    (hc : code < 2 ^ 16) (h : decimal code ++ ascii ";" ++ text ∈ tmcDataSuppl) :
    (m.env o tables).tmc.supplementary code = some text := by
  obtain ⟨table, h1, h2, -⟩ := C67_builtin_supplementary
  obtain ⟨code', text', e1, e2, e3⟩ := h2 _ h
  obtain ⟨e4, rfl⟩ := code_text_inj e1
  obtain rfl := decimal_inj hc (by omega) e4
  show ((loadSupplementary tmcDataSuppl).getD []).lookup _ = _
  rw [h1]
  exact e3

/-- Without quantifiers, each event is described by its text. -/
theorem plain_sentences {env : TmcEnv} (fields : List (Nat × Nat)) (h4 : dataOf 4 fields = []) (h5 : dataOf 5 fields = [])
    (first : Nat) (rows : List EventRow) (hc : rows.map (·.code) = first :: dataOf 9 fields)
    (he : ∀ r ∈ rows, ∃ e, env.events r.code = some e ∧ e.description = r.text) :
    (eventParts first fields).flatMap (sentenceOf env.events) = rows.map fun r => capital r.text := by
  have hparts : ∀ p ∈ eventParts first fields, dataOf 4 p.2 = [] ∧ dataOf 5 p.2 = [] := by
    clear hc he
    induction fields generalizing first with
    | nil =>
      intro p hp
      obtain rfl : p = (first, []) := by simpa [eventParts] using hp
      exact ⟨rfl, rfl⟩
    | cons f rest ih =>
      have n4 : f.1 ≠ 4 := fun h => by simp [dataOf, h] at h4
      have n5 : f.1 ≠ 5 := fun h => by simp [dataOf, h] at h5
      have r4 : dataOf 4 rest = [] := by simpa [dataOf, n4] using h4
      have r5 : dataOf 5 rest = [] := by simpa [dataOf, n5] using h5
      intro p hp
      rw [eventParts] at hp
      split at hp
      · rcases List.mem_cons.mp hp with rfl | hp
        · exact ⟨rfl, rfl⟩
        · exact ih r4 r5 _ p hp
      · have ih := ih r4 r5 first
        cases hq : eventParts first rest with
        | nil => rw [hq] at hp; cases hp
        | cons q more =>
          rw [hq] at hp ih
          rcases List.mem_cons.mp hp with rfl | hp
          · obtain ⟨i4, i5⟩ := ih q List.mem_cons_self
            constructor
            · simpa [dataOf, n4] using i4
            · simpa [dataOf, n5] using i5
          · exact ih p (List.mem_cons_of_mem _ hp)
  rw [← eventParts_codes] at hc
  generalize eventParts first fields = parts at hc hparts
  clear h4 h5
  induction parts generalizing rows with
  | nil => cases rows with
    | nil => rfl
    | cons r rows => cases hc
  | cons p parts ih => cases rows with
    | nil => cases hc
    | cons r rows =>
      rw [List.map_cons, List.map_cons] at hc
      obtain ⟨c1, c2⟩ := List.cons.inj hc
      obtain ⟨e, e1, e2⟩ := he r List.mem_cons_self
      obtain ⟨p4, p5⟩ := hparts p List.mem_cons_self
      have hq : quantifierOf e p.2 = none := by
        unfold quantifierOf
        split
        · split
          · rw [p4]; rfl
          · rw [p5]; rfl
        · rfl
      rw [List.flatMap_cons, List.map_cons, ih rows (fun r hr => he r (List.mem_cons_of_mem _ hr)) c2
        (fun p hp => hparts p (List.mem_cons_of_mem _ hp))]
      unfold sentenceOf
      rw [← c1, e1]
      dsimp only
      rw [hq]
      dsimp only
      rw [e2]
      rfl

/-- A line is the line of one row only. -/
theorem row_unique {r r' : EventRow} (hv : r.Valid) (hv' : r'.Valid) (h : r'.line = r.line) : r' = r := by
  obtain ⟨e1, e2, e3, e4, e5⟩ := row_inj hv hv' h
  have hcells : r'.cells = r.cells := by
    refine joinCells_inj 0x3B ?_ ?_ (fun c hc => ((eventRow_clean hv').2 c hc).1)
      (fun c hc => ((eventRow_clean hv).2 c hc).1) h
    · simp [EventRow.cells]
    · simp [EventRow.cells]
  unfold EventRow.cells at hcells
  simp only [List.cons.injEq, and_true] at hcells
  obtain ⟨-, -, c3, c4, c5, c6, -, -, -, c10⟩ := hcells
  have ne : ∀ n : Nat, decimal n ≠ [] := fun n he => (decimal_digits n).2.1 (by rw [he]; rfl)
  have q : r'.quantifier = r.quantifier := by
    cases h1 : r'.quantifier with
    | none =>
      cases h2 : r.quantifier with
      | none => rfl
      | some d => rw [h1, h2] at c5; exact absurd c5.symm (ne d)
    | some d' =>
      cases h2 : r.quantifier with
      | none => rw [h1, h2] at c5; exact absurd c5 (ne d')
      | some d =>
        rw [h1, h2] at c5
        have b1 := hv'.quantifier d' h1
        have b2 := hv.quantifier d h2
        rw [decimal_inj (by omega) (by omega) c5]
  cases r
  cases r'
  simp only at *
  subst e1 e2 e3 e4 e5 c3 c4 c6 c10 q
  rfl

/-- The event that the program finds under the code of a row. -/
theorem env_describes (m : Machine F) (o : Options) (tables : List (Word × LocationDatabase)) (r : EventRow) (hv : r.Valid)
    (hr : r.line ∈ eventLines) : ∃ e, (m.env o tables).tmc.events r.code = some e ∧ r.Describes e := by
  obtain ⟨table, h1, h2, -⟩ := C67_builtin_events
  obtain ⟨r', e, hl, hv', -, -, he, hd⟩ := h2 _ hr
  obtain rfl := row_unique hv hv' hl
  refine ⟨e, ?_, hd⟩
  show ((loadEvents tmcDataEvents).getD []).lookup _ = _
  rw [h1]
  exact he

theorem five_bits (t : QuantifierType) : getQuantifierSize t = 5 ↔ quantifierNumber t ≤ 5 := by
  cases t <;> decide

theorem eight_bits (t : QuantifierType) (h : ¬ getQuantifierSize t = 5) : getQuantifierSize t = 8 := by
  cases t <;> first | rfl | exact absurd rfl h

theorem one_part (fields : List (Nat × Nat)) (one : dataOf 9 fields = []) (first : Nat) :
    eventParts first fields = [(first, fields)] := by
  induction fields with
  | nil => rfl
  | cons f rest ih =>
    have n9 : f.1 ≠ 9 := fun h => by simp [dataOf, h] at one
    have r9 : dataOf 9 rest = [] := by simpa [dataOf, n9] using one
    rw [eventParts, if_neg n9, ih r9]

theorem number_inj (t t' : QuantifierType) (h : quantifierNumber t = quantifierNumber t') : t = t' := by
  cases t <;> cases t' <;> first | rfl | exact absurd h (by decide)

theorem quantified_member {env : TmcEnv} {y z : Word} {enc : Bool} {location : Option Word} {members : List (String × J)}
    {fields : List (Nat × Nat)} (c1 : ShowsMessage env y z enc location fields members) (hf : ∀ f ∈ fields, ValidField f)
    (r : EventRow) (hc : r.code = y.toNat % 2048) (e : Event) (ev : env.events r.code = some e) (hd : r.Describes e)
    (one : dataOf 9 fields = []) (plain : dataOf 6 fields = []) (a b : Str) (hq : r.textWithQ = a ++ ascii "(Q)" ++ b)
    (ha : NoMark (a ++ ascii "(Q")) (hb : NoMark b) (t : QuantifierType) (htype : quantifierNumber t = r.quantifier.getD 0)
    (c : Nat) (hsent : (dataOf (if quantifierNumber t ≤ 5 then 4 else 5) fields).head? = some c) (s : Str)
    (hs : quantity t c = some s) :
    members.lookup "description" = some (.str (capital (a ++ s ++ b) ++ ascii ".")) := by
  obtain rfl : e.quantifierType = t := number_inj _ _ (hd.quantifierType.trans htype.symm)
  have parts : eventParts (y.toNat % 2048) fields = [(y.toNat % 2048, fields)] := by
    generalize y.toNat % 2048 = first
    exact one_part fields one first
  have mark : ascii "(Q)" = [0x28#8, 0x51#8, 0x29#8] := by decide +kernel
  have hquant : quantifierOf e fields = some c := by
    unfold quantifierOf
    rw [if_pos (hd.allowsQuantifier.mpr (by rw [hq, mark]; simp))]
    rw [← hsent]
    congr 2
    by_cases h5 : getQuantifierSize e.quantifierType = 5
    · rw [if_pos h5, if_pos ((five_bits _).mp h5)]
    · rw [if_neg h5, if_neg fun h => h5 ((five_bits _).mpr h)]
  have text : quantifierText e.quantifierType c = s := by
    have mem : ∀ label, (dataOf label fields).head? = some c → c < 2 ^ labelSize label := by
      intro label hl
      obtain ⟨f, hf1, hf2⟩ := List.mem_map.mp (List.mem_of_mem_head? hl)
      obtain ⟨hf1, hf3⟩ := List.mem_filter.mp hf1
      have hd := (hf f hf1).2.1
      rw [hf2, eq_of_beq hf3] at hd
      exact hd
    by_cases h5 : getQuantifierSize e.quantifierType = 5
    · rw [if_pos ((five_bits _).mp h5)] at hsent
      have := C66_five_bit _ h5 c (mem 4 hsent)
      rw [hs] at this
      exact (Option.some.inj this).symm
    · rw [if_neg fun h => h5 ((five_bits _).mpr h)] at hsent
      exact C66_eight_bit_partial _ (eight_bits _ h5) c (mem 5 hsent) s hs
  have sentences : messageSentences env (y.toNat % 2048) fields = [capital (a ++ s ++ b)] := by
    unfold messageSentences
    rw [parts, plain, List.flatMap_cons, List.flatMap_nil, List.flatMap_nil]
    unfold sentenceOf
    rw [← hc, ev]
    dsimp only
    rw [hquant]
    dsimp only
    rw [C66_description e c a b (hd.descriptionWithQuantifier.trans hq) ha hb, text]
    rfl
  rw [c1.description, sentences, if_neg (by simp)]
  rfl

section printed

variable {m : Machine F} {o o' : Options} {tables : List (Word × LocationDatabase)}
  (hk : (m.env o' tables).tmc.KeysOk) {w : Nat} {p : Word} {gs : List Group}
  {st : Station} {ls : List (Option Line)}
  (h : Station.receive (m.env o' tables) (Station.withPI o w p) gs = some (st, ls)) {g : Group} {st' : Station} {j : J}
  (hu : st.updateAndPrint (m.env o' tables) g = some (st', some (.json j)))
  (l : List TmcGroup) (hlist : listening l = true) (n : Nat) (h1 : 1 ≤ n)
  (h4 : n ≤ 4) (fields : List (Nat × Nat)) (hf : Fits (readCapacity n) fields) (x y z : Word)
  (hx : 1 ≤ x.toNat % 32 ∧ x.toNat % 32 ≤ 7) (hy : 2 ^ 15 ≤ y.toNat)
  (hi : (heardIndices l).getLast? ≠ some (x.toNat % 8)) (init : List UserGroup) (last : UserGroup)
  (he : ({ x := x, y := y, z := z } : UserGroup) :: subsequentUserGroups x n fields = init ++ [last])
  (hist : history tmcPart (decodedGroups gs ls) = l ++ init.map .user)
  (ht : tmcPart (decodedGroups gs ls) g = [.user last])
include hk h hu hlist h1 h4 hf hx hy hi he hist ht

/-- **C102**, a message of several groups about events of the list, without quantifiers, and with supplementary information
(partial: as in C51, for messages of 3 and 4 groups only fields in the first 28 bits). The description consists of the texts of
the rows in order, each with a capital letter; class, direction and urgency are those of the first row, changed by the
control codes. -/
theorem C102_description_partial (r : EventRow) (more : List EventRow) (hr : ∀ r' ∈ r :: more, r'.Valid ∧ r'.line ∈ eventLines)
    (hc : r.code = y.toNat % 2048) (hm : more.map (·.code) = dataOf 9 fields) (q4 : dataOf 4 fields = [])
    (q5 : dataOf 5 fields = []) (infos : List (Nat × Str))
    (hs : ∀ i ∈ infos, i.1 < 2 ^ 16 ∧ decimal i.1 ++ ascii ";" ++ i.2 ∈ tmcDataSuppl) (hsc : infos.map (·.1) = dataOf 6 fields) :
    j.at? ["tmc", "message", "event_codes"] = some (.arr ((r :: more).map fun r => .nat r.code)) ∧
    j.at? ["tmc", "message", "description"] = some (.str (joinStr (ascii ". ")
      ((r :: more).map (fun r => capital r.text) ++ infos.map fun i => capital i.2) ++ ascii ".")) ∧
    j.at? ["tmc", "message", "update_class"] = some (.nat r.updateClass) ∧
    j.at? ["tmc", "message", "direction"] = some (.str
      (if decide (r.directions = some 2) ^^ decide (controlCount 2 fields % 2 = 1) then ascii "both" else ascii "single")) ∧
    j.at? ["tmc", "message", "urgency"] = some (.str (urgencyText
      (turnUrgency r.urgencyOf (controlCount 0 fields + 2 * controlCount 1 fields)))) := by
  obtain ⟨members, c1, c2, -⟩ := C75_message_groups_partial hk h hu l hlist n h1 h4 fields hf x y z hx hy hi init last he hist ht
  have hrows : ∀ r' ∈ r :: more, ∃ e, (m.env o' tables).tmc.events r'.code = some e ∧ e.description = r'.text := by
    intro r' hr'
    obtain ⟨v, inList⟩ := hr r' hr'
    obtain ⟨e, e1, e2, -⟩ := (env_event m o' tables r'.code (listed_code v inList)).1 r' v inList rfl
    exact ⟨e, e1, e2⟩
  have hinfos : (dataOf 6 fields).flatMap (fun code => (((m.env o' tables).tmc.supplementary code).map capital).toList) =
      infos.map fun i => capital i.2 := by
    rw [← hsc]
    clear hsc
    induction infos with
    | nil => rfl
    | cons i infos ih =>
      obtain ⟨b, hb⟩ := hs i List.mem_cons_self
      rw [List.map_cons, List.flatMap_cons, List.map_cons, ih fun i hi => hs i (List.mem_cons_of_mem _ hi),
        env_supplementary m o' tables i.1 i.2 b hb]
      rfl
  obtain ⟨v, inList⟩ := hr r List.mem_cons_self
  obtain ⟨e, ev, -, e2, e3, e4, e5⟩ := (env_event m o' tables r.code (listed_code v inList)).1 r v inList rfl
  have hget : (m.env o' tables).tmc.getEvent r.code = e := by
    unfold TmcEnv.getEvent
    rw [ev]
    rfl
  generalize m.env o' tables = env at *
  have hsent : messageSentences env.tmc (y.toNat % 2048) fields =
      (r :: more).map (fun r => capital r.text) ++ infos.map fun i => capital i.2 := by
    unfold messageSentences
    rw [hinfos, plain_sentences fields q4 q5 _ (r :: more) (by rw [List.map_cons, hc, hm]) hrows]
  have both : e.both = decide (r.directions = some 2) := by
    rw [Bool.eq_iff_iff, e2, decide_eq_true_iff]
  have urgent : e.urgency = r.urgencyOf := by
    unfold Spec.EventRow.urgencyOf
    cases hq : e.urgency with
    | none =>
      rw [if_neg (fun hd => by rw [e3.mpr hd] at hq; cases hq), if_neg (fun hd => by rw [e4.mpr hd] at hq; cases hq)]
    | u => rw [if_pos (e3.mp hq)]
    | x => rw [if_neg (fun hd => by rw [e3.mpr hd] at hq; cases hq), if_pos (e4.mp hq)]
  refine ⟨(c2 _ (by decide)).trans ?_, (c2 _ (by decide)).trans ?_, (c2 _ (by decide)).trans ?_,
    (c2 _ (by decide)).trans ?_, (c2 _ (by decide)).trans ?_⟩
  · rw [c1.events, ← hc, ← hm, ← List.map_cons (f := fun r : EventRow => r.code), List.map_map]
    rfl
  · rw [c1.description, hsent, if_neg (by simp)]
  · rw [c1.updateClass, ← hc, ev, Option.map_some, e5]
  · rw [c1.direction, ← hc, hget, both]
  · rw [c1.urgency, ← hc, hget, urgent]

/-- **C102**, a message of several groups about one event of the list, with a quantifier (partial: as in C51). The types 0 to 5
of quantifiers are sent with 5 bits (label 4), the others with 8 bits (label 5); the first one that is sent counts. The
description is the second text of the row, with the value of the quantifier in place of the mark "(Q)". -/
theorem C102_quantifier_partial (r : EventRow) (hv : r.Valid) (hr : r.line ∈ eventLines) (hc : r.code = y.toNat % 2048)
    (one : dataOf 9 fields = []) (plain : dataOf 6 fields = []) (a b : Str) (hq : r.textWithQ = a ++ ascii "(Q)" ++ b)
    (ha : NoMark (a ++ ascii "(Q")) (hb : NoMark b) (t : QuantifierType) (htype : quantifierNumber t = r.quantifier.getD 0)
    (c : Nat) (hsent : (dataOf (if quantifierNumber t ≤ 5 then 4 else 5) fields).head? = some c) (s : Str)
    (hs : quantity t c = some s) :
    j.at? ["tmc", "message", "description"] = some (.str (capital (a ++ s ++ b) ++ ascii ".")) := by
  obtain ⟨members, c1, c2, -⟩ := C75_message_groups_partial hk h hu l hlist n h1 h4 fields hf x y z hx hy hi init last he hist ht
  obtain ⟨e, ev, hd⟩ := env_describes m o' tables r hv hr
  exact (c2 _ (by decide)).trans (quantified_member c1 hf.1 r hc e ev hd one plain a b hq ha hb t htype c hsent s hs)

/-- **C102**, the place of a message of several groups (partial: as in C51). The program was started with a location table in
files (if there are several with the same number, this is the last one), and the station has announced its number. -/
theorem C102_place_partial (hload : loadTables m o'.loctableDirs = some tables) (pre post : List Str) (dir : Str)
    (hdirs : o'.loctableDirs = pre ++ dir :: post)
    (t : LocationTable) (hv : t.Valid) (hfiles : t.InFiles (m.directory dir)) (hn : readLTN (m.directory dir) = some t.number)
    (hpost : ∀ d ∈ post, readLTN (m.directory d) ≠ some t.number)
    (convert : Str → Option Str) (hconv : m.converter (locationEncoding (m.directory dir)) = some convert)
    (hltn : locationTable l = t.number.toNat) (h0 : t.number ≠ 0) :
    (∀ lcd r, sentLocation (m.env o' tables).tmc.serviceKey l z = some lcd → t.point lcd = some r →
      ShowsTablePlace t convert m.toDegrees lcd r
        (if y.toNat / 2 ^ 14 % 2 = 1 then -(extentOf y fields : Int) else extentOf y fields) j) ∧
    ((∀ lcd ∈ sentLocation (m.env o' tables).tmc.serviceKey l z, t.point lcd = none) →
      ∀ k ∈ placeMembers, j.at? ["tmc", "message", k] = none) := by
  obtain ⟨members, -, -, c3⟩ := C75_message_groups_partial hk h hu l hlist n h1 h4 fields hf x y z hx hy hi init last he hist ht
  obtain ⟨db, hdb, -⟩ := C69_locations t hv _ hfiles m.converter convert hconv m.toDegrees
  have hlook := (env_locations m _ tables hload t.number).1 pre dir post db hdirs hn hpost hdb
  have hloc : (m.env o' tables).tmc.locations (locationTable l) = db := by
    show (tables.lookup (BitVec.ofNat 16 (locationTable l))).getD {} = db
    rw [hltn, BitVec.ofNat_toNat, BitVec.setWidth_eq, hlook]
    rfl
  rw [hloc] at c3
  exact place_of_table t hv _ hfiles m.converter convert hconv m.toDegrees db hdb _ hltn (by
    rw [hltn]
    intro hz
    exact h0 (BitVec.eq_of_toNat_eq hz)) _ _ j c3

end printed

/-! ### Examples -/

/-- A second event, supplementary information, and the control code for the other direction. -/
def demoWordFields : List (Nat × Nat) := [(9, 417), (6, 253), (1, 2)]

/-- A message of five groups: event 417 at location 7, extent 1. -/
def demoWords : List UserGroup := ⟨0x0003, 0x89A1, 0x0007⟩ :: subsequentUserGroups 0x0003 4 demoWordFields

example : row417.line ∈ eventLines ∧ row417.code = (0x89A1 : Word).toNat % 2048 ∧
    [row417].map (·.code) = dataOf 9 demoWordFields ∧ dataOf 4 demoWordFields = [] ∧ dataOf 5 demoWordFields = [] ∧
    dataOf 6 demoWordFields = [253] ∧ decimal 253 ++ ascii ";" ++ ascii "regular service" ∈ tmcDataSuppl ∧ controlCount 2 demoWordFields = 1 :=
  ⟨C67_quantifier_lost_violated.1, by decide +kernel⟩

example : row417.Valid :=
  ⟨by decide, by decide, by decide, by decide, by unfold CleanCell; decide +kernel, by unfold CleanCell; decide +kernel,
    by unfold CleanCell; decide +kernel, by unfold CleanCell; decide +kernel, by unfold CleanCell; decide +kernel,
    by unfold CleanCell; decide +kernel⟩

example : Fits (readCapacity 4) demoWordFields ∧ demoWords = demoWords.dropLast ++ [demoWords.getLastD ⟨0, 0, 0⟩] ∧
    history tmcPart (demoHeard (demoTmc (tableWord 17 true false 5)) :: (demoWords.dropLast.map fun u => demoHeard (demoUser u))) =
      [.system (tableWord 17 true false 5)] ++ demoWords.dropLast.map .user ∧
    locationTable [.system (tableWord 17 true false 5)] = smallTable.number.toNat := by
  refine ⟨⟨by simp [demoWordFields, ValidField, labelSize], by decide, .inr (by decide)⟩, by decide +kernel,
    by decide +kernel, by decide +kernel⟩

/-- Accidents, with their number. -/
def row12 : EventRow :=
  { code := 12, text := bytes! "accident, traffic being directed around accident area"
    textWithQ := bytes! "(Q) accidents, traffic being directed around accident area", nature := [], quantifier := some 0
    duration := bytes! "D", directions := some 1, urgency := bytes! "U", updateClass := 3, reference := bytes! "B1.Z95" }

example : row12.line ∈ eventLines ∧ row12.textWithQ =
      [] ++ ascii "(Q)" ++ ascii " accidents, traffic being directed around accident area" ∧
    quantifierNumber .smallNumber = row12.quantifier.getD 0 ∧ Fits (readCapacity 1) [(4, 3)] ∧
    (dataOf (if quantifierNumber .smallNumber ≤ 5 then 4 else 5) [(4, 3)]).head? = some 3 ∧
    quantity .smallNumber 3 = some (ascii "3") := by
  have h : row12.line ∈ eventLines0 := by decide +kernel
  refine ⟨?_, by decide +kernel, by decide, ⟨by simp [ValidField, labelSize], by decide, .inr (by decide)⟩, by decide,
    by decide +kernel⟩
  unfold eventLines
  simp only [List.mem_append]
  simp only [h, true_or]

example : NoMark ([] ++ ascii "(Q") ∧ NoMark (ascii " accidents, traffic being directed around accident area") := by
  have mark : (0x29#8 : Byte) ∈ ascii "(Q)" := by decide +kernel
  have h : ∀ s : Str, (0x29#8 : Byte) ∉ s → NoMark s := by
    intro s hs a b he
    rw [he] at hs
    exact hs (List.mem_append_left _ (List.mem_append_right _ mark))
  exact ⟨h _ (by decide +kernel), h _ (by decide +kernel)⟩

end Redsea
