import Verif.Lemmas.TmcFields
import Verif.Lemmas.StationOps

/-
C65: the fields of a multi-group traffic message are printed with their meaning.
-/

namespace Redsea

open _root_.Redsea.Spec Message

/-- An array of numbers; an empty one is not printed. -/
def natArray (l : List Nat) : Option J := if l = [] then none else some (.arr (l.map .nat))

theorem lookup_listMember_self (k : String) (l : List Nat) : (listMember k l).lookup k = natArray l := by
  unfold listMember natArray
  split
  · rfl
  · simp [List.lookup]

theorem lookup_opt_self {α : Type} (k : String) (o : Option α) (f : α → J) :
    ((o.map fun v => (k, f v)).toList).lookup k = o.map f := by
  cases o <;> simp

/-- All members of a printed message. -/
theorem json_all (env : TmcEnv) (m : Message) (hc : m.isComplete = true) (a : Nat) (more : List Nat)
    (hev : m.events = a :: more) :
    ∃ members, m.json env = some members ∧
      members.lookup "event_codes" = some (.arr ((a :: more).map J.nat)) ∧
      members.lookup "supplementary_codes" = natArray m.supplementary ∧
      members.lookup "update_class" = (env.events a).map (fun e => J.nat e.updateClass) ∧
      members.lookup "description" = (if m.sentences env = [] then none
        else some (.str (joinStr (ascii ". ") (m.sentences env) ++ ascii "."))) ∧
      members.lookup "diversion_route" = natArray m.diversion ∧
      members.lookup "speed_limit" = m.speedLimit.map (fun v => J.str (decimal v ++ ascii " km/h")) ∧
      members.lookup "encrypted_location" =
        (if m.wasEncrypted then some (.nat m.encryptedLocation.toNat) else none) ∧
      members.lookup "location" = (if m.isEncrypted then none else some (.nat m.location.toNat)) ∧
      members.lookup "direction" = some (.str (if m.both then ascii "both" else ascii "single")) ∧
      members.lookup "extent" = some (.str m.extentString) ∧
      members.lookup "starts" = m.timeStarts.map (fun v => J.str (getTimeString v)) ∧
      members.lookup "until" = m.timeUntil.map (fun v => J.str (getTimeString v)) ∧
      members.lookup "urgency" = some (.str (getUrgencyString m.urgency)) ∧
      ∀ k, k ∉ messageMembers → members.lookup k = none := by
  unfold Message.json
  rw [hc, hev]
  simp only [Bool.not_true, List.isEmpty_cons, Bool.or_self, Bool.false_eq_true, if_false]
  have hite1 : ∀ (k k' : String) (c : Prop) [Decidable c] (v : J),
      ((if c then [(k', v)] else []) : List (String × J)).lookup k = if c ∧ k = k' then some v else none := by
    intro k k' c _ v
    by_cases hc : c <;> by_cases hk : k = k' <;> simp [hc, hk]
  have hite2 : ∀ (k k' : String) (c : Prop) [Decidable c] (v : J),
      ((if c then [] else [(k', v)]) : List (String × J)).lookup k = if ¬ c ∧ k = k' then some v else none := by
    intro k k' c _ v
    by_cases hc : c <;> by_cases hk : k = k' <;> simp [hc, hk]
  have hlist : ∀ (k k' : String) (l : List Nat), (listMember k' l).lookup k = if k = k' then natArray l else none := by
    intro k k' l
    split
    · rename_i h; rw [h]; exact lookup_listMember_self _ _
    · rename_i h; exact lookup_listMember h l
  have hopt : ∀ (α : Type) (k k' : String) (o : Option α) (f : α → J),
      ((o.map fun v => (k', f v)).toList).lookup k = if k = k' then o.map f else none := by
    intro α k k' o f
    split
    · rename_i h; rw [h]; exact lookup_opt_self _ _ _
    · rename_i h; exact lookup_opt h o f
  refine ⟨_, rfl, ?_⟩
  simp only [List.lookup_append, hlist, hopt, hite1, hite2, List.lookup_cons, List.lookup_nil]
  simp only [natArray, List.headD_cons]
  refine ⟨?_, ?_, ?_, ?_, ?_, ?_, ?_, ?_, ?_, ?_, ?_, ?_, ?_, ?_⟩
  case refine_14 =>
    intro k hk
    unfold messageMembers at hk
    simp only [List.mem_cons, List.not_mem_nil, or_false, not_or] at hk
    have hne : ∀ k' : String, k ≠ k' → (k == k') = false := fun _ h => beq_false_of_ne h
    simp [hk, hne]
  all_goals simp
  cases m.isEncrypted <;> rfl

theorem flatMap_zipIdx {α β γ : Type} (l : List α) (f : α → β) (F : β × Nat → List γ) (G : α → List γ) (k : Nat)
    (h : ∀ i p, l[i]? = some p → F (f p, k + i) = G p) : ((l.map f).zipIdx k).flatMap F = l.flatMap G := by
  induction l generalizing k with
  | nil => rfl
  | cons a l ih =>
    have h0 := h 0 a rfl
    rw [Nat.add_zero] at h0
    rw [List.map_cons, List.zipIdx_cons, List.flatMap_cons, List.flatMap_cons, h0, ih (k + 1)]
    intro i p hp
    have := h (i + 1) p (by simpa using hp)
    rwa [show k + 1 + i = k + (i + 1) by omega]

/-- The sentences of a message, from its first event and its fields. -/
def messageSentences (env : TmcEnv) (first : Nat) (fields : List (Nat × Nat)) : List Str :=
  (eventParts first fields).flatMap (sentenceOf env.events) ++
    (dataOf 6 fields).flatMap fun code => ((env.supplementary code).map capital).toList

theorem ucfirst_eq (s : Str) : ucfirst s = capital s := by
  cases s with
  | nil => rfl
  | cons c rest =>
    have h : ∀ c : BitVec 8, (if 0x61 ≤ c.toNat ∧ c.toNat ≤ 0x7A then c - 0x20#8 else c) =
        (((ascii "abcdefghijklmnopqrstuvwxyz").zip (ascii "ABCDEFGHIJKLMNOPQRSTUVWXYZ")).lookup c).getD c := by
      decide +kernel
    exact congrArg (· :: rest) (h c)

theorem urgencyText_eq (v : Urgency) : getUrgencyString v = urgencyText v := by
  cases v <;> rfl

theorem sentences_of_facts {env : TmcEnv} {m0 m : Message} {c : Nat} {fs : List (Nat × Nat)}
    (h : FieldFacts env m0 m c fs) (h0 : m0.supplementary = []) : m.sentences env = messageSentences env c fs := by
  unfold Message.sentences messageSentences
  simp only [funext ucfirst_eq]
  rw [h.supplementary, h0, List.nil_append, h.events, ← eventParts_codes]
  congr 1
  refine flatMap_zipIdx _ _ _ _ _ ?_
  intro i p hp
  unfold eventSentence sentenceOf
  dsimp only
  have hq := h.quantifiers i
  rw [hp, Option.bind_some] at hq
  rw [Nat.zero_add, hq]
  cases he : env.events p.1 with
  | none => rfl
  | some e =>
    have : env.getEvent p.1 = e := by unfold TmcEnv.getEvent; rw [he]; rfl
    rw [this]
    simp only [ucfirst_eq]
    rfl

/-- The location, in the clear or decrypted with the key of the service. -/
def knownLocation (env : TmcEnv) (s : TMCService) (z : Word) : Option Word :=
  if s.isEncrypted then
    (env.serviceKey s.encid).map fun k =>
      (z ^^^ BitVec.ofNat 16 (k.xorval.toNat * 2 ^ k.xorstart.toNat)).rotateLeft k.nrot.toNat
  else some z

/-- The extent: 3 bits of the first group, and control codes 6 and 7. -/
def extentOf (y : Word) (fields : List (Nat × Nat)) : Nat :=
  y.toNat / 2048 % 8 + 8 * controlCount 6 fields + 16 * controlCount 7 fields

/-- The members of a message with blocks 3 and 4 (`y`, `z`) in its first group. -/
structure ShowsMessage (env : TmcEnv) (y z : Word) (enc : Bool) (location : Option Word)
    (fields : List (Nat × Nat)) (members : List (String × J)) : Prop where
  events : members.lookup "event_codes" = some (.arr ((y.toNat % 2048 :: dataOf 9 fields).map .nat))
  supplementary : members.lookup "supplementary_codes" = natArray (dataOf 6 fields)
  updateClass : members.lookup "update_class" =
    (env.events (y.toNat % 2048)).map fun e => .nat e.updateClass
  description : members.lookup "description" =
    if messageSentences env (y.toNat % 2048) fields = [] then none
    else some (.str (joinStr (ascii ". ") (messageSentences env (y.toNat % 2048) fields) ++ ascii "."))
  diversion : members.lookup "diversion_route" = natArray (dataOf 10 fields)
  speedLimit : members.lookup "speed_limit" =
    (dataOf 3 fields).getLast?.map fun v => .str (decimal (5 * v) ++ ascii " km/h")
  encryptedLocation : members.lookup "encrypted_location" = if enc then some (.nat z.toNat) else none
  location : members.lookup "location" = location.map fun l => .nat l.toNat
  direction : members.lookup "direction" =
    some (.str (if (env.getEvent (y.toNat % 2048)).both ^^ decide (controlCount 2 fields % 2 = 1)
      then ascii "both" else ascii "single"))
  extent : members.lookup "extent" =
    some (.str (ascii (if y.toNat / 2 ^ 14 % 2 = 1 then "-" else "+") ++ decimal (extentOf y fields)))
  starts : members.lookup "starts" = (dataOf 7 fields).getLast?.map fun v => .str (getTimeString v)
  until_ : members.lookup "until" = (dataOf 8 fields).getLast?.map fun v => .str (getTimeString v)
  urgency : members.lookup "urgency" = some (.str (urgencyText
    (turnUrgency (env.getEvent (y.toNat % 2048)).urgency (controlCount 0 fields + 2 * controlCount 1 fields))))
  others : ∀ k, k ∉ messageMembers → members.lookup k = none

theorem controlCount_le (c : Nat) (fields : List (Nat × Nat)) : controlCount c fields ≤ fields.length := by
  unfold controlCount dataOf
  calc _ ≤ _ := List.count_le_length
    _ ≤ _ := by rw [List.length_map]; exact List.length_filter_le _ _

theorem fields_length (fields : List (Nat × Nat)) : 4 * fields.length ≤ (fields.flatMap fieldBits).length := by
  induction fields with
  | nil => simp
  | cons f fs ih =>
    rw [List.flatMap_cons, List.length_append, List.length_cons, fieldBits_length]
    omega

theorem printMessage_bind (env : TmcEnv) (s : TMCService) (m : Message) :
    s.printMessage env m =
      (if s.isEncrypted then
        match env.serviceKey s.encid with
        | some key => m.decrypt key
        | none => some m
      else some m).bind fun m => match m.json env with
        | none => some []
        | some members => some (.set ["tmc", "message"] (.obj members) ::
            decodeLocation (env.locations s.ltn) s.ltn (if m.isEncrypted then none else some m.location)
              (if m.negative then -(m.extent : Int) else m.extent)) := by
  unfold TMCService.printMessage
  cases s.isEncrypted with
  | false => rfl
  | true =>
    cases env.serviceKey s.encid with
    | none => rfl
    | some key => rfl

/-- What is printed for the message with these fields. -/
theorem content_of_fields (env : TmcEnv) (hk : env.KeysOk) (s : TMCService) (y z : Word)
    (fields : List (Nat × Nat)) (hv : ∀ f ∈ fields, ValidField f) (hlen : fields.length ≤ 2000) :
    ∃ members, s.printMessage env (fields.foldl (Message.field env) ((Message.new s.isEncrypted).firstGroup env y z)) =
      some (.set ["tmc", "message"] (.obj members) :: decodeLocation (env.locations s.ltn) s.ltn (knownLocation env s z)
        (if y.toNat / 2 ^ 14 % 2 = 1 then -(extentOf y fields : Int) else extentOf y fields)) ∧
      ShowsMessage env y z s.isEncrypted (knownLocation env s z) fields members := by
  have hev := firstGroup_events env s.isEncrypted y z
  have hfacts := fields_facts env ((Message.new s.isEncrypted).firstGroup env y z) _ hev (by
    cases s.isEncrypted <;> rfl) fields
  have a1 : ((Message.new s.isEncrypted).firstGroup env y z).supplementary = [] := by cases s.isEncrypted <;> rfl
  have a2 : ((Message.new s.isEncrypted).firstGroup env y z).diversion = [] := by cases s.isEncrypted <;> rfl
  have a3 : ((Message.new s.isEncrypted).firstGroup env y z).speedLimit = none := by cases s.isEncrypted <;> rfl
  have a4 : ((Message.new s.isEncrypted).firstGroup env y z).timeStarts = none := by cases s.isEncrypted <;> rfl
  have a5 : ((Message.new s.isEncrypted).firstGroup env y z).timeUntil = none := by cases s.isEncrypted <;> rfl
  have a6 : ((Message.new s.isEncrypted).firstGroup env y z).extent = y.toNat / 2048 % 8 := by
    cases s.isEncrypted <;> exact getBits_eq_div 3 y 11
  have a7 : ((Message.new s.isEncrypted).firstGroup env y z).both = (env.getEvent (y.toNat % 2048)).both := by
    have : ((Message.new s.isEncrypted).firstGroup env y z).both =
        (env.getEvent (((Message.new s.isEncrypted).firstGroup env y z).events.headD 0)).both := by
      cases s.isEncrypted <;> rfl
    rw [this, hev]; rfl
  have a8 : ((Message.new s.isEncrypted).firstGroup env y z).urgency = (env.getEvent (y.toNat % 2048)).urgency := by
    have : ((Message.new s.isEncrypted).firstGroup env y z).urgency =
        (env.getEvent (((Message.new s.isEncrypted).firstGroup env y z).events.headD 0)).urgency := by
      cases s.isEncrypted <;> rfl
    rw [this, hev]; rfl
  have a9 : ((Message.new s.isEncrypted).firstGroup env y z).isComplete = true := by cases s.isEncrypted <;> rfl
  have a10 : ((Message.new s.isEncrypted).firstGroup env y z).negative = (y.toNat / 2 ^ 14 % 2 == 1) := by
    cases s.isEncrypted <;> exact getBool_eq_div y 14
  have a11 : ((Message.new s.isEncrypted).firstGroup env y z).isEncrypted = s.isEncrypted := by
    cases s.isEncrypted <;> rfl
  have a12 : ((Message.new s.isEncrypted).firstGroup env y z).wasEncrypted = s.isEncrypted := by
    cases s.isEncrypted <;> rfl
  have a13 : s.isEncrypted = false → ((Message.new s.isEncrypted).firstGroup env y z).location = z := by
    intro h; rw [h]; rfl
  have a14 : s.isEncrypted = true → ((Message.new s.isEncrypted).firstGroup env y z).encryptedLocation = z := by
    intro h; rw [h]; rfl
  generalize (Message.new s.isEncrypted).firstGroup env y z = m0 at *
  have hsent := sentences_of_facts hfacts a1
  generalize fields.foldl (Message.field env) m0 = m at *
  have hext : m.extent = extentOf y fields := by
    have h1 := hfacts.extent
    have h2 := hfacts.extentLt (by rw [a6]; omega)
    rw [a6] at h1
    have := controlCount_le 6 fields
    have := controlCount_le 7 fields
    unfold extentOf
    omega
  -- the message that is printed
  obtain ⟨m1, hm1, hl1, he1⟩ : ∃ m1, (if s.isEncrypted then
      match env.serviceKey s.encid with
      | some key => m.decrypt key
      | none => some m
    else some m) = some m1 ∧ m1 = { m with location := m1.location, isEncrypted := m1.isEncrypted } ∧
      (if m1.isEncrypted then none else some m1.location) = knownLocation env s z := by
    unfold knownLocation
    cases hs : s.isEncrypted with
    | false =>
      refine ⟨m, rfl, rfl, ?_⟩
      rw [hfacts.isEncrypted, a11, hs, hfacts.location, a13 hs]
      rfl
    | true =>
      have hme : m.isEncrypted = true := by rw [hfacts.isEncrypted, a11, hs]
      cases hkey : env.serviceKey s.encid with
      | none =>
        refine ⟨m, rfl, rfl, ?_⟩
        rw [hme]
        rfl
      | some key =>
        have hok := hk _ _ hkey
        simp only [if_true]
        unfold Message.decrypt
        rw [hme, if_neg (by decide), if_pos hok]
        refine ⟨_, rfl, rfl, ?_⟩
        simp only [Bool.false_eq_true, if_false, Option.map_some]
        rw [rotl16_eq, hfacts.encryptedLocation, a14 hs]
        congr 2
  have c1 : m1.isComplete = true := by rw [hl1]; exact hfacts.complete.trans a9
  have c2 : m1.events = y.toNat % 2048 :: dataOf 9 fields := by rw [hl1]; exact hfacts.events
  obtain ⟨members, j0, j1, j2, j3, j4, j5, j6, j7, j8, j9, j10, j11, j12, j13, j14⟩ := json_all env m1 c1 _ _ c2
  have hs1 : m1.sentences env = m.sentences env := by rw [hl1]; rfl
  refine ⟨members, ?_, ?_⟩
  · rw [printMessage_bind, hm1, Option.bind_some, j0]
    dsimp only
    rw [he1, show m1.negative = m.negative by rw [hl1], show m1.extent = m.extent by rw [hl1], hext, hfacts.negative, a10]
    by_cases hn : y.toNat / 2 ^ 14 % 2 = 1
    · rw [if_pos hn, if_pos (by simpa using hn)]
    · rw [if_neg hn, if_neg (by simpa using hn)]
  · constructor
    · exact j1
    · rw [j2, show m1.supplementary = m.supplementary by rw [hl1], hfacts.supplementary, a1, List.nil_append]
    · exact j3
    · rw [j4, hs1, hsent]
    · rw [j5, show m1.diversion = m.diversion by rw [hl1], hfacts.diversion, a2, List.nil_append]
    · rw [j6, show m1.speedLimit = m.speedLimit by rw [hl1], hfacts.speedLimit, a3, Option.or_none]
      cases hd : (dataOf 3 fields).getLast? with
      | none => rfl
      | some v =>
        have hmem := List.mem_of_getLast? hd
        unfold dataOf at hmem
        obtain ⟨f, hf, rfl⟩ := List.mem_map.mp hmem
        have hv3 := (hv f (List.mem_filter.mp hf).1).2.1
        have hf3 : f.1 = 3 := by simpa using (List.mem_filter.mp hf).2
        rw [hf3] at hv3
        have hv3 : f.2 < 32 := hv3
        simp only [Option.map_some]
        rw [Nat.mod_eq_of_lt (by omega), Nat.mul_comm]
    · rw [j7, show m1.wasEncrypted = m.wasEncrypted by rw [hl1], hfacts.wasEncrypted, a12,
        show m1.encryptedLocation = m.encryptedLocation by rw [hl1], hfacts.encryptedLocation]
      cases hs : s.isEncrypted with
      | false => rfl
      | true => rw [a14 hs]
    · rw [j8, ← he1]
      cases m1.isEncrypted <;> rfl
    · rw [j9, show m1.both = m.both by rw [hl1], hfacts.both, a7]
    · rw [j10, Message.extentString, show m1.negative = m.negative by rw [hl1], show m1.extent = m.extent by rw [hl1],
        hext, hfacts.negative, a10]
      by_cases hn : y.toNat / 2 ^ 14 % 2 = 1
      · rw [if_pos hn, if_pos (by simpa using hn)]
      · rw [if_neg hn, if_neg (by simpa using hn)]
    · rw [j11, show m1.timeStarts = m.timeStarts by rw [hl1], hfacts.starts, a4, Option.or_none]
    · rw [j12, show m1.timeUntil = m.timeUntil by rw [hl1], hfacts.until_, a5, Option.or_none]
    · rw [j13, show m1.urgency = m.urgency by rw [hl1], hfacts.urgency, a8, urgencyText_eq]
    · exact j14

/-- **C65**, single-group messages. Every member has the value that the event list and the bits of the group
give; for every group, event list and state of the service. -/
theorem C65_single_message (env : TmcEnv) (hk : env.KeysOk) (s : TMCService) (x y z : Word) (hr : s.Ready)
    (hx : x.toNat / 8 % 4 = 1) :
    ∃ members, s.receiveUserGroup env x y z =
      some (s, .set ["tmc", "message"] (.obj members) :: decodeLocation (env.locations s.ltn) s.ltn
        (knownLocation env s z)
        (if y.toNat / 2 ^ 14 % 2 = 1 then -(extentOf y [] : Int) else extentOf y [])) ∧
      ShowsMessage env y z s.isEncrypted (knownLocation env s z) [] members := by
  obtain ⟨members, h1, h2⟩ := content_of_fields env hk s y z [] (by simp) (by simp)
  rw [single_path env s x y z hr.1 hr.2 hx]
  have h1 : s.printMessage env ((Message.new s.isEncrypted).pushSingle env y z) = _ := h1
  rw [h1]
  exact ⟨members, rfl, h2⟩

/-- **C65**, messages of several groups (partial: as in C51, for messages of 3 and 4 groups only fields in
the first 28 bits). A broadcaster sends a message of `n + 1` groups with these fields. One message is
printed. Its events are the event of the first group and the additional events (label 9); supplementary
information (6) and diversion routes (10) are shown in order; the speed limit (3), start time (7) and
stop time (8) are the latest ones sent; the description has one sentence for each known event, with the first
suitable quantifier (4 or 5) that follows the event before the next one, and one for each known
supplementary information; control codes (1) change the urgency, the direction and the extent. -/
theorem C65_message_content_partial (env : TmcEnv) (hk : env.KeysOk) (s : TMCService) (hr : s.Ready)
    (h0 : s.message.continuityIndex = 0) (n : Nat) (h1 : 1 ≤ n) (h4 : n ≤ 4)
    (fields : List (Nat × Nat)) (hf : Fits (readCapacity n) fields) (x y z : Word)
    (hx : 1 ≤ x.toNat % 32 ∧ x.toNat % 32 ≤ 7) (hy : 2 ^ 15 ≤ y.toNat) :
    ∃ members, s.outputs env ({ x := x, y := y, z := z } :: subsequentUserGroups x n fields) =
      some (.set ["tmc", "message"] (.obj members) :: decodeLocation (env.locations s.ltn) s.ltn
        (knownLocation env s z)
        (if y.toNat / 2 ^ 14 % 2 = 1 then -(extentOf y fields : Int) else extentOf y fields)) ∧
      ShowsMessage env y z s.isEncrypted (knownLocation env s z) fields members := by
  rw [C51_fields_partial env s hr h0 n h1 h4 fields hf x y z hx hy]
  refine content_of_fields env hk s y z fields hf.1 ?_
  have h2 := fields_length fields
  have h3 := hf.2.1
  have : readCapacity n ≤ 28 * n := by unfold readCapacity; split <;> omega
  omega

/-! ### Examples -/

/-- A list of two events: 108 with the quantifier "up to km/h", 201 with a small number. -/
def demoEvents : TmcEnv :=
  { TmcEnv.empty with
    events := fun c =>
      if c = 108 then some { description := ascii "queuing traffic"
                             descriptionWithQuantifier := ascii "queuing traffic with average speeds (Q)"
                             quantifierType := .uptoKmh, urgency := .u, updateClass := 1, allowsQuantifier := true }
      else if c = 201 then some { description := ascii "accident", descriptionWithQuantifier := ascii "(Q) accidents"
                                  updateClass := 3, allowsQuantifier := true }
      else none
    supplementary := fun c => if c = 2 then some (ascii "follow signs") else none }

theorem demoEvents_keys : demoEvents.KeysOk := by
  intro i k h
  cases h

/-- A text member of the message that is printed. -/
def demoText (out : Option (List JOp)) (k : String) : Option Str :=
  match out with
  | some (.set _ (.obj members) :: _) =>
    match members.lookup k with
    | some (.str t) => some t
    | _ => none
  | _ => none

/-- Queuing traffic of up to 20 km/h, 3 accidents, follow signs; speed limit 80, until 15:00, from 12:30, extent
-(2 + 8), both directions, urgency raised. -/
example :
    let fields := [(4, 4), (4, 9), (9, 201), (4, 3), (6, 2), (3, 16), (7, 50), (8, 60), (1, 6), (1, 2), (1, 0)]
    let s : TMCService := { isInitialized := true }
    let out := s.outputs demoEvents ({ x := 5, y := 0xD06C, z := 77 } :: subsequentUserGroups 5 4 fields)
    s.message.continuityIndex = 0 ∧ (fields.flatMap fieldBits).length = 108 ∧ readCapacity 4 = 112 ∧
    (∀ f ∈ fields, f.1 ≤ 14 ∧ f.2 < 2 ^ labelSize f.1 ∧ f ≠ (0, 0)) ∧
    demoText out "description" =
      some (ascii "Queuing traffic with average speeds of up to 20 km/h. 3 accidents. Follow signs.") ∧
    demoText out "speed_limit" = some (ascii "80 km/h") ∧ demoText out "starts" = some (ascii "12:30") ∧
    demoText out "until" = some (ascii "15:00") ∧ demoText out "extent" = some (ascii "-10") ∧
    demoText out "direction" = some (ascii "both") ∧ demoText out "urgency" = some (ascii "X") := by
  decide +kernel

example : (8 : Word).toNat / 8 % 4 = 1 ∧
    demoText ((TMCService.receiveUserGroup demoEvents { isInitialized := true } 8 0x506C 77).map (·.2)) "description" =
      some (ascii "Queuing traffic.") := by
  decide +kernel

end Redsea
