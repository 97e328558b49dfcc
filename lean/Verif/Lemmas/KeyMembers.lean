import Verif.Lemmas.PlaceAbsent
import Verif.Spec.KeyMembers
import Mathlib.Data.List.Forall2

/-
Lemmas for C105: keys add the location to encrypted traffic messages, and do nothing else.
-/

namespace Redsea
open _root_.Spec _root_.Redsea.Spec

/-! ### Objects -/

theorem located_apply {k : String} (hk : k ∈ placeMembers) {v j j' : J} (hm : HasMessage j)
    (h : (JOp.set ["tmc", "message", k] v).apply j = some j') : HasMessage j' ∧ j'.withoutLocation = j.withoutLocation := by
  obtain ⟨l, t, m, rfl, h1, h2⟩ := hm
  obtain ⟨l', h3, rfl⟩ := Option.map_eq_some_iff.mp
    (show (updateMember "tmc" (J.update ["message", k] fun _ => some v) l).map J.obj = some j' from h)
  obtain ⟨x, h4, h5, h6⟩ := update_within l h1 h3
  obtain ⟨t', h7, rfl⟩ := Option.map_eq_some_iff.mp
    (show (updateMember "message" (J.update [k] fun _ => some v) t).map J.obj = some x from h4)
  obtain ⟨y, h8, h9, h10⟩ := update_within t h2 h7
  obtain ⟨m', h11, rfl⟩ := Option.map_eq_some_iff.mp
    (show (updateMember k (J.update [] fun _ => some v) m).map J.obj = some y from h8)
  refine ⟨⟨l', t', m', rfl, h5, h9⟩, ?_⟩
  have e1 : J.dropMembers locationMembers (.obj m') = J.dropMembers locationMembers (.obj m) := by
    have := member_dropped (p := fun n => decide (n ∉ locationMembers)) (k := k) (decide_eq_false fun c => c (List.mem_cons_of_mem _ hk)) _ m m' h11
    exact congrArg J.obj this
  have e2 : J.within "message" (J.dropMembers locationMembers) (.obj t') = J.within "message" (J.dropMembers locationMembers) (.obj t) := by
    exact congrArg J.obj (h10 _ e1)
  unfold J.withoutLocation
  show J.obj _ = J.obj _
  rw [h6 _ e2]

theorem located_build (ops : List JOp) (hp : PlaceOps ops) {j j' : J} (hm : HasMessage j) (h : J.build ops j = some j') :
    j'.withoutLocation = j.withoutLocation := by
  induction ops generalizing j with
  | nil =>
    have : j = j' := by simpa [J.build] using h
    rw [this]
  | cons op ops ih =>
    rw [build_cons] at h
    obtain ⟨j1, h1, h2⟩ := Option.bind_eq_some_iff.mp h
    obtain ⟨k, v, rfl, hk⟩ := hp op List.mem_cons_self
    obtain ⟨hm1, e⟩ := located_apply hk hm h1
    rw [ih (fun x hx => hp x (List.mem_cons_of_mem _ hx)) hm1 h2, e]

/-- Two values for a member that agree up to a function. -/
theorem update_alike {k : String} {f f' : J → Option J} {g : J → J} (hf : ∀ x v v', f x = some v → f' x = some v' → g v' = g v)
    (l : List (String × J)) {a b : List (String × J)} (ha : updateMember k f l = some a) (hb : updateMember k f' l = some b) :
    (b.map fun m => if m.1 = k then (m.1, g m.2) else m) = a.map fun m => if m.1 = k then (m.1, g m.2) else m := by
  induction l generalizing a b with
  | nil =>
    obtain ⟨v, h1, rfl⟩ := Option.map_eq_some_iff.mp ha
    obtain ⟨v', h2, rfl⟩ := Option.map_eq_some_iff.mp hb
    simp [hf _ v v' h1 h2]
  | cons m l ih =>
    obtain ⟨k', x⟩ := m
    unfold updateMember at ha hb
    by_cases hk : k' = k
    · rw [if_pos hk] at ha hb
      subst hk
      obtain ⟨v, h1, rfl⟩ := Option.map_eq_some_iff.mp ha
      obtain ⟨v', h2, rfl⟩ := Option.map_eq_some_iff.mp hb
      simp [hf _ v v' h1 h2]
    · rw [if_neg hk] at ha hb
      obtain ⟨a1, h1, rfl⟩ := Option.map_eq_some_iff.mp ha
      obtain ⟨b1, h2, rfl⟩ := Option.map_eq_some_iff.mp hb
      rw [List.map_cons, List.map_cons, ih h1 h2]

theorem within_alike {k : String} {path : List String} {f f' : J → Option J} {g : J → J}
    (hf : ∀ x v v', J.update path f x = some v → J.update path f' x = some v' → g v' = g v) {j a b : J}
    (ha : J.update (k :: path) f j = some a) (hb : J.update (k :: path) f' j = some b) : b.within k g = a.within k g := by
  have key : ∀ l, (updateMember k (J.update path f) l).map J.obj = some a → (updateMember k (J.update path f') l).map J.obj = some b →
      b.within k g = a.within k g := by
    intro l ha hb
    obtain ⟨a1, h1, rfl⟩ := Option.map_eq_some_iff.mp ha
    obtain ⟨b1, h2, rfl⟩ := Option.map_eq_some_iff.mp hb
    exact congrArg J.obj (update_alike hf l h1 h2)
  cases j with
  | null => exact key [] ha hb
  | obj l => exact key l ha hb
  | _ => cases ha

/-- Two messages that are the same without their locations. -/
theorem set_alike {m m' : List (String × J)} (hm : J.dropMembers locationMembers (.obj m') = J.dropMembers locationMembers (.obj m))
    {j a b : J} (ha : (JOp.set ["tmc", "message"] (.obj m)).apply j = some a)
    (hb : (JOp.set ["tmc", "message"] (.obj m')).apply j = some b) : b.withoutLocation = a.withoutLocation := by
  refine within_alike (f := fun _ => some (.obj m)) (f' := fun _ => some (.obj m')) (path := ["message"]) (fun x v v' h h' => ?_) ha hb
  refine within_alike (path := []) (fun x v v' h h' => ?_) h h'
  have e : J.obj m = v := by simpa [J.update] using h
  have e' : J.obj m' = v' := by simpa [J.update] using h'
  rw [← e, ← e', hm]

/-- No location of a traffic message. -/
def J.LocationFree (j : J) : Prop :=
  j.AllMembers fun k t => k = "tmc" → t.AllMembers fun k m => k = "message" → m.AllMembers fun k _ => k ∉ locationMembers

theorem drop_none {j : J} (h : j.AllMembers fun k _ => k ∉ locationMembers) : j.dropMembers locationMembers = j := by
  cases j with
  | obj l => exact congrArg J.obj (List.filter_eq_self.mpr fun m hm => by simpa using h l rfl m hm)
  | _ => rfl

theorem location_free {j : J} (h : j.LocationFree) : j.withoutLocation = j :=
  within_free fun l e m hm hk => within_free fun l' e' m' hm' hk' => drop_none (h l e m hm hk l' e' m' hm' hk')

/-- Operations outside of the member for traffic messages. -/
def OtherOps (ops : List JOp) : Prop := ∀ op ∈ ops, ∃ k rest, op.path = k :: rest ∧ k ≠ "tmc"

theorem other_build (ops : List JOp) (ho : OtherOps ops) {j j' : J} (hj : j.LocationFree) (h : J.build ops j = some j') :
    j'.LocationFree := by
  induction ops generalizing j with
  | nil =>
    have : j = j' := by simpa [J.build] using h
    rw [← this]
    exact hj
  | cons op ops ih =>
    rw [build_cons] at h
    obtain ⟨j1, h1, h2⟩ := Option.bind_eq_some_iff.mp h
    refine ih (fun x hx => ho x (List.mem_cons_of_mem _ hx)) ?_ h2
    obtain ⟨k, rest, e, hk⟩ := ho op List.mem_cons_self
    obtain ⟨f, hf⟩ := apply_update op
    rw [hf, e] at h1
    exact all_update (fun v _ c => absurd c hk) (fun x v _ _ c => absurd c hk) hj h1

theorem message_free {m : List (String × J)} (hm : ∀ x ∈ m, x.1 ∉ locationMembers) {j j' : J} (hj : j.LocationFree)
    (h : (JOp.set ["tmc", "message"] (.obj m)).apply j = some j') : j'.LocationFree := by
  have last : ∀ x v : J, J.update [] (fun _ => some (J.obj m)) x = some v → v.AllMembers fun k _ => k ∉ locationMembers := by
    intro x v hv l e
    have : J.obj m = v := by simpa [J.update] using hv
    rw [← this] at e
    cases e
    exact hm
  have h : J.update ["tmc", "message"] (fun _ => some (J.obj m)) j = some j' := h
  refine all_update (fun v hv _ => ?_) (fun x v hx hv _ => ?_) hj h
  · exact all_update (j := .null) (fun v hv _ => last _ v hv) (fun x v _ hv _ => last x v hv) (fun l e => by cases e) hv
  · exact all_update (fun v hv _ => last _ v hv) (fun x v _ hv _ => last x v hv) (hx rfl) hv

theorem other_keys {s : List String} {ops : List JOp} (h : KeysIn s ops) (hs : "tmc" ∉ s) : OtherOps ops := by
  intro op hop
  rcases free_keys (s := s) (ops := [op]) (fun x hx => h x (List.mem_singleton.mp hx ▸ hop)) hs op List.mem_cons_self with
    h1 | ⟨k, rest, e, -⟩ | ⟨m, rfl, -⟩
  · exact h1
  · exfalso
    obtain ⟨k', h1, h2⟩ := h op hop
    have : op.key = some "tmc" := by
      cases op <;> (cases e; rfl)
    rw [this] at h1
    cases h1
    exact hs h2
  · exfalso
    obtain ⟨k', h1, h2⟩ := h _ hop
    cases h1
    exact hs h2

/-! ### Messages -/

/-- The members of a message before the location. -/
def Message.firstMembers (env : TmcEnv) (m : Message) : List (String × J) :=
  listMember "event_codes" m.events ++
  listMember "supplementary_codes" m.supplementary ++
  ((env.events (m.events.headD 0)).map fun e => ("update_class", J.nat e.updateClass)).toList ++
  (if m.sentences env = [] then []
   else [("description", .str (joinStr (ascii ". ") (m.sentences env) ++ ascii "."))]) ++
  listMember "diversion_route" m.diversion ++
  (m.speedLimit.map fun v => ("speed_limit", J.str (decimal v ++ ascii " km/h"))).toList ++
  (if m.wasEncrypted then [("encrypted_location", .nat m.encryptedLocation.toNat)] else [])

/-- The members of a message after the location. -/
def Message.lastMembers (m : Message) : List (String × J) :=
  [("direction", .str (if m.both then ascii "both" else ascii "single")),
   ("extent", .str m.extentString)] ++
  (m.timeStarts.map fun v => ("starts", J.str (getTimeString v))).toList ++
  (m.timeUntil.map fun v => ("until", J.str (getTimeString v))).toList ++
  [("urgency", .str (getUrgencyString m.urgency))]

theorem json_parts (env : TmcEnv) (m : Message) : m.json env =
    if !m.isComplete || m.events.isEmpty then none
    else some (m.firstMembers env ++ (if !m.isEncrypted then [("location", .nat m.location.toNat)] else []) ++ m.lastMembers) := by
  unfold Message.json Message.firstMembers Message.lastMembers
  simp only [List.append_assoc]

theorem parts_free (env : TmcEnv) (m : Message) : ∀ x ∈ m.firstMembers env ++ m.lastMembers, x.1 ∉ locationMembers := by
  have names : ∀ x ∈ m.firstMembers env ++ m.lastMembers, x.1 ∈ ["event_codes", "supplementary_codes", "update_class",
      "description", "diversion_route", "speed_limit", "encrypted_location", "direction", "extent", "starts", "until", "urgency"] := by
    have list : ∀ (k : String) (l : List Nat), ∀ x ∈ Message.listMember k l, x.1 = k := by
      intro k l x hx
      unfold Message.listMember at hx
      split at hx
      · cases hx
      · rw [List.mem_singleton.mp hx]
    have opt : ∀ {α : Type} (o : Option α) (k : String) (f : α → J), ∀ x ∈ (o.map fun v => (k, f v)).toList, x.1 = k := by
      intro α o k f x hx
      cases o with
      | none => cases hx
      | some v => rw [List.mem_singleton.mp hx]
    intro x hx
    rcases List.mem_append.mp hx with hx | hx
    · unfold Message.firstMembers at hx
      simp only [List.mem_append] at hx
      rcases hx with (((((hx | hx) | hx) | hx) | hx) | hx) | hx
      · rw [list _ _ x hx]; decide
      · rw [list _ _ x hx]; decide
      · rw [opt _ _ _ x hx]; decide
      · split at hx
        · cases hx
        · rw [List.mem_singleton.mp hx]; dsimp only; decide
      · rw [list _ _ x hx]; decide
      · rw [opt _ _ _ x hx]; decide
      · split at hx
        · rw [List.mem_singleton.mp hx]; dsimp only; decide
        · cases hx
    · unfold Message.lastMembers at hx
      simp only [List.mem_append] at hx
      rcases hx with ((hx | hx) | hx) | hx
      · rcases List.mem_cons.mp hx with rfl | hx
        · dsimp only; decide
        · rw [List.mem_singleton.mp hx]; dsimp only; decide
      · rw [opt _ _ _ x hx]; decide
      · rw [opt _ _ _ x hx]; decide
      · rw [List.mem_singleton.mp hx]; dsimp only; decide
  intro x hx hp
  have := names x hx
  revert this
  revert hp
  generalize x.1 = n
  intro hp
  simp only [locationMembers, placeMembers, List.mem_cons, List.not_mem_nil, or_false] at hp
  rcases hp with rfl | rfl | rfl | rfl | rfl | rfl <;> decide

/-- The members of a message whose location is known, without the location, are those of the message whose location is not
known. -/
theorem json_located (env : TmcEnv) (m : Message) (he : m.isEncrypted = true) (lcd : Word) :
    (m.json env = none ∧ ({ m with location := lcd, isEncrypted := false } : Message).json env = none) ∨
    ∃ members members', m.json env = some members ∧
      ({ m with location := lcd, isEncrypted := false } : Message).json env = some members' ∧
      (∀ x ∈ members, x.1 ∉ locationMembers) ∧ members'.filter (fun x => x.1 ∉ locationMembers) = members := by
  have free := parts_free env m
  rw [json_parts, json_parts]
  rw [show Message.firstMembers env { m with location := lcd, isEncrypted := false } = m.firstMembers env from rfl,
    show Message.lastMembers { m with location := lcd, isEncrypted := false } = m.lastMembers from rfl]
  dsimp only
  rw [he]
  generalize m.firstMembers env = x at *
  generalize m.lastMembers = y at *
  by_cases hc : (!m.isComplete || m.events.isEmpty) = true
  · left
    rw [if_pos hc]
    exact ⟨rfl, if_pos hc⟩
  · right
    refine ⟨x ++ y, x ++ [("location", .nat lcd.toNat)] ++ y, ?_, if_neg hc, free, ?_⟩
    · rw [if_neg hc]
      simp
    · have hx : x.filter (fun m => m.1 ∉ locationMembers) = x :=
        List.filter_eq_self.mpr fun m hm => by simpa using free m (List.mem_append_left _ hm)
      have hy : y.filter (fun m => m.1 ∉ locationMembers) = y :=
        List.filter_eq_self.mpr fun m hm => by simpa using free m (List.mem_append_right _ hm)
      rw [List.filter_append, List.filter_append, hx, hy]
      have : ([("location", J.nat lcd.toNat)] : List (String × J)).filter (fun m => m.1 ∉ locationMembers) = [] := by
        simp [locationMembers]
      rw [this, List.append_nil]

/-! ### Decoders -/

/-- The same operations, or those for a message whose location becomes known. -/
def Keyed (ops ops' : List JOp) : Prop :=
  ops' = ops ∨ ∃ m m' loc, ops = [.set ["tmc", "message"] (.obj m)] ∧ ops' = .set ["tmc", "message"] (.obj m') :: loc ∧
    (∀ x ∈ m, x.1 ∉ locationMembers) ∧ m'.filter (fun x => x.1 ∉ locationMembers) = m ∧ PlaceOps loc ∧ OpsUtf8 ops ∧ OpsUtf8 ops'

section
variable {env : Env} {f : Nat → Option ServiceKey} (hn : ∀ i, env.tmc.serviceKey i = none) (hv : env.tmc.Valid)
  (hv' : (env.withKeys f).tmc.Valid)
include hn hv hv'

theorem keyed_print (s : TMCService) (m : Message) :
    Pairs False Keyed (s.printMessage env.tmc m) (s.printMessage (env.withKeys f).tmc m) := by
  refine ⟨fun a b ha hb => ?_, fun h => h.elim⟩
  have ua := printMessage_utf8 hv ha
  have ub := printMessage_utf8 hv' hb
  unfold TMCService.printMessage at ha hb
  dsimp only at ha hb
  rw [hn] at ha
  rw [show (env.withKeys f).tmc.serviceKey = f from rfl] at hb
  have ha : (match m.json env.tmc with
      | none => pure []
      | some members => pure (JOp.set ["tmc", "message"] (.obj members) ::
          decodeLocation (env.tmc.locations s.ltn) s.ltn (if m.isEncrypted then none else some m.location)
            (if m.negative then -(m.extent : Int) else m.extent)) : Option (List JOp)) = some a := by
    by_cases he : s.isEncrypted = true
    · rw [if_pos he] at ha; exact ha
    · rw [if_neg he] at ha; exact ha
  have same : (match m.json env.tmc with
      | none => pure []
      | some members => pure (JOp.set ["tmc", "message"] (.obj members) ::
          decodeLocation (env.tmc.locations s.ltn) s.ltn (if m.isEncrypted then none else some m.location)
            (if m.negative then -(m.extent : Int) else m.extent)) : Option (List JOp)) = some b → Keyed a b := by
    intro hb
    rw [ha] at hb
    cases hb
    exact .inl rfl
  by_cases he : s.isEncrypted = true
  · rw [if_pos he] at hb
    cases hk : f s.encid with
    | none =>
      rw [hk] at hb
      exact same hb
    | some key =>
      rw [hk] at hb
      obtain ⟨m1, h1, hb⟩ := Option.bind_eq_some_iff.mp hb
      unfold Message.decrypt at h1
      by_cases hm : m.isEncrypted = true
      · rw [if_neg (by rw [hm]; decide)] at h1
        split at h1
        · cases h1
          generalize rotl16 _ _ = lcd at hb
          rcases json_located env.tmc m hm lcd with ⟨j1, j2⟩ | ⟨members, members', j1, j2, j3, j4⟩
          · rw [j1] at ha
            rw [show ∀ m : Message, m.json (env.withKeys f).tmc = m.json env.tmc from fun _ => rfl, j2] at hb
            cases ha
            cases hb
            exact .inl rfl
          · rw [j1, hm] at ha
            rw [show ∀ m : Message, m.json (env.withKeys f).tmc = m.json env.tmc from fun _ => rfl, j2] at hb
            have e : ∀ db ltn x, decodeLocation db ltn none x = [] := by
              intro db ltn x
              unfold decodeLocation
              split <;> rfl
            rw [if_pos rfl, e] at ha
            cases ha
            cases hb
            exact .inr ⟨members, members', _, rfl, rfl, j3, j4, location_ops _ _ _ _, ua, ub⟩
        · cases h1
      · rw [if_pos (by simpa using hm)] at h1
        cases h1
        exact same hb
  · rw [if_neg he] at hb
    exact same hb

theorem keyed_user (s : TMCService) (x y z : Word) :
    Pairs False (fun q r => r.1 = q.1 ∧ Keyed q.2 r.2) (s.receiveUserGroup env.tmc x y z)
      (s.receiveUserGroup (env.withKeys f).tmc x y z) := by
  have same : ∀ q : TMCService × List JOp, q.1 = q.1 ∧ Keyed q.2 q.2 := fun q => ⟨rfl, .inl rfl⟩
  unfold TMCService.receiveUserGroup
  dsimp only
  by_cases h1 : (!s.isInitialized) = true
  · rw [if_pos h1, if_pos h1]; exact pairs_some (same _)
  rw [if_neg h1, if_neg h1]
  by_cases h2 : getBits 5 x 0 = 0
  · rw [if_pos h2, if_pos h2]; exact pairs_some (same _)
  rw [if_neg h2, if_neg h2]
  by_cases h3 : getBool x 4 = true
  · rw [if_pos h3, if_pos h3]
    exact pairs_refl same (s.tuningInformation env.tmc x y z)
  rw [if_neg h3, if_neg h3]
  by_cases h4 : (s.isEncrypted && !s.hasEncid) = true
  · rw [if_pos h4, if_pos h4]; exact pairs_some (same _)
  rw [if_neg h4, if_neg h4]
  by_cases h5 : getBool x 3 = true
  · rw [if_pos h5, if_pos h5]
    exact pairs_bind (keyed_print hn hv hv' s ((Message.new s.isEncrypted).pushSingle env.tmc y z)) fun a b hab => pairs_some ⟨rfl, hab⟩
  rw [if_neg h5, if_neg h5]
  rw [show ∀ m : Message, Message.pushMulti (env.withKeys f).tmc m x y z = Message.pushMulti env.tmc m x y z from fun _ => rfl]
  generalize Message.pushMulti env.tmc _ x y z = m
  by_cases h6 : m.isComplete = true
  · rw [if_pos h6, if_pos h6]
    exact pairs_bind (keyed_print hn hv hv' s m) fun a b hab => pairs_some ⟨rfl, hab⟩
  · rw [if_neg h6, if_neg h6]
    exact pairs_some (same _)

theorem keyed_tmc (st : Station) (g : Group) :
    Pairs False (fun q r => r.1 = q.1 ∧ Keyed q.2 r.2) (st.decodeTmc env g) (st.decodeTmc (env.withKeys f) g) := by
  unfold Station.decodeTmc
  split
  · exact pairs_bind (keyed_user hn hv hv' st.tmc _ _ _) fun a b hab => pairs_some ⟨by rw [hab.1], hab.2⟩
  · exact pairs_some ⟨rfl, .inl rfl⟩

theorem keyed_oda (st : Station) (g : Group) :
    Pairs False (fun q r => r.1 = q.1 ∧ Keyed q.2 r.2) (st.decodeODAGroup env g) (st.decodeODAGroup (env.withKeys f) g) := by
  have same : ∀ q : Station × List JOp, q.1 = q.1 ∧ Keyed q.2 q.2 := fun q => ⟨rfl, .inl rfl⟩
  unfold Station.decodeODAGroup
  cases st.odaForGroup g.type with
  | none => exact pairs_some (same _)
  | some app =>
    dsimp only
    unfold Station.decodeODAApp
    repeat' first
      | exact keyed_tmc hn hv hv' st g
      | exact pairs_refl same _
      | split

theorem keyed_dispatch (st : Station) (g : Group) :
    Pairs False (fun q r => r.1 = q.1 ∧ Keyed q.2 r.2) (st.dispatch env g) (st.dispatch (env.withKeys f) g) := by
  have same : ∀ q : Station × List JOp, q.1 = q.1 ∧ Keyed q.2 q.2 := fun q => ⟨rfl, .inl rfl⟩
  unfold Station.dispatch
  rw [show st.decodeType0 (env.withKeys f) g = st.decodeType0 env g from rfl,
    show st.decodeType5 (env.withKeys f) g = st.decodeType5 env g from rfl,
    show st.decodeType10A (env.withKeys f) g = st.decodeType10A env g from rfl,
    show st.decodeType14 (env.withKeys f) g = st.decodeType14 env g from rfl,
    show st.decodeType15A (env.withKeys f) g = st.decodeType15A env g from rfl,
    show (env.withKeys f).ucs2 = env.ucs2 from rfl]
  dsimp only
  repeat' first
    | exact keyed_tmc hn hv hv' st g
    | exact keyed_oda hn hv hv' st g
    | exact pairs_refl same _
    | exact pairs_some ⟨rfl, .inl rfl⟩
    | apply pairs_ite

variable (ht : ∀ n, validUtf8 (env.formatTime n) = true)
include ht

/-- A group with keys. -/
theorem keyed_line (st : Station) (g : Group) :
    Pairs False (fun q r => r.1 = q.1 ∧ (r.2 = q.2 ∨ r.2.map Line.withoutLocation = q.2)) (st.updateAndPrint env g)
      (st.updateAndPrint (env.withKeys f) g) := by
  unfold Station.updateAndPrint
  refine pairs_bind (R := fun q r => r.1 = q.1 ∧ ((r.2 = q.2) ∨ ∃ pre ops ops', q.2 = some (pre ++ ops) ∧
      r.2 = some (pre ++ ops') ∧ Keyed ops ops' ∧ OpsUtf8 pre ∧ OtherOps pre)) ?_ fun q r hqr => ?_
  · unfold Station.update
    split
    · exact pairs_some ⟨rfl, .inl rfl⟩
    dsimp only
    split
    · exact pairs_some ⟨rfl, .inl rfl⟩
    refine pairs_bind_same _ fun basics hb => ?_
    have hh : OpsUtf8 (st.headerOps env g) := header_texts ht st g
    have hbas : OpsUtf8 basics := decodeBasics_utf8 g hb
    have hu := (opsUtf8_append _ _).mpr ⟨hh, hbas⟩
    have ho : OtherOps (st.headerOps env g ++ basics) := by
      intro op hop
      rcases List.mem_append.mp hop with hop | hop
      · exact other_keys (header_keys env st g) (by decide) op hop
      · obtain ⟨ops, h1, -, h2⟩ := decodeBasics_fine _ g
        rw [hb] at h1
        cases h1
        exact other_keys (s := ["group", "tp", "prog_type"]) h2 (by decide) op hop
    refine pairs_ite ?_ (pairs_some ⟨rfl, .inl rfl⟩)
    exact pairs_bind (keyed_dispatch hn hv hv' _ g) fun a b hab =>
      pairs_some ⟨hab.1, .inr ⟨_, _, _, rfl, rfl, hab.2, hu, ho⟩⟩
  · obtain ⟨e, h | ⟨pre, ops, ops', e1, e2, hp, hu, ho⟩⟩ := hqr
    · rw [e, h]
      exact pairs_refl (fun a => ⟨rfl, .inl rfl⟩) _
    · rw [e, e1, e2]
      dsimp only
      rcases hp with rfl | ⟨m, m', loc, rfl, rfl, p, p', pl, u, u'⟩
      · exact pairs_refl (fun a => ⟨rfl, .inl rfl⟩) _
      refine ⟨fun a b ha hb => ?_, fun h => h.elim⟩
      obtain ⟨j, hj, ha⟩ := Option.bind_eq_some_iff.mp ha
      obtain ⟨j', hj', hb⟩ := Option.bind_eq_some_iff.mp hb
      cases ha
      cases hb
      refine ⟨rfl, .inr ?_⟩
      have v1 : j.utf8 = true := build_utf8 _ ((opsUtf8_append _ _).mpr ⟨hu, u⟩) _ _ rfl hj
      have v2 : j'.utf8 = true := build_utf8 _ ((opsUtf8_append _ _).mpr ⟨hu, u'⟩) _ _ rfl hj'
      unfold printJson
      rw [v1, v2]
      rw [build_append] at hj hj'
      obtain ⟨j0, h0, hj⟩ := Option.bind_eq_some_iff.mp hj
      obtain ⟨j0', h0', hj'⟩ := Option.bind_eq_some_iff.mp hj'
      rw [h0] at h0'
      cases h0'
      rw [build_cons] at hj hj'
      obtain ⟨j1, h1, hj⟩ := Option.bind_eq_some_iff.mp hj
      obtain ⟨j1', h1', hj'⟩ := Option.bind_eq_some_iff.mp hj'
      obtain rfl : j1 = j := by simpa [J.build] using hj
      have f0 : j0.LocationFree := other_build pre ho (j := .null) (fun l e => by cases e) h0
      have f1 := message_free p f0 h1
      have hd : J.dropMembers locationMembers (.obj m') = J.dropMembers locationMembers (.obj m) := by
        rw [drop_none (j := .obj m) (fun l e => by cases e; exact p)]
        exact congrArg J.obj p'
      show some (Line.json j'.withoutLocation) = some (Line.json j1)
      rw [located_build loc pl (set_message h1') hj', set_alike hd h1 h1', location_free f1]

/-! ### Channels -/

/-- Lines, one for one, with locations added. -/
abbrev AddLocations (a b : List Line) : Prop := List.Forall₂ AddsLocation a b

omit hn hv hv' ht in
theorem adds_cons {q r : Handled} {x y : List Handled} (h1 : r.line = q.line ∨ r.line.map Line.withoutLocation = q.line)
    (h2 : AddLocations (printedLines (x.map .handled)) (printedLines (y.map .handled))) :
    AddLocations (printedLines ((q :: x).map .handled)) (printedLines ((r :: y).map .handled)) := by
  have e : ∀ (q : Handled) (x : List Handled), printedLines ((q :: x).map .handled) = q.line.toList ++ printedLines (x.map .handled) := by
    intro q x
    unfold printedLines
    rw [List.map_cons, List.filterMap_cons]
    dsimp only
    cases q.line <;> rfl
  rw [e, e]
  refine List.rel_append ?_ h2
  rcases h1 with h1 | h1
  · rw [h1]
    cases q.line with
    | none => exact .nil
    | some l => exact .cons (.inl rfl) .nil
  · rw [← h1]
    cases r.line with
    | none => exact .nil
    | some l => exact .cons (.inr rfl) .nil

theorem keyed_group (c : Channel) (now : Int) (g : Group) (n : Nat) :
    Pairs False (fun q r => r.1 = q.1 ∧ (r.2.line = q.2.line ∨ r.2.line.map Line.withoutLocation = q.2.line))
      (c.processGroup env now g n) (c.processGroup (env.withKeys f) now g n) := by
  unfold Channel.processGroup Channel.handleGroup
  refine pairs_bind_same _ fun q _ => ?_
  refine pairs_bind (R := fun q r => r.1 = q.1 ∧ (r.2 = q.2 ∨ r.2.map Line.withoutLocation = q.2)) ?_ fun a b hab =>
    pairs_some hab
  unfold Channel.output
  split
  · exact pairs_some ⟨rfl, .inl rfl⟩
  · exact pairs_bind (keyed_line hn hv hv' ht _ _) fun a b hab => pairs_some ⟨by rw [hab.1], hab.2⟩

theorem keyed_bits {delay : Nat → Int} {t : Int} {n : Nat} (bits : List Bool) (c : Channel) :
    Pairs False (fun q r => r.1 = q.1 ∧ AddLocations (printedLines (q.2.map .handled)) (printedLines (r.2.map .handled)))
      (Channel.processBits env delay t n c bits) (Channel.processBits (env.withKeys f) delay t n c bits) := by
  induction bits generalizing c with
  | nil => exact pairs_some ⟨rfl, .nil⟩
  | cons b bits ih =>
    rw [Channel.processBits, Channel.processBits]
    refine pairs_bind_same _ fun q _ => ?_
    cases q.2 with
    | none => exact ih q.1
    | some g =>
      refine pairs_bind (keyed_group hn hv hv' ht q.1 0 _ n) fun x y hxy => ?_
      rw [hxy.1]
      exact pairs_bind (ih _) fun k l hkl => pairs_some ⟨hkl.1, adds_cons hxy.2 hkl.2⟩

theorem keyed_flush {now : Nat → Int} (l : List Nat) (c : Channel) :
    Pairs False (fun q r => r.1 = q.1 ∧ AddLocations (printedLines (q.2.map .handled)) (printedLines (r.2.map .handled)))
      (Channel.flushStreams env now c l) (Channel.flushStreams (env.withKeys f) now c l) := by
  induction l generalizing c with
  | nil => exact pairs_some ⟨rfl, .nil⟩
  | cons i l ih =>
    rw [Channel.flushStreams, Channel.flushStreams]
    refine pairs_bind_same _ fun s _ => ?_
    dsimp only
    split
    · exact ih c
    · refine pairs_bind (keyed_group hn hv hv' ht c (now i) _ i) fun x y hxy => ?_
      rw [hxy.1]
      exact pairs_bind (ih _) fun k l hkl => pairs_some ⟨hkl.1, adds_cons hxy.2 hkl.2⟩

theorem keyed_step {delay : Nat → Int} (c : Channel) (e : ChannelEvent) :
    Pairs False (fun q r => r.1 = q.1 ∧ AddLocations (printedLines q.2) (printedLines r.2)) (c.step env delay e)
      (c.step (env.withKeys f) delay e) := by
  cases e with
  | bit t b n =>
    refine pairs_map (R := fun q r => r.1 = q.1 ∧ AddLocations (printedLines (q.2.map .handled)) (printedLines (r.2.map .handled)))
      ?_ fun q r h => h
    unfold Channel.processBit
    refine pairs_bind_same _ fun q _ => ?_
    cases q.2 with
    | none => exact pairs_some ⟨rfl, .nil⟩
    | some g => exact pairs_bind (keyed_group hn hv hv' ht q.1 t g n) fun x y hxy => pairs_some ⟨hxy.1, adds_cons hxy.2 .nil⟩
  | bits t l n => exact pairs_map (keyed_bits hn hv hv' ht l c) fun q r h => h
  | group t g n => exact pairs_map (keyed_group hn hv hv' ht c t g n) fun q r h => ⟨h.1, adds_cons (x := []) (y := []) h.2 .nil⟩
  | flush now => exact pairs_map (keyed_flush hn hv hv' ht _ c) fun q r h => h
  | resetPI => exact pairs_some ⟨rfl, .nil⟩

theorem keyed_run {delay : Nat → Int} (es : List ChannelEvent) (c : Channel) :
    Pairs False (fun q r => r.1 = q.1 ∧ AddLocations (printedLines q.2) (printedLines r.2)) (Channel.run env delay c es)
      (Channel.run (env.withKeys f) delay c es) := by
  induction es generalizing c with
  | nil => exact pairs_some ⟨rfl, .nil⟩
  | cons e es ih =>
    rw [Channel.run, Channel.run]
    refine pairs_bind (keyed_step hn hv hv' ht c e) fun q r hqr => ?_
    rw [hqr.1]
    refine pairs_bind (ih q.1) fun x y hxy => pairs_some ⟨hxy.1, ?_⟩
    have app : ∀ a b : List Trace, printedLines (a ++ b) = printedLines a ++ printedLines b := fun a b => List.filterMap_append
    rw [app, app]
    exact List.rel_append hqr.2 hxy.2

theorem alike_keyed (delay : Nat → Int) :
    Alike False env (env.withKeys f) delay delay (fun c d => d = c) (fun t t' => t' = t) AddLocations where
  nil := .nil
  append h1 h2 := List.rel_append h1 h2
  streams h := by rw [h]
  reset h := by rw [h]
  bits := by
    intro c d t t' n l h e
    rw [h, e]
    exact keyed_bits hn hv hv' ht l c
  flush := by
    intro c d now now' h h0
    obtain rfl : now' = now := funext h0
    rw [h]
    exact keyed_flush hn hv hv' ht _ c

end

/-! ### Two sets of keys -/

theorem within_twice {k : String} {f : J → J} (hf : ∀ x, f (f x) = f x) (j : J) : (j.within k f).within k f = j.within k f := by
  cases j with
  | obj l =>
    refine congrArg J.obj ?_
    rw [List.map_map]
    refine List.map_congr_left fun m _ => ?_
    by_cases hk : m.1 = k
    · simp [hk, hf]
    · simp [hk]
  | _ => rfl

theorem withoutLocation_twice (l : Line) : l.withoutLocation.withoutLocation = l.withoutLocation := by
  cases l with
  | json j =>
    refine congrArg Line.json (within_twice (within_twice fun x => ?_) j)
    cases x with
    | obj l => exact congrArg J.obj (by rw [List.filter_filter]; simp)
    | _ => rfl
  | _ => rfl

/-- Lines that come from the same lines by adding locations. -/
theorem adds_both {a b c : List Line} (hb : AddLocations a b) (hc : AddLocations a c) :
    b.map Line.withoutLocation = c.map Line.withoutLocation := by
  have key : ∀ {a b : List Line}, AddLocations a b → b.map Line.withoutLocation = a.map Line.withoutLocation := by
    intro a b h
    induction h with
    | nil => rfl
    | cons h _ ih =>
      rw [List.map_cons, List.map_cons, ih]
      congr 1
      rcases h with rfl | rfl
      · rfl
      · exact (withoutLocation_twice _).symm
  rw [key hb, key hc]

end Redsea
