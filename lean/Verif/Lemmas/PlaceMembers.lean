import Verif.Lemmas.OutputOptionsRun
import Verif.Lemmas.Alike
import Verif.Spec.PlaceMembers

/-
Lemmas for C104: location tables add members to traffic messages, and do nothing else.
-/

namespace Redsea
open _root_.Spec _root_.Redsea.Spec

/-! ### Objects -/

/-- A member that exists is changed in its place. -/
theorem update_within {k : String} {f : J → Option J} (l : List (String × J)) {l' : List (String × J)} {v : J}
    (hv : l.lookup k = some v) (h : updateMember k f l = some l') :
    ∃ v', f v = some v' ∧ l'.lookup k = some v' ∧ ∀ g : J → J, g v' = g v →
      (l'.map fun m => if m.1 = k then (m.1, g m.2) else m) = l.map fun m => if m.1 = k then (m.1, g m.2) else m := by
  induction l generalizing l' with
  | nil => cases hv
  | cons m l ih =>
    obtain ⟨k', x⟩ := m
    unfold updateMember at h
    by_cases hk : k' = k
    · rw [if_pos hk] at h
      subst hk
      obtain ⟨v', h1, rfl⟩ := Option.map_eq_some_iff.mp h
      rw [List.lookup_cons_self] at hv
      cases hv
      refine ⟨v', h1, List.lookup_cons_self, fun g hg => ?_⟩
      simp [hg]
    · rw [if_neg hk] at h
      obtain ⟨l1, h1, rfl⟩ := Option.map_eq_some_iff.mp h
      have hb : (k == k') = false := by simpa using fun e => hk e.symm
      rw [List.lookup_cons, hb] at hv
      obtain ⟨v', h2, h3, h4⟩ := ih hv h1
      refine ⟨v', h2, by rw [List.lookup_cons, hb]; exact h3, fun g hg => ?_⟩
      rw [List.map_cons, List.map_cons, h4 g hg]

/-- After a change, the member exists. -/
theorem update_exists {k : String} {f : J → Option J} (l : List (String × J)) {l' : List (String × J)}
    (h : updateMember k f l = some l') : ∃ x v, f x = some v ∧ l'.lookup k = some v := by
  induction l generalizing l' with
  | nil =>
    obtain ⟨v, h1, rfl⟩ := Option.map_eq_some_iff.mp h
    exact ⟨_, v, h1, List.lookup_cons_self⟩
  | cons m l ih =>
    obtain ⟨k', x⟩ := m
    unfold updateMember at h
    by_cases hk : k' = k
    · rw [if_pos hk] at h
      subst hk
      obtain ⟨v, h1, rfl⟩ := Option.map_eq_some_iff.mp h
      exact ⟨_, v, h1, List.lookup_cons_self⟩
    · rw [if_neg hk] at h
      obtain ⟨l1, h1, rfl⟩ := Option.map_eq_some_iff.mp h
      have hb : (k == k') = false := by simpa using fun e => hk e.symm
      obtain ⟨y, v, h2, h3⟩ := ih h1
      exact ⟨y, v, h2, by rw [List.lookup_cons, hb]; exact h3⟩

/-- The object has a traffic message. -/
def HasMessage (j : J) : Prop :=
  ∃ l t m, j = .obj l ∧ l.lookup "tmc" = some (.obj t) ∧ t.lookup "message" = some (.obj m)

theorem set_message {j j' : J} {m : List (String × J)} (h : (JOp.set ["tmc", "message"] (.obj m)).apply j = some j') :
    HasMessage j' := by
  have key : ∀ l, (updateMember "tmc" (J.update ["message"] fun _ => some (.obj m)) l).map J.obj = some j' → HasMessage j' := by
    intro l h
    obtain ⟨l', h1, rfl⟩ := Option.map_eq_some_iff.mp h
    obtain ⟨x, v, h2, h3⟩ := update_exists l h1
    have key2 : ∀ t, (updateMember "message" (J.update [] fun _ => some (.obj m)) t).map J.obj = some v → HasMessage (.obj l') := by
      intro t h
      obtain ⟨t', h4, rfl⟩ := Option.map_eq_some_iff.mp h
      obtain ⟨y, w, h5, h6⟩ := update_exists t h4
      have : J.obj m = w := by simpa [J.update] using h5
      rw [← this] at h6
      exact ⟨l', t', m, rfl, h3, h6⟩
    cases x with
    | null => exact key2 [] h2
    | obj t => exact key2 t h2
    | _ => cases h2
  cases j with
  | null => exact key [] h
  | obj l => exact key l h
  | _ => cases h

/-- Operations on what location tables say. -/
def PlaceOps (ops : List JOp) : Prop := ∀ op ∈ ops, ∃ k v, op = .set ["tmc", "message", k] v ∧ k ∈ placeMembers

theorem place_apply {k : String} (hk : k ∈ placeMembers) {v j j' : J} (hm : HasMessage j)
    (h : (JOp.set ["tmc", "message", k] v).apply j = some j') : HasMessage j' ∧ j'.withoutPlace = j.withoutPlace := by
  obtain ⟨l, t, m, rfl, h1, h2⟩ := hm
  obtain ⟨l', h3, rfl⟩ := Option.map_eq_some_iff.mp
    (show (updateMember "tmc" (J.update ["message", k] fun _ => some v) l).map J.obj = some j' from h)
  obtain ⟨x, h4, h5, h6⟩ := update_within l h1 h3
  obtain ⟨t', h7, rfl⟩ := Option.map_eq_some_iff.mp
    (show (updateMember "message" (J.update [k] fun _ => some v) t).map J.obj = some x from h4)
  obtain ⟨y, h8, h9, h10⟩ := update_within t h2 h7
  obtain ⟨m', h11, rfl⟩ := Option.map_eq_some_iff.mp
    (show (updateMember k (J.update [] fun _ => some v) m).map J.obj = some y from h8)
  refine ⟨⟨l', t', m', rfl, h5, h9⟩, ?_⟩
  have e1 : J.dropMembers placeMembers (.obj m') = J.dropMembers placeMembers (.obj m) := by
    have := member_dropped (p := fun n => decide (n ∉ placeMembers)) (k := k) (by simpa using hk) _ m m' h11
    exact congrArg J.obj this
  have e2 : J.within "message" (J.dropMembers placeMembers) (.obj t') = J.within "message" (J.dropMembers placeMembers) (.obj t) := by
    exact congrArg J.obj (h10 _ e1)
  unfold J.withoutPlace
  show J.obj _ = J.obj _
  rw [h6 _ e2]

theorem place_build (ops : List JOp) (hp : PlaceOps ops) {j j' : J} (hm : HasMessage j) (h : J.build ops j = some j') :
    j'.withoutPlace = j.withoutPlace := by
  induction ops generalizing j with
  | nil =>
    have : j = j' := by simpa [J.build] using h
    rw [this]
  | cons op ops ih =>
    rw [build_cons] at h
    obtain ⟨j1, h1, h2⟩ := Option.bind_eq_some_iff.mp h
    obtain ⟨k, v, rfl, hk⟩ := hp op List.mem_cons_self
    obtain ⟨hm1, e⟩ := place_apply hk hm h1
    rw [ih (fun x hx => hp x (List.mem_cons_of_mem _ hx)) hm1 h2, e]

theorem location_ops (db : LocationDatabase) (ltn : Nat) (location : Option Word) (extent : Int) :
    PlaceOps (decodeLocation db ltn location extent) := by
  have c : ∀ (k : String) (v : J), k ∈ placeMembers → PlaceOps [.set ["tmc", "message", k] v] := by
    intro k v hk op hop
    rw [List.mem_singleton.mp hop]
    exact ⟨k, v, rfl, hk⟩
  have n : PlaceOps [] := fun op hop => by cases hop
  have a : ∀ {x y : List JOp}, PlaceOps x → PlaceOps y → PlaceOps (x ++ y) := fun hx hy op hop =>
    (List.mem_append.mp hop).elim (hx op) (hy op)
  unfold decodeLocation
  split
  · exact n
  split
  · exact n
  split
  · exact n
  dsimp only
  refine a (a (c _ _ (by decide)) ?_) ?_
  · split
    · split
      · exact a (x := [_]) (y := [_]) (c _ _ (by decide)) (c _ _ (by decide))
      · exact n
    · exact n
  · split
    · exact n
    · refine a ?_ ?_
      · split
        · exact c _ _ (by decide)
        · exact n
      · split
        · exact c _ _ (by decide)
        · split
          · exact c _ _ (by decide)
          · exact n

/-! ### Decoders -/

/-- The same operations, but for those on what location tables say. -/
def Placed (ops ops' : List JOp) : Prop :=
  ops' = ops ∨ ∃ m loc loc', ops = .set ["tmc", "message"] (.obj m) :: loc ∧ ops' = .set ["tmc", "message"] (.obj m) :: loc' ∧
    PlaceOps loc ∧ PlaceOps loc' ∧ OpsUtf8 ops ∧ OpsUtf8 ops'

theorem pairs_refl {α : Type} {strict : Prop} {R : α → α → Prop} (h : ∀ a, R a a) (x : Option α) : Pairs strict R x x := by
  cases x with
  | none => exact pairs_none
  | some a => exact pairs_some (h a)

theorem pairs_ite {α : Type} {strict : Prop} {R : α → α → Prop} {c : Prop} [Decidable c] {x x' y y' : Option α}
    (h : Pairs strict R x y) (h' : Pairs strict R x' y') : Pairs strict R (if c then x else x') (if c then y else y') := by
  by_cases hc : c
  · rw [if_pos hc, if_pos hc]; exact h
  · rw [if_neg hc, if_neg hc]; exact h'

section
variable {env : Env} {f : Nat → LocationDatabase} (hv : env.tmc.Valid) (hv' : (env.withTables f).tmc.Valid)
include hv hv'

theorem placed_print (s : TMCService) (m : Message) :
    Pairs False Placed (s.printMessage env.tmc m) (s.printMessage (env.withTables f).tmc m) := by
  refine ⟨fun a b ha hb => ?_, fun h => h.elim⟩
  have ua := printMessage_utf8 hv ha
  have ub := printMessage_utf8 hv' hb
  have tail : ∀ m : Message, (match m.json env.tmc with
      | none => pure []
      | some members => pure (JOp.set ["tmc", "message"] (.obj members) ::
          decodeLocation (env.tmc.locations s.ltn) s.ltn (if m.isEncrypted then none else some m.location)
            (if m.negative then -(m.extent : Int) else m.extent)) : Option (List JOp)) = some a →
      (match m.json env.tmc with
      | none => pure []
      | some members => pure (JOp.set ["tmc", "message"] (.obj members) ::
          decodeLocation (f s.ltn) s.ltn (if m.isEncrypted then none else some m.location)
            (if m.negative then -(m.extent : Int) else m.extent)) : Option (List JOp)) = some b → Placed a b := by
    intro m ha hb
    cases hj : m.json env.tmc with
    | none =>
      rw [hj] at ha hb
      cases ha
      cases hb
      exact .inl rfl
    | some members =>
      rw [hj] at ha hb
      cases ha
      cases hb
      exact .inr ⟨members, _, _, rfl, rfl, location_ops _ _ _ _, location_ops _ _ _ _, ua, ub⟩
  unfold TMCService.printMessage at ha hb
  dsimp only at ha hb
  rw [show (env.withTables f).tmc.serviceKey = env.tmc.serviceKey from rfl] at hb
  by_cases he : s.isEncrypted = true
  · rw [if_pos he] at ha hb
    cases hk : env.tmc.serviceKey s.encid with
    | none =>
      rw [hk] at ha hb
      exact tail m ha hb
    | some key =>
      rw [hk] at ha hb
      obtain ⟨m1, h1, ha⟩ := Option.bind_eq_some_iff.mp ha
      obtain ⟨m2, h2, hb⟩ := Option.bind_eq_some_iff.mp hb
      rw [h1] at h2
      cases h2
      exact tail m1 ha hb
  · rw [if_neg he] at ha hb
    exact tail m ha hb

theorem placed_user (s : TMCService) (x y z : Word) :
    Pairs False (fun q r => r.1 = q.1 ∧ Placed q.2 r.2) (s.receiveUserGroup env.tmc x y z)
      (s.receiveUserGroup (env.withTables f).tmc x y z) := by
  have same : ∀ q : TMCService × List JOp, q.1 = q.1 ∧ Placed q.2 q.2 := fun q => ⟨rfl, .inl rfl⟩
  unfold TMCService.receiveUserGroup
  dsimp only
  by_cases h1 : (!s.isInitialized) = true
  · rw [if_pos h1, if_pos h1]; exact pairs_some (same _)
  rw [if_neg h1, if_neg h1]
  by_cases h2 : getBits 5 x 0 = 0
  · rw [if_pos h2, if_pos h2]; exact pairs_some (same _)
  rw [if_neg h2, if_neg h2]
  by_cases h3 : getBool x 4 = true
  · rw [if_pos h3, if_pos h3]
    exact pairs_refl same (s.tuningInformation env.tmc x y z)
  rw [if_neg h3, if_neg h3]
  by_cases h4 : (s.isEncrypted && !s.hasEncid) = true
  · rw [if_pos h4, if_pos h4]; exact pairs_some (same _)
  rw [if_neg h4, if_neg h4]
  by_cases h5 : getBool x 3 = true
  · rw [if_pos h5, if_pos h5]
    exact pairs_bind (placed_print hv hv' s ((Message.new s.isEncrypted).pushSingle env.tmc y z)) fun a b hab => pairs_some ⟨rfl, hab⟩
  rw [if_neg h5, if_neg h5]
  rw [show ∀ m : Message, Message.pushMulti (env.withTables f).tmc m x y z = Message.pushMulti env.tmc m x y z from fun _ => rfl]
  generalize Message.pushMulti env.tmc _ x y z = m
  by_cases h6 : m.isComplete = true
  · rw [if_pos h6, if_pos h6]
    exact pairs_bind (placed_print hv hv' s m) fun a b hab => pairs_some ⟨rfl, hab⟩
  · rw [if_neg h6, if_neg h6]
    exact pairs_some (same _)

theorem placed_tmc (st : Station) (g : Group) :
    Pairs False (fun q r => r.1 = q.1 ∧ Placed q.2 r.2) (st.decodeTmc env g) (st.decodeTmc (env.withTables f) g) := by
  unfold Station.decodeTmc
  split
  · exact pairs_bind (placed_user hv hv' st.tmc _ _ _) fun a b hab => pairs_some ⟨by rw [hab.1], hab.2⟩
  · exact pairs_some ⟨rfl, .inl rfl⟩

theorem placed_oda (st : Station) (g : Group) :
    Pairs False (fun q r => r.1 = q.1 ∧ Placed q.2 r.2) (st.decodeODAGroup env g) (st.decodeODAGroup (env.withTables f) g) := by
  have same : ∀ q : Station × List JOp, q.1 = q.1 ∧ Placed q.2 q.2 := fun q => ⟨rfl, .inl rfl⟩
  unfold Station.decodeODAGroup
  cases st.odaForGroup g.type with
  | none => exact pairs_some (same _)
  | some app =>
    dsimp only
    unfold Station.decodeODAApp
    repeat' first
      | exact placed_tmc hv hv' st g
      | exact pairs_refl same _
      | split

theorem placed_dispatch (st : Station) (g : Group) :
    Pairs False (fun q r => r.1 = q.1 ∧ Placed q.2 r.2) (st.dispatch env g) (st.dispatch (env.withTables f) g) := by
  have same : ∀ q : Station × List JOp, q.1 = q.1 ∧ Placed q.2 q.2 := fun q => ⟨rfl, .inl rfl⟩
  unfold Station.dispatch
  rw [show st.decodeType0 (env.withTables f) g = st.decodeType0 env g from rfl,
    show st.decodeType5 (env.withTables f) g = st.decodeType5 env g from rfl,
    show st.decodeType10A (env.withTables f) g = st.decodeType10A env g from rfl,
    show st.decodeType14 (env.withTables f) g = st.decodeType14 env g from rfl,
    show st.decodeType15A (env.withTables f) g = st.decodeType15A env g from rfl,
    show (env.withTables f).ucs2 = env.ucs2 from rfl]
  dsimp only
  repeat' first
    | exact placed_tmc hv hv' st g
    | exact placed_oda hv hv' st g
    | exact pairs_refl same _
    | exact pairs_some ⟨rfl, .inl rfl⟩
    | apply pairs_ite

variable (ht : ∀ n, validUtf8 (env.formatTime n) = true)
include ht

/-- A group with other location tables. -/
theorem placed_line (st : Station) (g : Group) :
    Pairs False (fun q r => r.1 = q.1 ∧ r.2.map Line.withoutPlace = q.2.map Line.withoutPlace) (st.updateAndPrint env g)
      (st.updateAndPrint (env.withTables f) g) := by
  unfold Station.updateAndPrint
  refine pairs_bind (R := fun q r => r.1 = q.1 ∧ ((r.2 = q.2) ∨ ∃ pre ops ops', q.2 = some (pre ++ ops) ∧
      r.2 = some (pre ++ ops') ∧ Placed ops ops' ∧ OpsUtf8 pre)) ?_ fun q r hqr => ?_
  · unfold Station.update
    split
    · exact pairs_some ⟨rfl, .inl rfl⟩
    dsimp only
    split
    · exact pairs_some ⟨rfl, .inl rfl⟩
    refine pairs_bind_same _ fun basics hb => ?_
    have hh : OpsUtf8 (st.headerOps env g) := header_texts ht st g
    have hbas : OpsUtf8 basics := decodeBasics_utf8 g hb
    have hu := (opsUtf8_append _ _).mpr ⟨hh, hbas⟩
    refine pairs_ite ?_ (pairs_some ⟨rfl, .inl rfl⟩)
    exact pairs_bind (placed_dispatch hv hv' _ g) fun a b hab => pairs_some ⟨hab.1, .inr ⟨_, _, _, rfl, rfl, hab.2, hu⟩⟩
  · obtain ⟨e, h | ⟨pre, ops, ops', e1, e2, hp, hu⟩⟩ := hqr
    · rw [e, h]
      exact pairs_refl (fun a => ⟨rfl, rfl⟩) _
    · rw [e, e1, e2]
      dsimp only
      rcases hp with rfl | ⟨m, loc, loc', rfl, rfl, p, p', u, u'⟩
      · exact pairs_refl (fun a => ⟨rfl, rfl⟩) _
      refine ⟨fun a b ha hb => ?_, fun h => h.elim⟩
      obtain ⟨j, hj, ha⟩ := Option.bind_eq_some_iff.mp ha
      obtain ⟨j', hj', hb⟩ := Option.bind_eq_some_iff.mp hb
      cases ha
      cases hb
      refine ⟨rfl, ?_⟩
      have v1 : j.utf8 = true := build_utf8 _ ((opsUtf8_append _ _).mpr ⟨hu, u⟩) _ _ rfl hj
      have v2 : j'.utf8 = true := build_utf8 _ ((opsUtf8_append _ _).mpr ⟨hu, u'⟩) _ _ rfl hj'
      unfold printJson
      rw [v1, v2]
      rw [build_append] at hj hj'
      obtain ⟨j0, h0, hj⟩ := Option.bind_eq_some_iff.mp hj
      obtain ⟨j0', h0', hj'⟩ := Option.bind_eq_some_iff.mp hj'
      rw [h0] at h0'
      cases h0'
      rw [build_cons] at hj hj'
      obtain ⟨j1, h1, hj⟩ := Option.bind_eq_some_iff.mp hj
      obtain ⟨j1', h1', hj'⟩ := Option.bind_eq_some_iff.mp hj'
      rw [h1] at h1'
      cases h1'
      have hm := set_message h1
      show some (Line.json j'.withoutPlace) = some (Line.json j.withoutPlace)
      rw [place_build loc p hm hj, place_build loc' p' hm hj']

/-! ### Channels -/

/-- The lines are the same without what location tables say. -/
def SamePlain (a b : List Line) : Prop := b.map Line.withoutPlace = a.map Line.withoutPlace

omit hv hv' ht in
theorem plain_cons {q r : Handled} {x y : List Handled} (h1 : r.line.map Line.withoutPlace = q.line.map Line.withoutPlace)
    (h2 : SamePlain (printedLines (x.map .handled)) (printedLines (y.map .handled))) :
    SamePlain (printedLines ((q :: x).map .handled)) (printedLines ((r :: y).map .handled)) := by
  have e : ∀ (q : Handled) (x : List Handled), printedLines ((q :: x).map .handled) = q.line.toList ++ printedLines (x.map .handled) := by
    intro q x
    unfold printedLines
    rw [List.map_cons, List.filterMap_cons]
    dsimp only
    cases q.line <;> rfl
  unfold SamePlain at h2 ⊢
  rw [e, e, List.map_append, List.map_append, h2]
  congr 1
  cases hq : q.line <;> cases hr : r.line <;> rw [hq, hr] at h1 <;> simp_all

theorem placed_group (c : Channel) (now : Int) (g : Group) (n : Nat) :
    Pairs False (fun q r => r.1 = q.1 ∧ r.2.line.map Line.withoutPlace = q.2.line.map Line.withoutPlace)
      (c.processGroup env now g n) (c.processGroup (env.withTables f) now g n) := by
  unfold Channel.processGroup Channel.handleGroup
  refine pairs_bind_same _ fun q _ => ?_
  refine pairs_bind (R := fun q r => r.1 = q.1 ∧ r.2.map Line.withoutPlace = q.2.map Line.withoutPlace) ?_ fun a b hab =>
    pairs_some hab
  unfold Channel.output
  split
  · exact pairs_some ⟨rfl, rfl⟩
  · exact pairs_bind (placed_line hv hv' ht _ _) fun a b hab => pairs_some ⟨by rw [hab.1], hab.2⟩

theorem placed_bits {delay : Nat → Int} {t : Int} {n : Nat} (bits : List Bool) (c : Channel) :
    Pairs False (fun q r => r.1 = q.1 ∧ SamePlain (printedLines (q.2.map .handled)) (printedLines (r.2.map .handled)))
      (Channel.processBits env delay t n c bits) (Channel.processBits (env.withTables f) delay t n c bits) := by
  induction bits generalizing c with
  | nil => exact pairs_some ⟨rfl, rfl⟩
  | cons b bits ih =>
    rw [Channel.processBits, Channel.processBits]
    refine pairs_bind_same _ fun q _ => ?_
    cases q.2 with
    | none => exact ih q.1
    | some g =>
      refine pairs_bind (placed_group hv hv' ht q.1 0 _ n) fun x y hxy => ?_
      rw [hxy.1]
      exact pairs_bind (ih _) fun k l hkl => pairs_some ⟨hkl.1, plain_cons hxy.2 hkl.2⟩

theorem placed_flush {now : Nat → Int} (l : List Nat) (c : Channel) :
    Pairs False (fun q r => r.1 = q.1 ∧ SamePlain (printedLines (q.2.map .handled)) (printedLines (r.2.map .handled)))
      (Channel.flushStreams env now c l) (Channel.flushStreams (env.withTables f) now c l) := by
  induction l generalizing c with
  | nil => exact pairs_some ⟨rfl, rfl⟩
  | cons i l ih =>
    rw [Channel.flushStreams, Channel.flushStreams]
    refine pairs_bind_same _ fun s _ => ?_
    dsimp only
    split
    · exact ih c
    · refine pairs_bind (placed_group hv hv' ht c (now i) _ i) fun x y hxy => ?_
      rw [hxy.1]
      exact pairs_bind (ih _) fun k l hkl => pairs_some ⟨hkl.1, plain_cons hxy.2 hkl.2⟩

theorem placed_step {delay : Nat → Int} (c : Channel) (e : ChannelEvent) :
    Pairs False (fun q r => r.1 = q.1 ∧ SamePlain (printedLines q.2) (printedLines r.2)) (c.step env delay e)
      (c.step (env.withTables f) delay e) := by
  cases e with
  | bit t b n =>
    refine pairs_map (R := fun q r => r.1 = q.1 ∧ SamePlain (printedLines (q.2.map .handled)) (printedLines (r.2.map .handled)))
      ?_ fun q r h => h
    unfold Channel.processBit
    refine pairs_bind_same _ fun q _ => ?_
    cases q.2 with
    | none => exact pairs_some ⟨rfl, rfl⟩
    | some g => exact pairs_bind (placed_group hv hv' ht q.1 t g n) fun x y hxy => pairs_some ⟨hxy.1, plain_cons hxy.2 rfl⟩
  | bits t l n => exact pairs_map (placed_bits hv hv' ht l c) fun q r h => h
  | group t g n => exact pairs_map (placed_group hv hv' ht c t g n) fun q r h => ⟨h.1, plain_cons (x := []) (y := []) h.2 rfl⟩
  | flush now => exact pairs_map (placed_flush hv hv' ht _ c) fun q r h => h
  | resetPI => exact pairs_some ⟨rfl, rfl⟩

theorem placed_run {delay : Nat → Int} (es : List ChannelEvent) (c : Channel) :
    Pairs False (fun q r => r.1 = q.1 ∧ SamePlain (printedLines q.2) (printedLines r.2)) (Channel.run env delay c es)
      (Channel.run (env.withTables f) delay c es) := by
  induction es generalizing c with
  | nil => exact pairs_some ⟨rfl, rfl⟩
  | cons e es ih =>
    rw [Channel.run, Channel.run]
    refine pairs_bind (placed_step hv hv' ht c e) fun q r hqr => ?_
    rw [hqr.1]
    refine pairs_bind (ih q.1) fun x y hxy => pairs_some ⟨hxy.1, ?_⟩
    have app : ∀ a b : List Trace, printedLines (a ++ b) = printedLines a ++ printedLines b := fun a b => List.filterMap_append
    unfold SamePlain at *
    rw [app, app, List.map_append, List.map_append, hqr.2, hxy.2]

theorem alike_placed (delay : Nat → Int) :
    Alike False env (env.withTables f) delay delay (fun c d => d = c) (fun t t' => t' = t) SamePlain where
  nil := rfl
  append h1 h2 := by
    unfold SamePlain at *
    rw [List.map_append, List.map_append, h1, h2]
  streams h := by rw [h]
  reset h := by rw [h]
  bits := by
    intro c d t t' n l h e
    rw [h, e]
    exact placed_bits hv hv' ht l c
  flush := by
    intro c d now now' h hn
    obtain rfl : now' = now := funext hn
    rw [h]
    exact placed_flush hv hv' ht _ c

end

end Redsea
