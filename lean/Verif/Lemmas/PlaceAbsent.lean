import Verif.Lemmas.PlaceMembers
import Verif.Lemmas.StationTexts
import Verif.Props.Station

/-
Lemmas for C104: without location tables no traffic message has a member about its place.
-/

namespace Redsea
open _root_.Spec _root_.Redsea.Spec

/-! ### Objects -/

/-- A condition on all members is kept when one of them is changed. -/
theorem update_all {P : String → J → Prop} {k : String} {f : J → Option J} (hn : ∀ v, f .null = some v → P k v)
    (hf : ∀ x v, P k x → f x = some v → P k v) (l : List (String × J)) {l' : List (String × J)} (hl : ∀ m ∈ l, P m.1 m.2)
    (h : updateMember k f l = some l') : ∀ m ∈ l', P m.1 m.2 := by
  induction l generalizing l' with
  | nil =>
    obtain ⟨v, h1, rfl⟩ := Option.map_eq_some_iff.mp h
    intro m hm
    rw [List.mem_singleton.mp hm]
    exact hn v h1
  | cons m l ih =>
    obtain ⟨k', x⟩ := m
    unfold updateMember at h
    by_cases hk : k' = k
    · rw [if_pos hk] at h
      subst hk
      obtain ⟨v, h1, rfl⟩ := Option.map_eq_some_iff.mp h
      intro m hm
      rcases List.mem_cons.mp hm with rfl | hm
      · exact hf x v (hl _ List.mem_cons_self) h1
      · exact hl m (List.mem_cons_of_mem _ hm)
    · rw [if_neg hk] at h
      obtain ⟨l1, h1, rfl⟩ := Option.map_eq_some_iff.mp h
      intro m hm
      rcases List.mem_cons.mp hm with rfl | hm
      · exact hl _ List.mem_cons_self
      · exact ih (fun y hy => hl y (List.mem_cons_of_mem _ hy)) h1 m hm

/-- All members, if it is an object. -/
def J.AllMembers (P : String → J → Prop) (j : J) : Prop := ∀ l, j = .obj l → ∀ m ∈ l, P m.1 m.2

theorem all_update {P : String → J → Prop} {k : String} {path : List String} {f : J → Option J}
    (hn : ∀ v, J.update path f .null = some v → P k v) (hf : ∀ x v, P k x → J.update path f x = some v → P k v) {j j' : J}
    (hj : j.AllMembers P) (h : J.update (k :: path) f j = some j') : j'.AllMembers P := by
  have key : ∀ l, (∀ m ∈ l, P m.1 m.2) → (updateMember k (J.update path f) l).map J.obj = some j' → j'.AllMembers P := by
    intro l hl h
    obtain ⟨l', h1, rfl⟩ := Option.map_eq_some_iff.mp h
    intro l2 e
    cases e
    exact update_all hn hf l hl h1
  cases j with
  | null => exact key [] (fun m hm => by cases hm) h
  | obj l => exact key l (hj l rfl) h
  | _ => cases h

/-- No member about the place of a traffic message. -/
def J.PlaceFree (j : J) : Prop :=
  j.AllMembers fun k t => k = "tmc" → t.AllMembers fun k m => k = "message" → m.AllMembers fun k _ => k ∉ placeMembers

theorem drop_free {j : J} (h : j.AllMembers fun k _ => k ∉ placeMembers) : j.dropMembers placeMembers = j := by
  cases j with
  | obj l => exact congrArg J.obj (List.filter_eq_self.mpr fun m hm => by simpa using h l rfl m hm)
  | _ => rfl

theorem within_free {k : String} {f : J → J} {j : J} (h : j.AllMembers fun n m => n = k → f m = m) : j.within k f = j := by
  cases j with
  | obj l =>
    have e : (l.map fun m => if m.1 = k then (m.1, f m.2) else m) = l := by
      have := h l rfl
      clear h
      induction l with
      | nil => rfl
      | cons m l ih =>
        rw [List.map_cons, ih fun x hx => this x (List.mem_cons_of_mem _ hx)]
        congr 1
        split
        · rename_i hk
          rw [this m List.mem_cons_self hk]
        · rfl
    exact congrArg J.obj e
  | _ => rfl

theorem free_same {j : J} (h : j.PlaceFree) : j.withoutPlace = j :=
  within_free fun l e m hm hk => within_free fun l' e' m' hm' hk' => drop_free (h l e m hm hk l' e' m' hm' hk')

/-! ### Operations -/

/-- An operation that writes no member about a place. -/
def FreeOp (op : JOp) : Prop :=
  (∃ k rest, op.path = k :: rest ∧ k ≠ "tmc") ∨ (∃ k rest, op.path = "tmc" :: k :: rest ∧ k ≠ "message") ∨
  ∃ m, op = .set ["tmc", "message"] (.obj m) ∧ ∀ x ∈ m, x.1 ∉ placeMembers

def FreeOps (ops : List JOp) : Prop := ∀ op ∈ ops, FreeOp op

theorem apply_update (op : JOp) : ∃ f, ∀ j, op.apply j = J.update op.path f j := by
  cases op with
  | set p v => exact ⟨_, fun j => rfl⟩
  | push p v => exact ⟨_, fun j => rfl⟩
  | touch p => exact ⟨_, fun j => rfl⟩

theorem free_apply {op : JOp} (ho : FreeOp op) {j j' : J} (hj : j.PlaceFree) (h : op.apply j = some j') : j'.PlaceFree := by
  obtain ⟨f, hf⟩ := apply_update op
  rcases ho with ⟨k, rest, e, hk⟩ | ⟨k, rest, e, hk⟩ | ⟨m, rfl, hm⟩
  · rw [hf, e] at h
    exact all_update (fun v _ c => absurd c hk) (fun x v _ _ c => absurd c hk) hj h
  · rw [hf, e] at h
    refine all_update (fun v hv _ => ?_) (fun x v hx hv _ => ?_) hj h
    · exact all_update (j := .null) (fun v _ c => absurd c hk) (fun x v _ _ c => absurd c hk) (fun l e => by cases e) hv
    · exact all_update (fun v _ c => absurd c hk) (fun x v _ _ c => absurd c hk) (hx rfl) hv
  · have last : ∀ x v : J, J.update [] (fun _ => some (J.obj m)) x = some v → v.AllMembers fun k _ => k ∉ placeMembers := by
      intro x v hv l e
      have : J.obj m = v := by simpa [J.update] using hv
      rw [← this] at e
      cases e
      exact hm
    have h : J.update ["tmc", "message"] (fun _ => some (J.obj m)) j = some j' := h
    refine all_update (fun v hv _ => ?_) (fun x v hx hv _ => ?_) hj h
    · exact all_update (j := .null) (fun v hv _ => last _ v hv) (fun x v _ hv _ => last x v hv) (fun l e => by cases e) hv
    · exact all_update (fun v hv _ => last _ v hv) (fun x v _ hv _ => last x v hv) (hx rfl) hv

theorem free_build (ops : List JOp) (ho : FreeOps ops) {j j' : J} (hj : j.PlaceFree) (h : J.build ops j = some j') :
    j'.PlaceFree := by
  induction ops generalizing j with
  | nil =>
    have : j = j' := by simpa [J.build] using h
    rw [← this]
    exact hj
  | cons op ops ih =>
    rw [build_cons] at h
    obtain ⟨j1, h1, h2⟩ := Option.bind_eq_some_iff.mp h
    exact ih (fun x hx => ho x (List.mem_cons_of_mem _ hx)) (free_apply (ho op List.mem_cons_self) hj h1) h2

/-! ### Decoders -/

theorem free_keys {s : List String} {ops : List JOp} (h : KeysIn s ops) (hs : "tmc" ∉ s) : FreeOps ops := by
  intro op hop
  obtain ⟨k, h1, h2⟩ := h op hop
  cases hp : op.path with
  | nil =>
    exfalso
    have : op.key = none := by
      cases op <;> (cases hp; rfl)
    rw [this] at h1
    cases h1
  | cons a rest =>
    have : op.key = some a := by
      cases op <;> (cases hp; rfl)
    rw [this] at h1
    cases h1
    exact .inl ⟨k, rest, hp, fun e => hs (e ▸ h2)⟩

theorem free_append {a b : List JOp} (ha : FreeOps a) (hb : FreeOps b) : FreeOps (a ++ b) := fun op hop =>
  (List.mem_append.mp hop).elim (ha op) (hb op)

theorem free_nil : FreeOps [] := fun op hop => by cases hop

theorem free_cons {op : JOp} {ops : List JOp} (h : FreeOp op) (hs : FreeOps ops) : FreeOps (op :: ops) := fun x hx => by
  rcases List.mem_cons.mp hx with rfl | hx
  · exact h
  · exact hs x hx

theorem free_ite {c : Prop} [Decidable c] {a b : List JOp} (ha : FreeOps a) (hb : FreeOps b) : FreeOps (if c then a else b) := by
  split <;> assumption

theorem free_map {α : Type} {l : List α} {f : α → JOp} (h : ∀ a, FreeOp (f a)) : FreeOps (l.map f) := by
  intro op hop
  obtain ⟨a, -, rfl⟩ := List.mem_map.mp hop
  exact h a

theorem free_op {op : JOp} {k : String} {rest : List String} (h : op.path = "tmc" :: k :: rest) (hk : k ≠ "message") : FreeOp op :=
  .inr (.inl ⟨k, rest, h, hk⟩)

/-- Shows that the listed operations write no member about a place. -/
macro "free_ok" : tactic => `(tactic| (
  try dsimp only
  repeat' first
    | with_reducible exact free_nil
    | with_reducible refine free_cons ?_ ?_
    | with_reducible refine free_append ?_ ?_
    | with_reducible refine free_ite ?_ ?_
    | (with_reducible refine free_map ?_; intro _)
    | exact free_op rfl (by decide)
    | exact .inl ⟨_, _, rfl, by decide⟩))

theorem free_system (s : TMCService) (w : Word) : ∀ r, s.receiveSystemGroup w = some r → FreeOps r.2 := by
  unfold TMCService.receiveSystemGroup
  simp only [Option.bind_eq_bind, Option.pure_def]
  split
  · intro r hr; cases hr; free_ok
  · intro r hr
    obtain ⟨a, -, hr⟩ := Option.bind_eq_some_iff.1 hr
    cases hr; free_ok
  · intro r hr
    split at hr
    · split at hr
      · obtain ⟨a, -, hr⟩ := Option.bind_eq_some_iff.1 hr
        cases hr; free_ok
      · cases hr; free_ok
    · cases hr; free_ok
  · intro r hr; cases hr; free_ok

theorem free_tuning (env : TmcEnv) (s : TMCService) (x y z : Word) :
    ∀ r, s.tuningInformation env x y z = some r → FreeOps r.2 := by
  unfold TMCService.tuningInformation
  simp only [Option.bind_eq_bind, Option.pure_def]
  intro r hr
  split at hr
  · obtain ⟨a, -, hr⟩ := Option.bind_eq_some_iff.1 hr
    obtain ⟨b, -, hr⟩ := Option.bind_eq_some_iff.1 hr
    obtain ⟨c, -, hr⟩ := Option.bind_eq_some_iff.1 hr
    cases hr; free_ok
  · split at hr <;> (cases hr; free_ok)
  · cases hr; free_ok
  · split at hr <;> (cases hr; free_ok)

theorem json_free (env : TmcEnv) (m : Message) {members : List (String × J)} (h : m.json env = some members) :
    ∀ x ∈ members, x.1 ∉ placeMembers := by
  have names : ∀ x ∈ members, x.1 ∈ ["event_codes", "supplementary_codes", "update_class", "description", "diversion_route",
      "speed_limit", "encrypted_location", "location", "direction", "extent", "starts", "until", "urgency"] := by
    unfold Message.json at h
    split at h
    · cases h
    cases h
    have list : ∀ (k : String) (l : List Nat), ∀ x ∈ Message.listMember k l, x.1 = k := by
      intro k l x hx
      unfold Message.listMember at hx
      split at hx
      · cases hx
      · rw [List.mem_singleton.mp hx]
    have opt : ∀ {α : Type} (o : Option α) (k : String) (f : α → J), ∀ x ∈ (o.map fun v => (k, f v)).toList, x.1 = k := by
      intro α o k f x hx
      cases o with
      | none => cases hx
      | some v => rw [List.mem_singleton.mp hx]
    intro x hx
    simp only [List.mem_append] at hx
    rcases hx with ((((((((((hx | hx) | hx) | hx) | hx) | hx) | hx) | hx) | hx) | hx) | hx) | hx
    · rw [list _ _ x hx]; decide
    · rw [list _ _ x hx]; decide
    · rw [opt _ _ _ x hx]; decide
    · split at hx
      · cases hx
      · rw [List.mem_singleton.mp hx]; dsimp only; decide
    · rw [list _ _ x hx]; decide
    · rw [opt _ _ _ x hx]; decide
    · split at hx
      · rw [List.mem_singleton.mp hx]; dsimp only; decide
      · cases hx
    · split at hx
      · rw [List.mem_singleton.mp hx]; dsimp only; decide
      · cases hx
    · rcases List.mem_cons.mp hx with rfl | hx
      · dsimp only; decide
      · rw [List.mem_singleton.mp hx]; dsimp only; decide
    · rw [opt _ _ _ x hx]; decide
    · rw [opt _ _ _ x hx]; decide
    · rw [List.mem_singleton.mp hx]; dsimp only; decide
  intro x hx hp
  have := names x hx
  revert this
  revert hp
  generalize x.1 = n
  intro hp
  simp only [placeMembers, List.mem_cons, List.not_mem_nil, or_false] at hp
  rcases hp with rfl | rfl | rfl | rfl | rfl <;> decide

section
variable {env : Env} (he : ∀ n, (env.tmc.locations n).ltn = 0)
include he

theorem free_print (s : TMCService) (m : Message) {ops : List JOp} (h : s.printMessage env.tmc m = some ops) : FreeOps ops := by
  have tail : ∀ m : Message, (match m.json env.tmc with
      | none => pure []
      | some members => pure (JOp.set ["tmc", "message"] (.obj members) ::
          decodeLocation (env.tmc.locations s.ltn) s.ltn (if m.isEncrypted then none else some m.location)
            (if m.negative then -(m.extent : Int) else m.extent)) : Option (List JOp)) = some ops → FreeOps ops := by
    intro m h
    cases hj : m.json env.tmc with
    | none =>
      rw [hj] at h
      cases h
      exact free_nil
    | some members =>
      rw [hj] at h
      have e : decodeLocation (env.tmc.locations s.ltn) s.ltn (if m.isEncrypted then none else some m.location)
            (if m.negative then -(m.extent : Int) else m.extent) = [] := by
        unfold decodeLocation
        exact if_pos (.inr (he s.ltn))
      rw [e] at h
      cases h
      exact free_cons (.inr (.inr ⟨members, rfl, json_free _ m hj⟩)) free_nil
  unfold TMCService.printMessage at h
  dsimp only at h
  split at h
  · split at h
    · obtain ⟨m1, -, h⟩ := Option.bind_eq_some_iff.mp h
      exact tail m1 h
    · exact tail m h
  · exact tail m h

theorem free_user (s : TMCService) (x y z : Word) : ∀ r, s.receiveUserGroup env.tmc x y z = some r → FreeOps r.2 := by
  unfold TMCService.receiveUserGroup
  simp only [Option.bind_eq_bind, Option.pure_def]
  intro r hr
  split at hr
  · cases hr; free_ok
  split at hr
  · cases hr; free_ok
  split at hr
  · exact free_tuning env.tmc s x y z r hr
  split at hr
  · cases hr; free_ok
  split at hr
  · obtain ⟨a, ha, hr⟩ := Option.bind_eq_some_iff.1 hr
    cases hr
    exact free_print he _ _ ha
  generalize (if getBits 3 x 0 ≠ s.message.continuityIndex then _ else s.message : Message) = m at hr
  split at hr
  · obtain ⟨a, ha, hr⟩ := Option.bind_eq_some_iff.1 hr
    cases hr
    exact free_print he _ _ ha
  · cases hr; free_ok

/-- The operations are free, if there are any. -/
def FreeOf (o : Option (Station × List JOp)) : Prop := ∀ r, o = some r → FreeOps r.2

omit he in
theorem freeOf_keys {s : List String} {o : Option (Station × List JOp)} (h : KeysOf s o) (hs : "tmc" ∉ s) : FreeOf o :=
  fun r hr => free_keys (h r hr) hs

omit he in
theorem freeOf_some {st : Station} {ops : List JOp} (h : FreeOps ops) : FreeOf (some (st, ops)) := fun r hr => by
  cases hr; exact h

omit he in
theorem freeOf_ite {c : Prop} [Decidable c] {a b : Option (Station × List JOp)} (ha : FreeOf a) (hb : FreeOf b) :
    FreeOf (if c then a else b) := by
  split <;> assumption

theorem free_tmc (st : Station) (g : Group) : FreeOf (st.decodeTmc env g) := by
  unfold Station.decodeTmc
  split
  · intro r hr
    obtain ⟨a, ha, hr⟩ := Option.bind_eq_some_iff.1 hr
    cases hr
    exact free_user he _ _ _ _ a ha
  · exact freeOf_some free_nil

omit he in
theorem free_type3A (st : Station) (g : Group) : FreeOf (st.decodeType3A g) := by
  unfold Station.decodeType3A
  dsimp only
  repeat' first
    | exact freeOf_some free_nil
    | exact freeOf_some (by free_ok)
    | apply freeOf_ite
  intro r hr
  obtain ⟨a, ha, hr⟩ := Option.bind_eq_some_iff.1 hr
  cases hr
  exact free_append (by free_ok) (free_system _ _ a ha)

theorem free_app (st : Station) (g : Group) (app : Word) : FreeOf (st.decodeODAApp env g app) := by
  by_cases h : app = 0xCD46 ∨ app = 0xCD47
  · unfold Station.decodeODAApp
    have hn : ∀ w : Word, w ≠ 0xCD46 → w ≠ 0xCD47 → ¬ app = w := fun w h1 h2 e => h.elim (fun h => h1 (e ▸ h)) fun h => h2 (e ▸ h)
    rw [if_neg (hn 0x0093 (by decide) (by decide)), if_neg (hn 0x4BD7 (by decide) (by decide)),
      if_neg (hn 0x4BD8 (by decide) (by decide)), if_neg (hn 0x6552 (by decide) (by decide)), if_pos h]
    exact free_tmc he st g
  · refine freeOf_keys (app_keys env st g app) ?_
    unfold appMembers
    rw [if_neg (c := app = 0xCD46) (fun hx => h (.inl hx)), if_neg (c := app = 0xCD47) (fun hx => h (.inr hx))]
    repeat' split
    all_goals decide

theorem free_oda (st : Station) (g : Group) : FreeOf (st.decodeODAGroup env g) := by
  unfold Station.decodeODAGroup
  split
  · exact freeOf_some (free_keys (s := ["unknown_oda"]) (by keys_ok) (by decide))
  · exact free_app he st g _

theorem free_dispatch (st : Station) (g : Group) : FreeOf (st.dispatch env g) := by
  unfold Station.dispatch
  dsimp only
  refine freeOf_ite (freeOf_keys (decodeC_keys _ g) (by decide)) ?_
  refine freeOf_ite (freeOf_keys (type0_keys env st g) (by decide)) ?_
  refine freeOf_ite (freeOf_keys (keysOf_opt (type1_keys st g)) (by decide)) ?_
  refine freeOf_ite (freeOf_some (free_keys (rt_keys env _) (by decide))) ?_
  refine freeOf_ite (free_type3A st g) ?_
  refine freeOf_ite (freeOf_some (free_keys (clock_keys _) (by decide))) ?_
  refine freeOf_ite (freeOf_some (free_keys (type10A_keys env st g) (by decide))) ?_
  refine freeOf_ite (freeOf_keys (type14_keys env st g) (by decide)) ?_
  refine freeOf_ite (freeOf_keys (keysOf_opt (type15B_keys g)) (by decide)) ?_
  refine freeOf_ite (free_oda he st g) ?_
  refine freeOf_ite (freeOf_keys (type5_keys env st g) (by decide)) ?_
  refine freeOf_ite (freeOf_some (free_keys (type6_keys g) (by decide))) ?_
  refine freeOf_ite (freeOf_some (free_keys (s := ["debug"]) (by unfold Station.todoOps; keys_ok) (by decide))) ?_
  refine freeOf_ite (free_tmc he st g) ?_
  refine freeOf_ite (freeOf_some (free_keys (s := ["debug"]) (by unfold Station.todoOps; keys_ok) (by decide))) ?_
  exact freeOf_ite (freeOf_some (free_keys (type15A_keys env st g) (by decide))) (free_oda he st g)

/-- What is printed for a group is the same without what location tables say. -/
theorem free_line (st : Station) (g : Group) {st' : Station} {line : Option Line}
    (h : st.updateAndPrint env g = some (st', line)) : line.map Line.withoutPlace = line := by
  unfold Station.updateAndPrint at h
  obtain ⟨⟨s, o⟩, hu, h⟩ := Option.bind_eq_some_iff.mp h
  cases o with
  | none => cases h; rfl
  | some ops =>
    obtain ⟨j, hb, h⟩ := Option.bind_eq_some_iff.mp h
    cases h
    have hops : FreeOps ops := by
      unfold Station.update at hu
      split at hu
      · cases hu
      dsimp only at hu
      split at hu
      · cases hu
      obtain ⟨basics, hbas, hu⟩ := Option.bind_eq_some_iff.mp hu
      have hb : FreeOps basics := by
        unfold Station.decodeBasics at hbas
        split at hbas
        · cases hbas
          exact free_keys (s := ["group"]) (by keys_ok) (by decide)
        split at hbas
        · obtain ⟨pty, -, hbas⟩ := Option.bind_eq_some_iff.mp hbas
          cases hbas
          exact free_keys (s := ["group", "tp", "prog_type"]) (by keys_ok) (by decide)
        split at hbas
        · obtain ⟨pty, -, hbas⟩ := Option.bind_eq_some_iff.mp hbas
          cases hbas
          exact free_keys (s := ["group", "tp", "prog_type"]) (by keys_ok) (by decide)
        · cases hbas
          exact free_nil
      have hh := free_append (free_keys (header_keys env st g) (by decide)) hb
      split at hu
      · obtain ⟨r, hr, hu⟩ := Option.bind_eq_some_iff.mp hu
        cases hu
        exact free_append hh (free_dispatch he _ g r hr)
      · cases hu
        exact free_append hh free_nil
    have hj : j.PlaceFree := free_build ops hops (j := .null) (fun l e => by cases e) hb
    rcases printJson_cases j with e | e
    · rw [e]; rfl
    · rw [e]
      exact congrArg (fun x => some (Line.json x)) (free_same hj)

/-! ### Channels -/

theorem free_group (c : Channel) (now : Int) (g : Group) (n : Nat) {c' : Channel} {h : Handled}
    (hr : c.processGroup env now g n = some (c', h)) : h.line.map Line.withoutPlace = h.line := by
  unfold Channel.processGroup Channel.handleGroup at hr
  obtain ⟨q, -, hr⟩ := Option.bind_eq_some_iff.mp hr
  obtain ⟨r, h1, hr⟩ := Option.bind_eq_some_iff.mp hr
  cases hr
  unfold Channel.output at h1
  split at h1
  · cases h1
    dsimp only
    split <;> rfl
  · obtain ⟨s, h2, h1⟩ := Option.bind_eq_some_iff.mp h1
    cases h1
    exact free_line he _ _ h2

omit he in
/-- Lines that are the same without what location tables say. -/
def FreeLines (l : List Line) : Prop := l.map Line.withoutPlace = l

omit he in
theorem free_lines_cons {h : Handled} {hs : List Handled} (h1 : h.line.map Line.withoutPlace = h.line)
    (h2 : FreeLines (printedLines (hs.map .handled))) : FreeLines (printedLines ((h :: hs).map .handled)) := by
  have e : printedLines ((h :: hs).map .handled) = h.line.toList ++ printedLines (hs.map .handled) := by
    unfold printedLines
    rw [List.map_cons, List.filterMap_cons]
    dsimp only
    cases h.line <;> rfl
  unfold FreeLines at h2 ⊢
  rw [e, List.map_append, h2]
  congr 1
  cases hl : h.line with
  | none => rfl
  | some x =>
    rw [hl] at h1
    exact congrArg (fun y => [y]) (Option.some.inj h1)

theorem free_groups (c : Channel) (now : Int) (g : Group) (n : Nat) :
    Pairs False (fun q r : Channel × Handled => r.1 = q.1 ∧ q.2.line.map Line.withoutPlace = q.2.line)
      (c.processGroup env now g n) (c.processGroup env now g n) := by
  refine ⟨fun q r hq hr => ?_, fun h => h.elim⟩
  rw [hq] at hr
  cases hr
  exact ⟨rfl, free_group he c now g n hq⟩

theorem free_bits {delay : Nat → Int} {t : Int} {n : Nat} (bits : List Bool) (c : Channel) :
    Pairs False (fun q r => r.1 = q.1 ∧ FreeLines (printedLines (q.2.map .handled)))
      (Channel.processBits env delay t n c bits) (Channel.processBits env delay t n c bits) := by
  induction bits generalizing c with
  | nil => exact pairs_some ⟨rfl, rfl⟩
  | cons b bits ih =>
    rw [Channel.processBits]
    refine pairs_bind_same _ fun q _ => ?_
    cases q.2 with
    | none => exact ih q.1
    | some g =>
      refine pairs_bind (free_groups he q.1 0 _ n) fun x y hxy => ?_
      rw [hxy.1]
      exact pairs_bind (ih _) fun k l hkl => pairs_some ⟨hkl.1, free_lines_cons hxy.2 hkl.2⟩

theorem free_flush {now : Nat → Int} (l : List Nat) (c : Channel) :
    Pairs False (fun q r => r.1 = q.1 ∧ FreeLines (printedLines (q.2.map .handled)))
      (Channel.flushStreams env now c l) (Channel.flushStreams env now c l) := by
  induction l generalizing c with
  | nil => exact pairs_some ⟨rfl, rfl⟩
  | cons i l ih =>
    rw [Channel.flushStreams]
    refine pairs_bind_same _ fun s _ => ?_
    dsimp only
    split
    · exact ih c
    · refine pairs_bind (free_groups he c (now i) _ i) fun x y hxy => ?_
      rw [hxy.1]
      exact pairs_bind (ih _) fun k l hkl => pairs_some ⟨hkl.1, free_lines_cons hxy.2 hkl.2⟩

theorem free_step {delay : Nat → Int} (c : Channel) (e : ChannelEvent) :
    Pairs False (fun q r => r.1 = q.1 ∧ FreeLines (printedLines q.2)) (c.step env delay e) (c.step env delay e) := by
  cases e with
  | bit t b n =>
    refine pairs_map (R := fun q r => r.1 = q.1 ∧ FreeLines (printedLines (q.2.map .handled))) ?_ fun q r h => h
    unfold Channel.processBit
    refine pairs_bind_same _ fun q _ => ?_
    cases q.2 with
    | none => exact pairs_some ⟨rfl, rfl⟩
    | some g => exact pairs_bind (free_groups he q.1 t g n) fun x y hxy => pairs_some ⟨hxy.1, free_lines_cons hxy.2 rfl⟩
  | bits t l n => exact pairs_map (free_bits he l c) fun q r h => h
  | group t g n => exact pairs_map (free_groups he c t g n) fun q r h => ⟨h.1, free_lines_cons (hs := []) h.2 rfl⟩
  | flush now => exact pairs_map (free_flush he _ c) fun q r h => h
  | resetPI => exact pairs_some ⟨rfl, rfl⟩

theorem free_run {delay : Nat → Int} (es : List ChannelEvent) (c : Channel) :
    Pairs False (fun q r => r.1 = q.1 ∧ FreeLines (printedLines q.2)) (Channel.run env delay c es)
      (Channel.run env delay c es) := by
  induction es generalizing c with
  | nil => exact pairs_some ⟨rfl, rfl⟩
  | cons e es ih =>
    rw [Channel.run]
    refine pairs_bind (free_step he c e) fun q r hqr => ?_
    rw [hqr.1]
    refine pairs_bind (ih q.1) fun x y hxy => pairs_some ⟨hxy.1, ?_⟩
    have app : ∀ a b : List Trace, printedLines (a ++ b) = printedLines a ++ printedLines b := fun a b => List.filterMap_append
    unfold FreeLines at *
    rw [app, List.map_append, hqr.2, hxy.2]

theorem alike_free (delay : Nat → Int) :
    Alike False env env delay delay (fun c d => d = c) (fun t t' => t' = t) (fun a _ => FreeLines a) where
  nil := rfl
  append h1 h2 := by
    unfold FreeLines at *
    rw [List.map_append, h1, h2]
  streams h := by rw [h]
  reset h := by rw [h]
  bits := by
    intro c d t t' n l h e
    rw [h, e]
    exact free_bits he l c
  flush := by
    intro c d now now' h hn
    obtain rfl : now' = now := funext hn
    rw [h]
    exact free_flush he _ c

end

end Redsea
