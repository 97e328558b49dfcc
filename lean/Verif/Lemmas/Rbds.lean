import Verif.Spec.Rbds
import Verif.Lemmas.OutputOptionsRun
import Verif.Lemmas.Alike
import Verif.Lemmas.WallClock
import Verif.Props.GroupFields
import Verif.Props.LineHeader
import Mathlib.Data.List.Forall2

/-
For property C98: a station with `-u` decodes a group to the same state, and to an object with other names of programme types and
a callsign.
-/

namespace Redsea
open _root_.Redsea.Spec

/-! ### Objects -/

theorem callsignMember_keys (p : Word) : ∀ m ∈ callsignMember p, m.1 = "callsign" ∨ m.1 = "callsign_uncertain" := by
  intro m hm
  unfold callsignMember at hm
  split at hm
  · cases hm
  · rw [List.mem_singleton.mp hm]
    dsimp only
    split
    · exact .inr rfl
    · exact .inl rfl

theorem update_past {k : String} (f : J → Option J) (a l : List (String × J)) (h : ∀ m ∈ a, m.1 ≠ k) :
    updateMember k f (a ++ l) = (updateMember k f l).map (a ++ ·) := by
  induction a with
  | nil =>
    show _ = (updateMember k f l).map id
    rw [Option.map_id]
    rfl
  | cons m a ih =>
    obtain ⟨k', v⟩ := m
    rw [List.cons_append, updateMember, if_neg (h (k', v) List.mem_cons_self),
      ih fun m hm => h m (List.mem_cons_of_mem _ hm)]
    cases updateMember k f l <;> rfl

theorem update_first {k : String} {f : J → Option J} {v : J} {l r : List (String × J)}
    (h : updateMember k f ((k, v) :: l) = some r) : ∃ v', f v = some v' ∧ r = (k, v') :: l := by
  rw [updateMember, if_pos rfl] at h
  obtain ⟨v', h1, rfl⟩ := Option.map_eq_some_iff.mp h
  exact ⟨v', h1, rfl⟩

theorem update_next {k k' : String} (hk : k' ≠ k) {f : J → Option J} {v : J} {l r : List (String × J)}
    (h : updateMember k f ((k', v) :: l) = some r) : ∃ r', updateMember k f l = some r' ∧ r = (k', v) :: r' := by
  rw [updateMember, if_neg hk] at h
  obtain ⟨r', h1, rfl⟩ := Option.map_eq_some_iff.mp h
  exact ⟨r', h1, rfl⟩

theorem update_new {k : String} {f : J → Option J} {r : List (String × J)} (h : updateMember k f [] = some r) :
    ∃ v, f .null = some v ∧ r = [(k, v)] := by
  obtain ⟨v, h1, rfl⟩ := Option.map_eq_some_iff.mp h
  exact ⟨v, h1, rfl⟩

section
variable {f f' : J → Option J} {l l' r r' : List (String × J)}

theorem retyped_same {k : String} (hk : k ≠ "prog_type") (w : Retyped l l') (h : updateMember k f l = some r)
    (h' : updateMember k f l' = some r') : Retyped r r' := by
  induction w generalizing r r' with
  | nil =>
    obtain ⟨v, h1, rfl⟩ := update_new h
    obtain ⟨v', h1', rfl⟩ := update_new h'
    rw [h1] at h1'
    cases h1'
    exact .same _ _ hk .nil
  | same k1 v1 hk1 w ih =>
    by_cases e : k1 = k
    · subst e
      obtain ⟨v, h1, rfl⟩ := update_first h
      obtain ⟨v', h1', rfl⟩ := update_first h'
      rw [h1] at h1'
      cases h1'
      exact .same _ _ hk1 w
    · obtain ⟨r1, h1, rfl⟩ := update_next e h
      obtain ⟨r2, h2, rfl⟩ := update_next e h'
      exact .same _ _ hk1 (ih h1 h2)
  | progType hv w ih =>
    obtain ⟨r1, h1, rfl⟩ := update_next hk.symm h
    obtain ⟨r2, h2, rfl⟩ := update_next hk.symm h'
    exact .progType hv (ih h1 h2)

theorem retyped_type {v v' : J} (hv : SameType v v') (w : Retyped l l')
    (h : updateMember "prog_type" (fun _ => some v) l = some r) (h' : updateMember "prog_type" (fun _ => some v') l' = some r') :
    Retyped r r' := by
  induction w generalizing r r' with
  | nil =>
    obtain ⟨v, h1, rfl⟩ := update_new h
    obtain ⟨v', h1', rfl⟩ := update_new h'
    cases h1
    cases h1'
    exact .progType hv .nil
  | same k1 v1 hk1 w ih =>
    obtain ⟨r1, h1, rfl⟩ := update_next hk1 h
    obtain ⟨r2, h2, rfl⟩ := update_next hk1 h'
    exact .same _ _ hk1 (ih h1 h2)
  | progType hv1 w ih =>
    obtain ⟨v, h1, rfl⟩ := update_first h
    obtain ⟨v', h1', rfl⟩ := update_first h'
    cases h1
    cases h1'
    exact .progType hv w

/-- An operation on a member, in both objects. -/
theorem american_other {k : String} (hc : k ≠ "callsign" ∧ k ≠ "callsign_uncertain")
    (hnew : ∀ {v v'}, f .null = some v → f' .null = some v' → American [(k, v)] [(k, v')])
    (hsame : ∀ {v v1 v1' l l'}, k ∉ ["pi", "prog_type", "other_network"] → American l l' → f v = some v1 → f' v = some v1' →
      American ((k, v1) :: l) ((k, v1') :: l'))
    (hpi : k ≠ "pi")
    (htype : ∀ {v v' v1 v1' l l'}, k = "prog_type" → SameType v v' → American l l' → f v = some v1 → f' v' = some v1' →
      American ((k, v1) :: l) ((k, v1') :: l'))
    (hnet : ∀ {a a' v1 v1' l l'}, k = "other_network" → Retyped a a' → American l l' → f (.obj a) = some v1 →
      f' (.obj a') = some v1' → American ((k, v1) :: l) ((k, v1') :: l'))
    (w : American l l') (h : updateMember k f l = some r) (h' : updateMember k f' l' = some r') : American r r' := by
  induction w generalizing r r' with
  | nil =>
    obtain ⟨v, h1, rfl⟩ := update_new h
    obtain ⟨v', h1', rfl⟩ := update_new h'
    exact hnew h1 h1'
  | same k1 v1 hk1 w ih =>
    by_cases e : k1 = k
    · subst e
      obtain ⟨v, h1, rfl⟩ := update_first h
      obtain ⟨v', h1', rfl⟩ := update_first h'
      exact hsame hk1 w h1 h1'
    · obtain ⟨r1, h1, rfl⟩ := update_next e h
      obtain ⟨r2, h2, rfl⟩ := update_next e h'
      exact .same _ _ hk1 (ih h1 h2)
  | pi p w ih =>
    obtain ⟨r1, h1, rfl⟩ := update_next hpi.symm h
    obtain ⟨r2, h2, rfl⟩ := update_next hpi.symm h'
    rw [update_past] at h2
    · obtain ⟨r3, h3, rfl⟩ := Option.map_eq_some_iff.mp h2
      exact .pi p (ih h1 h3)
    · intro m hm e
      rcases callsignMember_keys p m hm with e1 | e1
      · exact hc.1 (e.symm.trans e1)
      · exact hc.2 (e.symm.trans e1)
  | progType hv w ih =>
    by_cases e : "prog_type" = k
    · subst e
      obtain ⟨v, h1, rfl⟩ := update_first h
      obtain ⟨v', h1', rfl⟩ := update_first h'
      exact htype rfl hv w h1 h1'
    · obtain ⟨r1, h1, rfl⟩ := update_next e h
      obtain ⟨r2, h2, rfl⟩ := update_next e h'
      exact .progType hv (ih h1 h2)
  | network ha w ih =>
    by_cases e : "other_network" = k
    · subst e
      obtain ⟨v, h1, rfl⟩ := update_first h
      obtain ⟨v', h1', rfl⟩ := update_first h'
      exact hnet rfl ha w h1 h1'
    · obtain ⟨r1, h1, rfl⟩ := update_next e h
      obtain ⟨r2, h2, rfl⟩ := update_next e h'
      exact .network ha (ih h1 h2)

end

/-- Members that differ. -/
def regionMembers : List String := ["pi", "callsign", "callsign_uncertain", "prog_type", "other_network"]

/-- An operation without and with `-u`. -/
inductive OpRegion : JOp → JOp → Prop
  | same (op : JOp) (k : String) (hk : op.key = some k) (hn : k ∉ regionMembers) : OpRegion op op
  | progType (v v' : J) (hv : SameType v v') : OpRegion (.set ["prog_type"] v) (.set ["prog_type"] v')
  | network (op : JOp) (k : String) (rest : List String) (hp : op.path = "other_network" :: k :: rest)
    (hk : k ≠ "prog_type") : OpRegion op op
  | networkType (v v' : J) (hv : SameType v v') :
    OpRegion (.set ["other_network", "prog_type"] v) (.set ["other_network", "prog_type"] v')

theorem apply_head {op : JOp} {k : String} {rest : List String} (hp : op.path = k :: rest) {j r : J} (h : op.apply j = some r) :
    ∃ l, updateMember k (J.update rest op.action) j.parts = some l ∧ r = .obj l := by
  rw [apply_action, hp] at h
  cases j with
  | null =>
    obtain ⟨l, h1, rfl⟩ := Option.map_eq_some_iff.mp h
    exact ⟨l, h1, rfl⟩
  | obj m =>
    obtain ⟨l, h1, rfl⟩ := Option.map_eq_some_iff.mp h
    exact ⟨l, h1, rfl⟩
  | _ => cases h

theorem update_head {k : String} {rest : List String} {f : J → Option J} {j r : J} (h : J.update (k :: rest) f j = some r) :
    ∃ l, updateMember k (J.update rest f) j.parts = some l ∧ r = .obj l := by
  cases j with
  | null =>
    obtain ⟨l, h1, rfl⟩ := Option.map_eq_some_iff.mp h
    exact ⟨l, h1, rfl⟩
  | obj m =>
    obtain ⟨l, h1, rfl⟩ := Option.map_eq_some_iff.mp h
    exact ⟨l, h1, rfl⟩
  | _ => cases h

theorem region_apply {op op' : JOp} (w : OpRegion op op') {j j' r r' : J} (hj : American j.parts j'.parts)
    (h : op.apply j = some r) (h' : op'.apply j' = some r') : American r.parts r'.parts := by
  cases w with
  | same op k hk hn =>
    unfold JOp.key at hk
    cases hp : op.path with
    | nil => rw [hp] at hk; cases hk
    | cons a rest =>
      rw [hp] at hk
      cases hk
      obtain ⟨l, h1, rfl⟩ := apply_head hp h
      obtain ⟨l', h1', rfl⟩ := apply_head hp h'
      simp only [regionMembers, List.mem_cons, List.not_mem_nil, or_false, not_or] at hn
      obtain ⟨n1, n2, n3, n4, n5⟩ := hn
      have hn : k ∉ ["pi", "prog_type", "other_network"] := by simp [n1, n4, n5]
      refine american_other ⟨n2, n3⟩ ?_ ?_ n1 (fun e => absurd e n4) (fun e => absurd e n5) hj h1 h1'
      · intro v v' e1 e2
        rw [e1] at e2
        cases e2
        exact .same _ _ hn .nil
      · intro v v1 v1' l l' _ w e1 e2
        rw [e1] at e2
        cases e2
        exact .same _ _ hn w
  | progType v v' hv =>
    obtain ⟨l, h1, rfl⟩ := apply_head (op := .set ["prog_type"] v) rfl h
    obtain ⟨l', h1', rfl⟩ := apply_head (op := .set ["prog_type"] v') rfl h'
    refine american_other ⟨by decide, by decide⟩ ?_ (fun hn => absurd (by simp) hn) (by decide) ?_ (fun e => absurd e (by decide)) hj h1 h1'
    · intro a b e1 e2
      cases e1
      cases e2
      exact .progType hv .nil
    · intro _ _ _ _ _ _ _ _ w e1 e2
      cases e1
      cases e2
      exact .progType hv w
  | network op k rest hp hk =>
    obtain ⟨l, h1, rfl⟩ := apply_head hp h
    obtain ⟨l', h1', rfl⟩ := apply_head hp h'
    refine american_other ⟨by decide, by decide⟩ ?_ (fun hn => absurd (by simp) hn) (by decide) (fun e => absurd e (by decide)) ?_ hj h1 h1'
    · intro a b e1 e2
      obtain ⟨m, m1, rfl⟩ := update_head e1
      obtain ⟨m', m1', rfl⟩ := update_head e2
      exact .network (retyped_same hk .nil m1 m1') .nil
    · intro _ _ _ _ _ _ _ ha w e1 e2
      obtain ⟨m, m1, rfl⟩ := update_head e1
      obtain ⟨m', m1', rfl⟩ := update_head e2
      exact .network (retyped_same hk ha m1 m1') w
  | networkType v v' hv =>
    obtain ⟨l, h1, rfl⟩ := apply_head (op := .set ["other_network", "prog_type"] v) rfl h
    obtain ⟨l', h1', rfl⟩ := apply_head (op := .set ["other_network", "prog_type"] v') rfl h'
    refine american_other ⟨by decide, by decide⟩ ?_ (fun hn => absurd (by simp) hn) (by decide) (fun e => absurd e (by decide)) ?_ hj h1 h1'
    · intro a b e1 e2
      obtain ⟨m, m1, rfl⟩ := update_head e1
      obtain ⟨m', m1', rfl⟩ := update_head e2
      exact .network (retyped_type hv .nil m1 m1') .nil
    · intro _ _ _ _ _ _ _ ha w e1 e2
      obtain ⟨m, m1, rfl⟩ := update_head e1
      obtain ⟨m', m1', rfl⟩ := update_head e2
      exact .network (retyped_type hv ha m1 m1') w

theorem region_build {ops ops' : List JOp} (w : List.Forall₂ OpRegion ops ops') {j j' r r' : J}
    (hj : American j.parts j'.parts) (h : J.build ops j = some r) (h' : J.build ops' j' = some r') :
    American r.parts r'.parts := by
  induction w generalizing j j' with
  | nil =>
    have e1 : j = r := Option.some.inj h
    have e2 : j' = r' := Option.some.inj h'
    rw [← e1, ← e2]
    exact hj
  | cons hx _ ih =>
    rw [build_cons] at h h'
    obtain ⟨j1, h1, h⟩ := Option.bind_eq_some_iff.mp h
    obtain ⟨j1', h1', h'⟩ := Option.bind_eq_some_iff.mp h'
    exact ih (region_apply hx hj h1 h1') h h'

/-! ### Texts -/

theorem sameType_utf8 {v v' : J} (h : SameType v v') : v.utf8 = true ∧ v'.utf8 = true := by
  obtain ⟨n, a, b, -, -, rfl, rfl⟩ := h
  exact ⟨(utf8_utf8Str a).valid, (utf8_utf8Str b).valid⟩

theorem retyped_utf8 {l l' : List (String × J)} (w : Retyped l l') : J.utf8Members l' = J.utf8Members l := by
  induction w with
  | nil => rfl
  | same k v hk w ih => rw [J.utf8Members, J.utf8Members, ih]
  | progType hv w ih => rw [J.utf8Members, J.utf8Members, ih, (sameType_utf8 hv).1, (sameType_utf8 hv).2]

theorem callsign_utf8 (p : Word) (l : List (String × J)) : J.utf8Members (callsignMember p ++ l) = J.utf8Members l := by
  unfold callsignMember
  have := (utf8_callsign p).valid
  split
  · rfl
  · rw [List.cons_append, J.utf8Members]
    show (validUtf8 (getCallsignFromPI p) && _) = _
    rw [this]
    rfl

theorem american_utf8 {l l' : List (String × J)} (w : American l l') : J.utf8Members l' = J.utf8Members l := by
  induction w with
  | nil => rfl
  | same k v hk w ih => rw [J.utf8Members, J.utf8Members, ih]
  | pi p w ih => rw [J.utf8Members, J.utf8Members, callsign_utf8, ih]
  | progType hv w ih => rw [J.utf8Members, J.utf8Members, ih, (sameType_utf8 hv).1, (sameType_utf8 hv).2]
  | network ha w ih =>
    rw [J.utf8Members, J.utf8Members, ih]
    dsimp only [J.utf8]
    rw [retyped_utf8 ha]

/-! ### One group -/

/-- The same station in North America. -/
def Station.american (st : Station) : Station := st.opt { st.options with rbds := true }

theorem same_type (st : Station) (hr : st.options.rbds = false) {n : Nat} (hn : n < 32) {a b : Str}
    (h : st.ptyString n = some a) (h' : st.american.ptyString n = some b) : SameType (.str a) (.str b) := by
  rw [ptyString_eq _ _ hn] at h h'
  rw [hr] at h
  obtain ⟨x, hx, rfl⟩ := Option.map_eq_some_iff.mp h
  obtain ⟨y, hy, rfl⟩ := Option.map_eq_some_iff.mp h'
  exact ⟨n, x, y, hx, hy, rfl, rfl⟩

theorem region_refl {ks : List String} (hks : ∀ k ∈ ks, k ∉ regionMembers) {ops : List JOp} (h : KeysIn ks ops) :
    List.Forall₂ OpRegion ops ops := by
  induction ops with
  | nil => exact .nil
  | cons op ops ih =>
    obtain ⟨k, h1, h2⟩ := h op List.mem_cons_self
    exact .cons (.same op k h1 (hks k h2)) (ih fun x hx => h x (List.mem_cons_of_mem _ hx))

theorem region_network {ops : List JOp} (h : ∀ op ∈ ops, ∃ k rest, op.path = "other_network" :: k :: rest ∧ k ≠ "prog_type") :
    List.Forall₂ OpRegion ops ops := by
  induction ops with
  | nil => exact .nil
  | cons op ops ih =>
    obtain ⟨k, rest, h1, h2⟩ := h op List.mem_cons_self
    exact .cons (.network op k rest h1 h2) (ih fun x hx => h x (List.mem_cons_of_mem _ hx))

theorem callsign_build (p : Word) (l : List (String × J)) (hl : ∀ m ∈ l, m.1 ≠ "callsign" ∧ m.1 ≠ "callsign_uncertain") :
    J.build ((callsignMember p).map fun m => .set [m.1] m.2) (.obj l) = some (.obj (l ++ callsignMember p)) := by
  have key : ∀ (k : String) (v : J), (∀ m ∈ l, m.1 ≠ k) → J.build [JOp.set [k] v] (.obj l) = some (.obj (l ++ [(k, v)])) := by
    intro k v h
    have := update_past (k := k) (fun _ => some v) l [] h
    rw [List.append_nil] at this
    show ((JOp.set [k] v).apply (.obj l)).bind _ = _
    show (Option.map J.obj (updateMember k (fun _ => some v) l)).bind _ = _
    rw [this]
    rfl
  have h1 := key "callsign"
  have h2 := key "callsign_uncertain"
  unfold callsignMember
  split
  · rw [List.append_nil]
    rfl
  · split
    · exact h2 _ fun m hm => (hl m hm).2
    · exact h1 _ fun m hm => (hl m hm).1

section
variable (env : Env) (st : Station) (g : Group) (hr : st.options.rbds = false)

include hr in
theorem region_front : ∃ j j', J.build (st.streamOps g ++ st.piOps g) .null = some j ∧
    J.build (st.american.streamOps g ++ st.american.piOps g) .null = some j' ∧ American j.parts j'.parts := by
  have e1 : st.american.streamOps g = st.streamOps g := rfl
  have e2 : st.american.piOps g = if g.type.version = .C then [] else
      JOp.set ["pi"] (.str (prefixedHex4 st.pi.toNat)) :: (callsignMember st.pi).map fun m => .set [m.1] m.2 := by
    unfold Station.piOps callsignMember
    rw [show st.american.options.rbds = true from rfl, show st.american.pi = st.pi from rfl]
    have hd : (st.pi &&& 0xF000 = 0x1000) ↔ st.pi.toNat / 4096 = 1 := by
      have hx := top_nibble st.pi
      have := st.pi.isLt
      constructor
      · intro he
        rw [he] at hx
        have : (0x1000 : Word).toNat = 4096 := rfl
        rw [this] at hx
        omega
      · intro he
        apply BitVec.eq_of_toNat_eq
        rw [hx, he]
        rfl
    split
    · rfl
    · cases hc : getCallsignFromPI st.pi with
      | nil => simp
      | cons b t =>
        rw [if_pos ⟨rfl, by simp⟩]
        simp only [hd]
        rfl
  have e3 : st.piOps g = if g.type.version = .C then [] else [JOp.set ["pi"] (.str (prefixedHex4 st.pi.toNat))] := by
    unfold Station.piOps
    rw [hr]
    simp
  rw [e1, e2, e3]
  unfold Station.streamOps
  have hw : American [("pi", .str (prefixedHex4 st.pi.toNat))] (("pi", .str (prefixedHex4 st.pi.toNat)) :: (callsignMember st.pi ++ [])) :=
    .pi st.pi .nil
  rw [List.append_nil] at hw
  have hc := callsign_build st.pi
  by_cases hC : g.type.version = .C
  · rw [if_pos hC, if_pos hC]
    split
    · exact ⟨_, _, rfl, rfl, .same _ _ (by decide) .nil⟩
    · exact ⟨_, _, rfl, rfl, .nil⟩
  · rw [if_neg hC, if_neg hC]
    split
    · refine ⟨.obj [("stream", _), ("pi", _)], _, rfl, hc [("stream", .nat g.dataStream), ("pi", .str (prefixedHex4 st.pi.toNat))] ?_, ?_⟩
      · simp
      · exact .same _ _ (by decide) hw
    · refine ⟨.obj [("pi", _)], _, rfl, hc [("pi", .str (prefixedHex4 st.pi.toNat))] ?_, ?_⟩
      · simp
      · exact hw

/-- The rest of the first part. -/
theorem region_header : st.headerOps env g = (st.streamOps g ++ st.piOps g) ++
      (Station.timeOps env st g ++ Station.blerOps g ++ st.channelOps ++ st.rawOps g) ∧
    st.american.headerOps env g = (st.american.streamOps g ++ st.american.piOps g) ++
      (Station.timeOps env st g ++ Station.blerOps g ++ st.channelOps ++ st.rawOps g) := by
  unfold Station.headerOps
  constructor
  · simp only [List.append_assoc]
  · simp only [List.append_assoc]
    rfl

theorem region_tail : List.Forall₂ OpRegion (Station.timeOps env st g ++ Station.blerOps g ++ st.channelOps ++ st.rawOps g)
    (Station.timeOps env st g ++ Station.blerOps g ++ st.channelOps ++ st.rawOps g) := by
  refine region_refl (ks := ["rx_time", "bler", "channel", "raw_data"]) (by decide) ?_
  unfold Station.timeOps Station.blerOps Station.channelOps Station.rawOps
  keys_ok

include hr in
theorem region_basics {b b' : List JOp} (h : st.decodeBasics g = some b) (h' : st.american.decodeBasics g = some b') :
    List.Forall₂ OpRegion b b' := by
  unfold Station.decodeBasics at h h'
  have hgroup : ∀ v, OpRegion (.set ["group"] v) (.set ["group"] v) := fun v => .same _ "group" rfl (by decide)
  have htp : ∀ v, OpRegion (.set ["tp"] v) (.set ["tp"] v) := fun v => .same _ "tp" rfl (by decide)
  by_cases h1 : g.type.version = .C
  · rw [if_pos h1] at h h'
    cases h
    cases h'
    exact .cons (hgroup _) .nil
  rw [if_neg h1] at h h'
  by_cases h2 : g.has .b2 = true
  · rw [if_pos h2] at h h'
    obtain ⟨x, hx, h⟩ := Option.bind_eq_some_iff.mp h
    obtain ⟨y, hy, h'⟩ := Option.bind_eq_some_iff.mp h'
    cases h
    cases h'
    have ht := same_type st hr (getBits_lt 5 _ _) hx hy
    have rest : List.Forall₂ OpRegion [JOp.set ["tp"] (.bool (getBool (g.get .b2) 10)), .set ["prog_type"] (.str x)]
        [JOp.set ["tp"] (.bool (getBool (g.get .b2) 10)), .set ["prog_type"] (.str y)] :=
      .cons (htp _) (.cons (.progType _ _ ht) .nil)
    split
    · exact .cons (hgroup _) rest
    · exact rest
  rw [if_neg h2] at h h'
  by_cases h3 : g.type.number = 15 ∧ g.type.version = .B ∧ g.has .b4 = true
  · rw [if_pos h3] at h h'
    obtain ⟨x, hx, h⟩ := Option.bind_eq_some_iff.mp h
    obtain ⟨y, hy, h'⟩ := Option.bind_eq_some_iff.mp h'
    cases h
    cases h'
    exact .cons (hgroup _) (.cons (htp _) (.cons (.progType _ _ (same_type st hr (getBits_lt 5 _ _) hx hy)) .nil))
  · rw [if_neg h3] at h h'
    cases h
    cases h'
    exact .nil

/-- The operations for other networks, except for the programme type. -/
theorem eon_paths (h13 : getBits 4 (g.get .b2) 0 ≠ 13) {q : Station × List JOp} (h : st.eonVariant env g = some q) :
    List.Forall₂ OpRegion q.2 q.2 := by
  have hdebug : ∀ s, List.Forall₂ OpRegion [debugOp s] [debugOp s] := fun s => .cons (.same _ "debug" rfl (by decide)) .nil
  have hnet : ∀ (k : String) (v : J), k ≠ "prog_type" → OpRegion (.set ["other_network", k] v) (.set ["other_network", k] v) :=
    fun k v hk => .network _ k [] rfl hk
  unfold Station.eonVariant at h
  dsimp only at h
  by_cases c1 : getBits 4 (g.get .b2) 0 ≤ 3
  · rw [if_pos c1] at h
    have := Option.some.inj h
    subst this
    dsimp only
    split
    · exact .cons (hnet _ _ (by decide)) .nil
    · exact .nil
  rw [if_neg c1] at h
  by_cases c2 : getBits 4 (g.get .b2) 0 = 4
  · rw [if_pos c2] at h
    obtain ⟨l1, -, h⟩ := Option.bind_eq_some_iff.mp h
    obtain ⟨l2, -, h⟩ := Option.bind_eq_some_iff.mp h
    split at h
    · obtain ⟨raw, -, h⟩ := Option.bind_eq_some_iff.mp h
      cases h
      refine region_network fun op hop => ?_
      obtain ⟨f, -, rfl⟩ := List.mem_map.mp hop
      exact ⟨"alt_frequencies", [], rfl, by decide⟩
    · cases h
      exact .nil
  rw [if_neg c2] at h
  by_cases c3 : getBits 4 (g.get .b2) 0 ≤ 9
  · rw [if_pos c3] at h
    cases h
    dsimp only
    split
    · exact .cons (hnet _ _ (by decide)) .nil
    · exact .nil
  rw [if_neg c3] at h
  by_cases c4 : getBits 4 (g.get .b2) 0 = 12
  · rw [if_pos c4] at h
    cases h
    refine .cons (hnet _ _ (by decide)) ?_
    split
    · exact .cons (hnet _ _ (by decide)) .nil
    · exact .nil
  rw [if_neg c4, if_neg h13] at h
  by_cases c5 : getBits 4 (g.get .b2) 0 = 14
  · rw [if_pos c5] at h
    cases h
    dsimp only
    split
    · cases decodePIN (g.get .b3) with
      | none => exact .nil
      | some p =>
        refine .cons (hnet _ _ (by decide)) (.cons ?_ (.cons ?_ .nil))
        · exact .network _ "prog_item_started" ["day"] rfl (by decide)
        · exact .network _ "prog_item_started" ["time"] rfl (by decide)
    · exact .nil
  rw [if_neg c5] at h
  by_cases c6 : getBits 4 (g.get .b2) 0 = 15
  · rw [if_pos c6] at h
    cases h
    exact .cons (hnet _ _ (by decide)) .nil
  rw [if_neg c6] at h
  cases h
  exact hdebug _

include hr in
theorem region_eon {q q' : Station × List JOp} (h : st.eonVariant env g = some q) (h' : st.american.eonVariant env g = some q') :
    q'.1 = q.1.american ∧ List.Forall₂ OpRegion q.2 q'.2 := by
  by_cases h13 : getBits 4 (g.get .b2) 0 = 13
  · have e : ∀ s : Station, s.eonVariant env g = (do
        let pty ← s.ptyString (getBits 5 (g.get .b3) 11)
        pure (s, [.set ["other_network", "prog_type"] (.str pty), .set ["other_network", "ta"] (.bool (getBool (g.get .b3) 0))])) := by
      intro s
      unfold Station.eonVariant
      dsimp only
      rw [h13]
      rfl
    rw [e] at h h'
    obtain ⟨x, hx, h⟩ := Option.bind_eq_some_iff.mp h
    obtain ⟨y, hy, h'⟩ := Option.bind_eq_some_iff.mp h'
    cases h
    cases h'
    exact ⟨rfl, .cons (.networkType _ _ (same_type st hr (getBits_lt 5 _ _) hx hy)) (.cons (.network _ "ta" [] rfl (by decide)) .nil)⟩
  · have e := opt_eon env st { st.options with rbds := true } g fun x => absurd x h13
    have ho := ko_eon env g q h
    rw [h] at e
    have e := h'.symm.trans e
    cases e
    refine ⟨?_, eon_paths env st g h13 h⟩
    show q.1.opt _ = q.1.opt _
    rw [ho]

include hr in
theorem region_type14 {q q' : Station × List JOp} (h : st.decodeType14 env g = some q)
    (h' : st.american.decodeType14 env g = some q') : q'.1 = q.1.american ∧ List.Forall₂ OpRegion q.2 q'.2 := by
  have hnet : ∀ (k : String) (v : J), k ≠ "prog_type" → OpRegion (.set ["other_network", k] v) (.set ["other_network", k] v) :=
    fun k v hk => .network _ k [] rfl hk
  unfold Station.decodeType14 at h h'
  dsimp only at h h'
  split at h
  · next c1 =>
    rw [if_pos c1] at h'
    cases h
    cases h'
    exact ⟨rfl, .nil⟩
  next c1 =>
  rw [if_neg c1] at h'
  split at h
  · next c2 =>
    rw [if_pos c2] at h'
    cases h
    cases h'
    exact ⟨rfl, .cons (hnet _ _ (by decide)) (.cons (hnet _ _ (by decide)) (.cons (hnet _ _ (by decide)) .nil))⟩
  next c2 =>
  rw [if_neg c2] at h'
  split at h
  · next c3 =>
    rw [if_pos c3] at h'
    cases h
    cases h'
    exact ⟨rfl, .cons (hnet _ _ (by decide)) (.cons (hnet _ _ (by decide)) .nil)⟩
  next c3 =>
  rw [if_neg c3] at h'
  obtain ⟨x, hx, h⟩ := Option.bind_eq_some_iff.mp h
  obtain ⟨y, hy, h'⟩ := Option.bind_eq_some_iff.mp h'
  cases h
  cases h'
  have := region_eon env st g hr hx hy
  exact ⟨this.1, .cons (hnet _ _ (by decide)) (.cons (hnet _ _ (by decide)) this.2)⟩

theorem kept_all (ops : List JOp) (h : ∀ op ∈ ops, ∃ k, op.key = some k) : keptOps (fun _ => true) ops = ops := by
  unfold keptOps
  rw [List.filter_eq_self]
  intro op hop
  obtain ⟨k, hk⟩ := h op hop
  rw [hk]
  rfl

/-- Groups of version C do not describe other networks. -/
theorem region_C : KeysOf ["rft", "open_data_app", "debug"] (st.decodeC g) := by
  unfold Station.decodeC
  simp only [Option.bind_eq_bind, Option.pure_def]
  refine keysOf_ite (fun _ => keysOf_some keys_nil) fun _ => keysOf_bind fun r _ => ?_
  refine keysOf_ite (fun _ => keysOf_some (by keys_ok)) fun _ => ?_
  refine keysOf_ite (fun _ => keysOf_some ?_) fun _ => ?_
  · keys_ok
  refine keysOf_ite (fun _ => keysOf_some (by keys_ok)) fun _ => ?_
  refine keysOf_ite (fun _ => ?_) fun _ => keysOf_some (by keys_ok)
  refine keysOf_ite (fun _ => keysOf_some ?_) fun _ => keysOf_some (by keys_ok)
  unfold Station.rftInfoOps
  keys_ok

include hr in
theorem region_dispatch (hg : st.Good) {q q' : Station × List JOp} (h : st.dispatch env g = some q)
    (h' : st.american.dispatch env g = some q') : q'.1 = q.1.american ∧ List.Forall₂ OpRegion q.2 q'.2 := by
  have hko := ko_dispatch env g q h
  by_cases h14 : g.type.version ≠ .C ∧ g.type.number = 14
  · have e : ∀ s : Station, s.dispatch env g = s.decodeType14 env g := by
      intro s
      unfold Station.dispatch
      dsimp only
      rw [if_neg h14.1, h14.2]
      simp
    rw [e] at h h'
    exact region_type14 env st g hr h h'
  · have ht := twin_dispatch (p := fun _ => true) env st g (o := { st.options with rbds := true })
      (fun a b => absurd ⟨a, b⟩ h14) (fun c => absurd rfl c) hg h h'
    have hk : ∀ s : Station, ∀ r, s.dispatch env g = some r → ∀ op ∈ r.2, ∃ k, op.key = some k ∧ k ∉ regionMembers := by
      intro s r hs op hop
      by_cases hC : g.type.version = .C
      · unfold Station.dispatch at hs
        dsimp only at hs
        rw [if_pos hC] at hs
        obtain ⟨k, h1, h2⟩ := region_C s g r hs op hop
        have : ∀ k ∈ ["rft", "open_data_app", "debug"], k ∉ regionMembers := by decide
        exact ⟨k, h1, this k h2⟩
      · obtain ⟨k, h1, hk⟩ := dispatch_keys env s g hC r hs op hop
        have h14 : g.type.number ≠ 14 := fun e => h14 ⟨hC, e⟩
        refine ⟨k, h1, ?_⟩
        unfold regionMembers
        clear h1 hop hs ht h h' hko
        split at hk
        · unfold fixedMembers at hk
          rw [if_neg (c := g.type.number = 14) h14] at hk
          repeat' split at hk
          all_goals
            revert k
            simp
        · cases ho : s.odaForGroup g.type with
          | some a =>
            rw [ho] at hk
            dsimp only at hk
            unfold appMembers at hk
            repeat' split at hk
            all_goals
              revert k
              simp
          | none =>
            rw [ho] at hk
            dsimp only at hk
            unfold primaryMembers at hk
            repeat' split at hk
            all_goals
              revert k
              simp
    have k1 := hk st q h
    have k2 := hk st.american q' h'
    have e := ht.2
    rw [kept_all _ fun op hop => (k1 op hop).imp fun _ x => x.1, kept_all _ fun op hop => (k2 op hop).imp fun _ x => x.1] at e
    refine ⟨?_, ?_⟩
    · rw [ht.1]
      show q.1.opt _ = q.1.opt _
      rw [hko]
    · rw [e]
      generalize q.2 = l at k1
      clear hko ht e k2 h14 h
      induction l with
      | nil => exact .nil
      | cons op l ih =>
        obtain ⟨k, a, b⟩ := k1 op List.mem_cons_self
        exact .cons (.same op k a b) (ih fun x hx => k1 x (List.mem_cons_of_mem _ hx))

end

theorem american_good {st : Station} (h : st.Good) : st.american.Good :=
  ⟨h.af, h.eonAf, h.rftLen, h.rft, h.ps, h.longPs, h.radiotext, h.ptyname, h.fullTdc, h.eonPs, h.tmc⟩

/-- What is printed for a group. -/
inductive AmericanOutput : Option Line → Option Line → Prop
  | none : AmericanOutput none none
  | some {x y : Line} (h : AmericanLine x y) : AmericanOutput (some x) (some y)

/-- One group. -/
theorem region_update (env : Env) (hk : env.tmc.KeysOk) (st : Station) (g : Group) (hr : st.options.rbds = false) (hg : st.Good) :
    Pairs True (fun q r => (q.1.Good ∧ r.1 = q.1.american) ∧ AmericanOutput q.2 r.2) (st.updateAndPrint env g)
      (st.american.updateAndPrint env g) := by
  obtain ⟨sa, x, ha, ga, an, al⟩ := updateAndPrint_parts env hk st g hg
  obtain ⟨sb, y, hb, -, bn, bl⟩ := updateAndPrint_parts env hk st.american g (american_good hg)
  rw [ha, hb]
  refine pairs_some ?_
  dsimp only
  have hoc := checkPI_options st g
  have hpi : st.american.checkPI g = ((st.checkPI g).1.american, (st.checkPI g).2) := by
    have := opt_checkPI st { st.options with rbds := true } g g.time g.bler
    refine this.trans ?_
    show ((st.checkPI g).1.opt _, _) = ((st.checkPI g).1.opt _, _)
    rw [hoc]
  rw [hpi, show st.american.hasPi = st.hasPi from rfl] at bn bl
  dsimp only at bn bl
  cases x with
  | none =>
    have an := an rfl
    cases y with
    | none =>
      have bn := bn rfl
      refine ⟨⟨ga, ?_⟩, .none⟩
      rcases an with ⟨a1, rfl⟩ | ⟨a1, a2, rfl⟩ <;> rcases bn with ⟨b1, rfl⟩ | ⟨b1, b2, rfl⟩
      · rfl
      · rw [a1] at b1; cases b1
      · rw [a1] at b1; cases b1
      · rfl
    | some l =>
      obtain ⟨-, -, -, -, -, b1, b2, -⟩ := bl l rfl
      rcases an with ⟨a1, -⟩ | ⟨-, a2, -⟩
      · rw [a1] at b1; cases b1
      · rw [a2] at b2; cases b2
  | some l =>
    obtain ⟨basics, body, j, hj, rfl, a1, a2, hbs, hd, hbk, hok, -⟩ := al l rfl
    cases y with
    | none =>
      rcases bn rfl with ⟨b1, -⟩ | ⟨-, b2, -⟩
      · rw [a1] at b1; cases b1
      · rw [a2] at b2; cases b2
    | some l' =>
      obtain ⟨basics', body', j', hj', rfl, -, -, hbs', hd', hbk', hok', -⟩ := bl l' rfl
      have hgc : (st.checkPI g).1.Good := checkPI_good st g hg
      have hrc : (st.checkPI g).1.options.rbds = false := by rw [hoc]; exact hr
      have hb := region_basics (st.checkPI g).1 g hrc hbs hbs'
      have hbody : sb = sa.american ∧ List.Forall₂ OpRegion body body' := by
        by_cases hty : g.hasType = true
        · rw [if_pos hty] at hd hd'
          exact region_dispatch env (st.checkPI g).1 g hrc hgc hd hd'
        · rw [if_neg hty] at hd hd'
          cases hd
          cases hd'
          exact ⟨rfl, .nil⟩
      refine ⟨⟨ga, hbody.1⟩, .some ?_⟩
      have o1 := object_parts (build_object _ (ops_keys hbk hok) _ _ hj (.inl (ops_nonempty body hbs)))
      have o2 := object_parts (build_object _ (ops_keys hbk' hok') _ _ hj' (.inl (ops_nonempty body' hbs')))
      have hm : American j.parts j'.parts := by
        obtain ⟨e1, e2⟩ := region_header env st g
        obtain ⟨f, f', hf, hf', w⟩ := region_front st g hr
        rw [e1, List.append_assoc, List.append_assoc, build_append, hf] at hj
        rw [e2, List.append_assoc, List.append_assoc, build_append, hf'] at hj'
        exact region_build (List.rel_append (region_tail env st g) (List.rel_append hb hbody.2)) w hj hj'
      rw [o1, o2]
      have hu : (J.obj j'.parts).utf8 = (J.obj j.parts).utf8 := american_utf8 hm
      unfold printJson
      rw [hu]
      split
      · exact .json hm
      · exact .error

/-! ### Channels -/

/-- The same channel in North America. -/
def Channel.american (c : Channel) : Channel :=
  { c with options := { c.options with rbds := true }, station := c.station.american }

/-- Two channels that have received the same without and with `-u`. -/
structure RegionTwin (c d : Channel) : Prop where
  good : c.Good
  rbds : c.options.rbds = false
  stationRbds : c.station.options.rbds = false
  eq : d = c.american

theorem region_new (o : Options) (h : o.rbds = false) (w : Nat) :
    RegionTwin (Channel.new o w) (Channel.new { o with rbds := true } w) :=
  ⟨channel_new_good o w, h, h, rfl⟩

theorem region_pi {c d : Channel} (w : RegionTwin c d) (g : Group) : RegionTwin (c.updatePI g) (d.updatePI g) := by
  have hg := updatePI_good c g w.good
  obtain rfl := w.eq
  unfold Channel.updatePI at hg ⊢
  rw [show c.american.cachedPi = c.cachedPi from rfl]
  dsimp only at hg ⊢
  split
  · next h1 =>
    rw [if_pos h1] at hg
    split
    · next h2 =>
      rw [if_pos h2] at hg
      exact ⟨hg, w.rbds, w.rbds, rfl⟩
    · next h2 =>
      rw [if_neg h2] at hg
      exact ⟨hg, w.rbds, w.stationRbds, rfl⟩
  · exact w

theorem region_bler {c d : Channel} (w : RegionTwin c d) (g : Group) :
    Pairs True (fun q r => RegionTwin q.1 r.1 ∧ r.2 = q.2) (c.addBler g) (d.addBler g) := by
  obtain ⟨c1, g1, h1, hg⟩ := addBler_good c g w.good
  obtain rfl := w.eq
  have e : c.american.addBler g = (c.addBler g).map fun q => (q.1.american, q.2) := by
    unfold Channel.addBler
    rw [show c.american.options.bler = c.options.bler from rfl, show c.american.blerAverage = c.blerAverage from rfl]
    split
    · cases c.blerAverage.push g.getNumErrors <;> rfl
    · rfl
  have ho : c1.options = c.options ∧ c1.station = c.station := by
    unfold Channel.addBler at h1
    split at h1
    · obtain ⟨r, -, h1⟩ := Option.bind_eq_some_iff.mp h1
      cases h1
      exact ⟨rfl, rfl⟩
    · cases h1
      exact ⟨rfl, rfl⟩
  rw [e, h1]
  exact pairs_some ⟨⟨hg, by rw [ho.1]; exact w.rbds, by rw [ho.2]; exact w.stationRbds, rfl⟩, rfl⟩

section
variable {env : Env} (hk : env.tmc.KeysOk)

include hk

theorem region_output {c d : Channel} (w : RegionTwin c d) (g : Group) :
    Pairs True (fun q r => RegionTwin q.1 r.1 ∧ AmericanOutput q.2 r.2) (c.output env g) (d.output env g) := by
  obtain rfl := w.eq
  unfold Channel.output
  rw [show c.american.options.outputType = c.options.outputType from rfl,
    show c.american.options.timestamp = c.options.timestamp from rfl]
  split
  · refine pairs_some ⟨w, ?_⟩
    dsimp only
    split
    · exact .none
    · exact .some (.hex _)
  · have h := region_update env hk c.station g w.stationRbds w.good.station
    obtain ⟨st1, l1, h1, -⟩ := updateAndPrint_parts env hk c.station g w.good.station
    have ho := updateAndPrint_options h1
    rw [h1] at h ⊢
    refine pairs_bind (R := fun q r => q = (st1, l1) ∧ (q.1.Good ∧ r.1 = q.1.american) ∧ AmericanOutput q.2 r.2) ?_ ?_
    · exact ⟨fun a b ha hb => ⟨(Option.some.inj ha).symm, h.1 a b ha hb⟩, h.2⟩
    · rintro q r ⟨rfl, ⟨h2, h3⟩, h4⟩
      refine pairs_some ⟨⟨⟨h2, w.good.streams, w.good.bler⟩, w.rbds, ?_, ?_⟩, h4⟩
      · show st1.options.rbds = false
        rw [ho]
        exact w.stationRbds
      · show { c.american with station := r.1 } = _
        rw [h3]
        rfl

/-- What is printed for a group that was handled. -/
abbrev RegionHandled (q r : Channel × Handled) : Prop := RegionTwin q.1 r.1 ∧ AmericanOutput q.2.line r.2.line

theorem region_handle {c d : Channel} (w : RegionTwin c d) (g : Group) (n : Nat) :
    Pairs True RegionHandled (c.handleGroup env g n) (d.handleGroup env g n) := by
  unfold Channel.handleGroup
  refine pairs_bind (region_bler w g) fun q r hqr => ?_
  rw [hqr.2]
  exact pairs_bind (region_output hk (region_pi hqr.1 _) _) fun x y hxy => pairs_some hxy

omit hk in
theorem region_time {c d : Channel} (w : RegionTwin c d) (x : Int) :
    RegionTwin { c with lastRxTime := x } { d with lastRxTime := x } := by
  obtain rfl := w.eq
  exact ⟨⟨w.good.station, w.good.streams, w.good.bler⟩, w.rbds, w.stationRbds, rfl⟩

theorem region_group {c d : Channel} (w : RegionTwin c d) (now : Int) (g : Group) (n : Nat) :
    Pairs True RegionHandled (c.processGroup env now g n) (d.processGroup env now g n) := by
  have key : ∃ c1 d1 g1, c.stampGroup now g = (c1, g1) ∧ d.stampGroup now g = (d1, g1) ∧ RegionTwin c1 d1 := by
    have w1 := region_time w now
    obtain rfl := w.eq
    unfold Channel.stampGroup
    rw [show c.american.options.timestamp = c.options.timestamp from rfl]
    split
    · exact ⟨_, _, _, rfl, rfl, w1⟩
    · exact ⟨_, _, _, rfl, rfl, w⟩
  obtain ⟨c1, d1, g1, e1, e2, w1⟩ := key
  unfold Channel.processGroup
  rw [e1, e2]
  exact region_handle hk w1 g1 n

omit hk in
theorem region_push {c d : Channel} (w : RegionTwin c d) (b : Bool) (n : Nat) :
    Pairs True (fun q r => RegionTwin q.1 r.1 ∧ r.2 = q.2) (c.pushBit b n) (d.pushBit b n) := by
  obtain rfl := w.eq
  unfold Channel.pushBit
  rw [show c.american.blockStreams = c.blockStreams from rfl]
  refine pairs_bind_same _ fun s _ => pairs_some ⟨⟨⟨w.good.station, ?_, w.good.bler⟩, w.rbds, w.stationRbds, rfl⟩, rfl⟩
  simp only [List.length_set]
  exact w.good.streams

/-- The lines for some groups. -/
abbrev RegionOutput (q r : Channel × List Handled) : Prop :=
  RegionTwin q.1 r.1 ∧ List.Forall₂ AmericanLine (printedLines (q.2.map .handled)) (printedLines (r.2.map .handled))

omit hk in
theorem region_cons {q r : Channel × Handled} {x y : Channel × List Handled} (h1 : RegionHandled q r) (h2 : RegionOutput x y) :
    RegionOutput (x.1, q.2 :: x.2) (y.1, r.2 :: y.2) := by
  refine ⟨h2.1, ?_⟩
  rw [printed_cons, printed_cons]
  refine List.rel_append ?_ h2.2
  have := h1.2
  generalize q.2.line = a at this
  generalize r.2.line = b at this
  cases this with
  | none => exact .nil
  | some h => exact .cons h .nil

theorem region_bits {delay : Nat → Int} {t : Int} {n : Nat} (bits : List Bool) {c d : Channel} (w : RegionTwin c d) :
    Pairs True RegionOutput (Channel.processBits env delay t n c bits) (Channel.processBits env delay t n d bits) := by
  induction bits generalizing c d with
  | nil => exact pairs_some ⟨w, .nil⟩
  | cons b bits ih =>
    rw [Channel.processBits, Channel.processBits]
    refine pairs_bind (region_push w b n) fun q r hqr => ?_
    rw [hqr.2]
    cases q.2 with
    | none => exact ih hqr.1
    | some g =>
      dsimp only
      rw [show r.1.lastRxTime = q.1.lastRxTime by rw [hqr.1.eq]; rfl]
      refine pairs_bind (region_group hk hqr.1 _ _ n) fun x y hxy => ?_
      exact pairs_bind (ih (region_time hxy.1 _)) fun k l hkl => pairs_some (region_cons hxy hkl)

theorem region_flush {now : Nat → Int} (l : List Nat) {c d : Channel} (w : RegionTwin c d) :
    Pairs True RegionOutput (Channel.flushStreams env now c l) (Channel.flushStreams env now d l) := by
  induction l generalizing c d with
  | nil => exact pairs_some ⟨w, .nil⟩
  | cons i l ih =>
    rw [Channel.flushStreams, Channel.flushStreams, show d.blockStreams = c.blockStreams by rw [w.eq]; rfl]
    refine pairs_bind_same _ fun s _ => ?_
    dsimp only
    split
    · exact ih w
    · refine pairs_bind (region_group hk w (now i) s.flushCurrentGroup i) fun x y hxy => ?_
      exact pairs_bind (ih hxy.1) fun k l hkl => pairs_some (region_cons hxy hkl)

/-- `-u` and sound. -/
theorem alike_regions (delay : Nat → Int) :
    Alike True env env delay delay RegionTwin (fun t t' => t' = t) (List.Forall₂ AmericanLine) where
  nil := .nil
  append h1 h2 := List.rel_append h1 h2
  streams w := by rw [w.eq]; rfl
  reset := by
    rintro c d w
    obtain rfl := w.eq
    exact ⟨⟨w.good.station, w.good.streams, w.good.bler⟩, w.rbds, w.stationRbds, rfl⟩
  bits := by
    rintro c d t t' n l w rfl
    exact region_bits hk l w
  flush := by
    intro c d now now' w h
    obtain rfl : now' = now := funext h
    exact region_flush hk [1, 2, 3] w

/-! ### Calls -/

theorem region_step {delay : Nat → Int} {c d : Channel} (e : ChannelEvent) (w : RegionTwin c d) :
    Pairs True (fun q r => RegionTwin q.1 r.1 ∧ List.Forall₂ AmericanLine (printedLines q.2) (printedLines r.2))
      (c.step env delay e) (d.step env delay e) := by
  cases e with
  | bit t b n =>
    refine pairs_map (R := RegionOutput) ?_ fun q r h => h
    unfold Channel.processBit
    refine pairs_bind (region_push w b n) fun q r hqr => ?_
    rw [hqr.2]
    cases q.2 with
    | none => exact pairs_some ⟨hqr.1, .nil⟩
    | some g =>
      exact pairs_bind (region_group hk hqr.1 t g n) fun x y hxy =>
        pairs_some (region_cons (x := (x.1, [])) (y := (y.1, [])) hxy ⟨hxy.1, .nil⟩)
  | bits t l n => exact pairs_map (region_bits hk l w) fun q r h => h
  | group t g n =>
    refine pairs_map (region_group hk w t g n) fun q r h => ⟨h.1, ?_⟩
    exact (region_cons (x := (q.1, [])) (y := (r.1, [])) h ⟨h.1, .nil⟩).2
  | flush now => exact pairs_map (region_flush hk _ w) fun q r h => h
  | resetPI => exact pairs_some ⟨(alike_regions hk delay).reset w, .nil⟩

theorem region_run {delay : Nat → Int} (es : List ChannelEvent) {c d : Channel} (w : RegionTwin c d) :
    Pairs True (fun q r => List.Forall₂ AmericanLine (printedLines q.2) (printedLines r.2)) (Channel.run env delay c es)
      (Channel.run env delay d es) := by
  induction es generalizing c d with
  | nil => exact pairs_some .nil
  | cons e es ih =>
    rw [Channel.run, Channel.run]
    refine pairs_bind (region_step hk e w) fun q r hqr => pairs_bind (ih hqr.1) fun x y hxy => pairs_some ?_
    have app : ∀ a b : List Trace, printedLines (a ++ b) = printedLines a ++ printedLines b := fun a b => List.filterMap_append
    rw [app, app]
    exact List.rel_append hqr.2 hxy

end

end Redsea
