import Verif.Spec.OutputOptions
import Verif.Lemmas.JsonLines

/-
For property C89: a station with other options decodes a group to the same state and to the same operations, except for
those on some members.
-/

namespace Redsea

/-- A group with another time and another error rate. -/
def Group.tag (g : Group) (t : Option Int) (b : Option Nat) : Group := { g with time := t, bler := b }

section
variable (env : Env) (st : Station) (g : Group) (t : Option Int) (b : Option Nat)

theorem tag_has (n : BlockNum) : (g.tag t b).has n = g.has n := by cases n <;> rfl

theorem tag_get (n : BlockNum) : (g.tag t b).get n = g.get n := by cases n <;> rfl

theorem tag_type : (g.tag t b).type = g.type := rfl

theorem tag_dispatch : st.dispatch env (g.tag t b) = st.dispatch env g := by
  have e0 : st.decodeType0 env (g.tag t b) = st.decodeType0 env g := by
    unfold Station.decodeType0 Station.decodePs
    simp only [tag_has, tag_get, tag_type]
  have e1 : st.decodeType1 (g.tag t b) = st.decodeType1 g := by
    unfold Station.decodeType1 Station.slowLabel
    simp only [tag_has, tag_get, tag_type]
  have e2 : ∀ u s r, decodeType2 u s r (g.tag t b) = decodeType2 u s r g := by
    intro u s r
    have er : ∀ r a c p, rtReceive u r (g.tag t b) a c p = rtReceive u r g a c p := by
      intro r a c p
      unfold rtReceive
      simp only [tag_has, tag_get]
    unfold decodeType2
    simp only [tag_has, tag_get, tag_type, er]
    rfl
  have e3 : st.decodeType3A (g.tag t b) = st.decodeType3A g := by
    unfold Station.decodeType3A
    simp only [tag_has, tag_get, tag_type]
  have e4 : decodeType4A (g.tag t b) = decodeType4A g := by
    unfold decodeType4A
    simp only [tag_has, tag_get]
  have e5 : st.decodeType5 env (g.tag t b) = st.decodeType5 env g := by
    unfold Station.decodeType5
    simp only [tag_get, tag_type]
  have e6 : Station.decodeType6 (g.tag t b) = Station.decodeType6 g := by
    unfold Station.decodeType6
    simp only [tag_has, tag_get, tag_type]
  have e10 : st.decodeType10A env (g.tag t b) = st.decodeType10A env g := by
    unfold Station.decodeType10A
    simp only [tag_has, tag_get]
  have e14 : st.decodeType14 env (g.tag t b) = st.decodeType14 env g := by
    unfold Station.decodeType14 Station.eonVariant
    simp only [tag_has, tag_get, tag_type]
  have e15a : st.decodeType15A env (g.tag t b) = st.decodeType15A env g := by
    unfold Station.decodeType15A
    simp only [tag_has, tag_get]
  have e15b : Station.decodeType15B (g.tag t b) = Station.decodeType15B g := by
    unfold Station.decodeType15B
    simp only [tag_has, tag_get]
  have et : st.decodeTmc env (g.tag t b) = st.decodeTmc env g := by
    unfold Station.decodeTmc
    simp only [tag_has, tag_get]
  have ea : ∀ app, st.decodeODAApp env (g.tag t b) app = st.decodeODAApp env g app := by
    intro app
    unfold Station.decodeODAApp Station.parseDAB Station.parseRadioTextPlus Station.parseEnhancedRT Station.odaRaw
    rw [et]
    simp only [tag_has, tag_get]
  have eo : st.decodeODAGroup env (g.tag t b) = st.decodeODAGroup env g := by
    unfold Station.decodeODAGroup Station.odaRaw
    simp only [tag_has, tag_get, tag_type, ea]
  have ec : st.decodeC (g.tag t b) = st.decodeC g := by
    unfold Station.decodeC Station.rftInfoOps Station.segmentData
    simp only [tag_has, tag_get]
  unfold Station.dispatch
  rw [e0, e1, e2, e3, e4, e5, e6, e10, e14, e15a, e15b, et, eo, ec, tag_type]

end

/-- Other time stamps. -/
def Env.clock (env : Env) (f : Int → Str) : Env := { env with formatTime := f }

section
variable (env : Env) (f : Int → Str) (st : Station) (g : Group)

theorem clock_ucs2 : (env.clock f).ucs2 = env.ucs2 := rfl

theorem clock_what : (env.clock f).what = env.what := rfl

theorem clock_tmc : (env.clock f).tmc = env.tmc := rfl

theorem clock_dispatch : st.dispatch (env.clock f) g = st.dispatch env g := by
  have e0 : st.decodeType0 (env.clock f) g = st.decodeType0 env g := rfl
  have e2 : ∀ out, Station.rtOps (env.clock f) out = Station.rtOps env out := fun _ => rfl
  have e5 : st.decodeType5 (env.clock f) g = st.decodeType5 env g := rfl
  have e10 : st.decodeType10A (env.clock f) g = st.decodeType10A env g := rfl
  have e14 : st.decodeType14 (env.clock f) g = st.decodeType14 env g := rfl
  have e15 : st.decodeType15A (env.clock f) g = st.decodeType15A env g := rfl
  have et : st.decodeTmc (env.clock f) g = st.decodeTmc env g := rfl
  have eo : st.decodeODAGroup (env.clock f) g = st.decodeODAGroup env g := rfl
  unfold Station.dispatch
  rw [clock_ucs2, e0, e5, e10, e14, e15, et, eo]
  rfl
end

/-- A station with other options. -/
def Station.opt (st : Station) (o : Options) : Station := { st with options := o }

section
variable (env : Env) (st : Station) (o : Options) (g : Group)

theorem opt_pty (hr : o.rbds = st.options.rbds) (n : Nat) : (st.opt o).ptyString n = st.ptyString n := by
  unfold Station.ptyString
  rw [show (st.opt o).options.rbds = st.options.rbds from hr]

theorem opt_basics (hr : o.rbds = st.options.rbds) : (st.opt o).decodeBasics g = st.decodeBasics g := by
  unfold Station.decodeBasics
  simp only [opt_pty st o hr]

theorem opt_type1 : (st.opt o).decodeType1 g = st.decodeType1 g := rfl

theorem opt_type3A : (st.opt o).decodeType3A g = (st.decodeType3A g).map fun r => (r.1.opt o, r.2) := by
  unfold Station.decodeType3A
  dsimp only
  by_cases h1 : (!(g.has .b3 && g.has .b4)) = true
  · rw [if_pos h1, if_pos h1]; rfl
  rw [if_neg h1, if_neg h1]
  by_cases h2 : g.type.version ≠ .A
  · rw [if_pos h2, if_pos h2]; rfl
  rw [if_neg h2, if_neg h2]
  split
  · rfl
  split
  · rfl
  split
  · rfl
  split
  · rfl
  split
  · show (do let r ← st.tmc.receiveSystemGroup (g.get .b3); _) = _
    cases st.tmc.receiveSystemGroup (g.get .b3) <;> rfl
  · rfl

theorem opt_type5 : (st.opt o).decodeType5 env g = (st.decodeType5 env g).map fun r => (r.1.opt o, r.2) := by
  unfold Station.decodeType5
  rw [show (st.opt o).fullTdc = st.fullTdc from rfl]
  dsimp only
  generalize (((RDSString.new 4).set2 env.ucs2 0 (getUint8 (g.get .b3) 8) (getUint8 (g.get .b3) 0)).set2 env.ucs2 2
        (getUint8 (g.get .b4) 8) (getUint8 (g.get .b4) 0)).str env.ucs2 = y
  generalize ((RDSString.new 2).set2 env.ucs2 0 (getUint8 (g.get .b4) 8) (getUint8 (g.get .b4) 0)).str env.ucs2 = z
  generalize (st.fullTdc.set2 env.ucs2 (getBits 5 (g.get .b2) 0 * 4) (getUint8 (g.get .b3) 8) (getUint8 (g.get .b3) 0)).set2 env.ucs2
      (getBits 5 (g.get .b2) 0 * 4 + 2) (getUint8 (g.get .b4) 8) (getUint8 (g.get .b4) 0) = full
  split
  · split
    · cases full.str env.ucs2 with
      | none => rfl
      | some x => cases y <;> rfl
    · cases y <;> rfl
  · cases z <;> rfl

theorem opt_type10A : (st.opt o).decodeType10A env g = ((st.decodeType10A env g).1.opt o, (st.decodeType10A env g).2) := by
  unfold Station.decodeType10A
  rw [show (st.opt o).ptyname = st.ptyname from rfl]
  dsimp only
  generalize (RDSString.set2 env.ucs2 (RDSString.set2 env.ucs2 _ _ _ _) _ _ _ : RDSString) = text
  by_cases h : (!g.has .b3 || !g.has .b4) = true
  · rw [if_pos h, if_pos h]
  · rw [if_neg h, if_neg h]; rfl

theorem opt_tmc : (st.opt o).decodeTmc env g = (st.decodeTmc env g).map fun r => (r.1.opt o, r.2) := by
  unfold Station.decodeTmc
  by_cases h : (g.has .b2 && g.has .b3 && g.has .b4) = true
  · rw [if_pos h, if_pos h]
    show (do let r ← st.tmc.receiveUserGroup env.tmc (BitVec.ofNat 16 (getBits 5 (g.get .b2) 0)) (g.get .b3) (g.get .b4); _) = _
    cases st.tmc.receiveUserGroup env.tmc (BitVec.ofNat 16 (getBits 5 (g.get .b2) 0)) (g.get .b3) (g.get .b4) <;> rfl
  · rw [if_neg h, if_neg h]; rfl

theorem opt_app (app : Word) : (st.opt o).decodeODAApp env g app = (st.decodeODAApp env g app).map fun r => (r.1.opt o, r.2) := by
  unfold Station.decodeODAApp
  rw [opt_tmc]
  split
  · cases Station.parseDAB g <;> rfl
  split
  · show (Station.parseRadioTextPlus "radiotext_plus" st.radiotext g).map _ = _
    cases Station.parseRadioTextPlus "radiotext_plus" st.radiotext g <;> rfl
  split
  · show (Station.parseRadioTextPlus "ert_plus" st.ert g).map _ = _
    cases Station.parseRadioTextPlus "ert_plus" st.ert g <;> rfl
  split
  · rfl
  split
  · rfl
  · rfl

theorem opt_oda : (st.opt o).decodeODAGroup env g = (st.decodeODAGroup env g).map fun r => (r.1.opt o, r.2) := by
  unfold Station.decodeODAGroup
  show (match st.odaForGroup g.type with | none => _ | some app => _) = _
  cases st.odaForGroup g.type with
  | none => rfl
  | some app => exact opt_app env st o g app

theorem opt_eon (hr : getBits 4 (g.get .b2) 0 = 13 → o.rbds = st.options.rbds) :
    (st.opt o).eonVariant env g = (st.eonVariant env g).map fun r => (r.1.opt o, r.2) := by
  unfold Station.eonVariant
  dsimp only
  split
  · rfl
  split
  · show (do let l ← (st.eonAf (g.get .b4)).insert _; _) = _
    cases (st.eonAf (g.get .b4)).insert (getUint8 (g.get .b3) 8).toNat with
    | none => rfl
    | some l =>
      dsimp only [Option.bind_eq_bind, Option.bind_some]
      cases l.insert (getUint8 (g.get .b3) 0).toNat with
      | none => rfl
      | some l =>
        dsimp only [Option.bind_some]
        split
        · cases l.getRawList <;> rfl
        · rfl
  split
  · rfl
  split
  · rfl
  split
  · next h13 =>
    rw [opt_pty st o (hr h13)]
    cases st.ptyString (getBits 5 (g.get .b3) 11) <;> rfl
  split
  · rfl
  split <;> rfl

theorem opt_type14 (hr : o.rbds = st.options.rbds) :
    (st.opt o).decodeType14 env g = (st.decodeType14 env g).map fun r => (r.1.opt o, r.2) := by
  unfold Station.decodeType14
  rw [opt_eon env st o g fun _ => hr]
  dsimp only
  split
  · rfl
  split
  · rfl
  split
  · rfl
  · cases st.eonVariant env g <;> rfl

theorem opt_C : (st.opt o).decodeC g = (st.decodeC g).map fun r => (r.1.opt o, r.2) := by
  unfold Station.decodeC
  split
  · rfl
  · show (do let files ← decodeCRft st.rftFiles _ _ _ _; _) = _
    dsimp only
    cases decodeCRft st.rftFiles (g.get .b1) (g.get .b2) (g.get .b3) (g.get .b4) with
    | none => rfl
    | some files =>
      simp only [Option.bind_eq_bind, Option.bind_some]
      split
      · rfl
      · split
        · rfl
        · split
          · rfl
          · split
            · split
              · rfl
              · rfl
            · rfl
end

/-! ### Operations on some members only -/

/-- The operations on members whose names satisfy `p`. -/
def keptOps (p : String → Bool) (ops : List JOp) : List JOp := ops.filter fun op => op.key.all p

theorem kept_append (p : String → Bool) (a b : List JOp) : keptOps p (a ++ b) = keptOps p a ++ keptOps p b :=
  List.filter_append a b

theorem kept_none {p : String → Bool} {ks : List String} (hp : ∀ k ∈ ks, p k = false) {ops : List JOp}
    (h : ∀ op ∈ ops, ∃ k ∈ ks, op.key = some k) : keptOps p ops = [] := by
  unfold keptOps
  rw [List.filter_eq_nil_iff]
  intro op hop
  obtain ⟨k, hk, he⟩ := h op hop
  simp [he, hp k hk]

/-- Operations that are only performed on demand, and only on members that are left out if the demands differ. -/

theorem kept_demand {p : String → Bool} {ks : List String} {x y : Bool} (hp : y ≠ x → ∀ k ∈ ks, p k = false)
    {ops : List JOp} (h : ∀ op ∈ ops, ∃ k ∈ ks, op.key = some k) :
    keptOps p (if y then ops else []) = keptOps p (if x then ops else []) := by
  by_cases e : y = x
  · rw [e]
  · have := kept_none (hp e) h
    cases x <;> cases y <;> simp only [if_true, if_false, Bool.false_eq_true, this] <;> rfl

section
variable {p : String → Bool} {o : Options} (env : Env) (st : Station) (g : Group)

theorem twin_af {x y : Bool} (hp : y ≠ x → ∀ k ∈ partialMembers, p k = false) {l : AltFreqList} {w : Word}
    {r r' : AltFreqList × AfOut} (h : afReceive x l w = some r) (h' : afReceive y l w = some r') :
    r'.1 = r.1 ∧ keptOps p (Station.afOps r'.2) = keptOps p (Station.afOps r.2) := by
  by_cases e : y = x
  · rw [e, h] at h'
    cases h'
    exact ⟨rfl, rfl⟩
  have hpart : ∀ raw, keptOps p (Station.afOps (.partialList raw)) = [] := by
    intro raw
    refine kept_none (hp e) ?_
    intro op hop
    obtain ⟨f, -, rfl⟩ := List.mem_map.mp hop
    exact ⟨"partial_alt_frequencies", by simp [partialMembers], rfl⟩
  have hnone : keptOps p (Station.afOps .nothing) = [] := rfl
  unfold afReceive at h h'
  obtain ⟨l1, h1, h⟩ := Option.bind_eq_some_iff.mp h
  obtain ⟨l2, h2, h⟩ := Option.bind_eq_some_iff.mp h
  obtain ⟨l1', h1', h'⟩ := Option.bind_eq_some_iff.mp h'
  obtain ⟨l2', h2', h'⟩ := Option.bind_eq_some_iff.mp h'
  rw [h1] at h1'
  cases h1'
  rw [h2] at h2'
  cases h2'
  by_cases hc : l2.isComplete = true
  · rw [if_pos hc] at h h'
    rw [h] at h'
    cases h'
    exact ⟨rfl, rfl⟩
  · rw [if_neg hc] at h h'
    have key : ∀ (z : Bool) (q : AltFreqList × AfOut),
        (if z = true then do
          let raw ← l2.getRawList
          pure (l2, if raw = [] then .nothing else .partialList raw)
        else pure (l2, .nothing)) = some q → q.1 = l2 ∧ keptOps p (Station.afOps q.2) = [] := by
      intro z q hq
      cases z with
      | false =>
        cases hq
        exact ⟨rfl, rfl⟩
      | true =>
        obtain ⟨raw, -, hq⟩ := Option.bind_eq_some_iff.mp hq
        cases hq
        refine ⟨rfl, ?_⟩
        dsimp only
        split
        · rfl
        · exact hpart raw
    obtain ⟨a1, a2⟩ := key x r h
    obtain ⟨b1, b2⟩ := key y r' h'
    exact ⟨by rw [a1, b1], by rw [a2, b2]⟩

theorem twin_ps (hp : o.showPartial ≠ st.options.showPartial → ∀ k ∈ partialMembers, p k = false)
    (hs : st.ps.encoding = .basic) :
    ((st.opt o).decodePs env g).1 = (st.decodePs env g).1.opt o ∧
      keptOps p ((st.opt o).decodePs env g).2 = keptOps p (st.decodePs env g).2 := by
  unfold Station.decodePs
  rw [show (st.opt o).ps = st.ps from rfl, show (st.opt o).options = o from rfl]
  dsimp only
  have he := set2_encoding env.ucs2 st.ps (getBits 2 (g.get .b2) 0 * 2) (getUint8 (g.get .b4) 8) (getUint8 (g.get .b4) 0)
  generalize st.ps.set2 env.ucs2 (getBits 2 (g.get .b2) 0 * 2) (getUint8 (g.get .b4) 8) (getUint8 (g.get .b4) 0) = ps at he ⊢
  by_cases h4 : (!g.has .b4) = true
  · rw [if_pos h4, if_pos h4]
    exact ⟨rfl, rfl⟩
  · rw [if_neg h4, if_neg h4]
    refine ⟨rfl, ?_⟩
    dsimp only
    by_cases hc : ps.isComplete = true
    · rw [if_pos hc, if_pos hc]
    · rw [if_neg hc, if_neg hc]
      obtain ⟨t, ht⟩ := str_basic env.ucs2 ps (by rw [he, hs])
      rw [ht]
      refine kept_demand hp ?_
      intro op hop
      rw [List.mem_singleton.mp hop]
      exact ⟨"partial_ps", by simp [partialMembers], rfl⟩

theorem twin_type0 (hp : o.showPartial ≠ st.options.showPartial → ∀ k ∈ partialMembers, p k = false)
    (hs : st.ps.encoding = .basic) {q q' : Station × List JOp} (h : st.decodeType0 env g = some q)
    (h' : (st.opt o).decodeType0 env g = some q') : q'.1 = q.1.opt o ∧ keptOps p q'.2 = keptOps p q.2 := by
  unfold Station.decodeType0 at h h'
  obtain ⟨key, h1, h⟩ := Option.bind_eq_some_iff.mp h
  obtain ⟨key', h1', h'⟩ := Option.bind_eq_some_iff.mp h'
  rw [h1] at h1'
  cases h1'
  dsimp only at h h'
  by_cases h3 : (!g.has .b3) = true
  · rw [if_pos h3] at h h'
    obtain ⟨af, h2, h⟩ := Option.bind_eq_some_iff.mp h
    obtain ⟨af', h2', h'⟩ := Option.bind_eq_some_iff.mp h'
    rw [show (st.opt o).altFreq = st.altFreq from rfl, h2] at h2'
    cases h2'
    cases h
    cases h'
    exact ⟨rfl, rfl⟩
  rw [if_neg h3] at h h'
  by_cases hv : g.type.version = .A
  · rw [if_pos hv] at h h'
    obtain ⟨r, h2, h⟩ := Option.bind_eq_some_iff.mp h
    obtain ⟨r', h2', h'⟩ := Option.bind_eq_some_iff.mp h'
    obtain ⟨a1, a2⟩ := twin_af hp h2 h2'
    rw [a1] at h'
    have := Option.some.inj h
    subst this
    have := Option.some.inj h'
    subst this
    obtain ⟨b1, b2⟩ := twin_ps (p := p) (o := o) env { st with altFreq := r.1 } g hp hs
    exact ⟨b1, by rw [kept_append, kept_append, kept_append, kept_append, a2]; exact congrArg _ b2⟩
  · rw [if_neg hv] at h h'
    have := Option.some.inj h
    subst this
    have := Option.some.inj h'
    subst this
    obtain ⟨b1, b2⟩ := twin_ps (p := p) (o := o) env st g hp hs
    exact ⟨b1, by rw [kept_append, kept_append]; exact congrArg _ b2⟩

theorem print_shape (u : Ucs2Decoder) (rt : RadioText) (he : rt.text.encoding = .basic) (m : Option Str) (ab : Bool) :
    ∃ (t s : Option Str), ∀ x : Bool, rtPrint u x rt m { rtAb := if x then some ab else none } =
      { rtAb := if x then some ab else none, radiotext := t, partialRadiotext := if x then s else none } := by
  unfold rtPrint
  obtain ⟨t, ht⟩ := str_basic u rt.text he
  by_cases hc : rt.text.isComplete = true
  · exact ⟨_, none, fun x => by rw [if_pos hc]; cases x <;> rfl⟩
  · cases m with
    | some m => exact ⟨some (rtrim m), none, fun x => by rw [if_neg hc]; cases x <;> rfl⟩
    | none =>
      refine ⟨none, if (rtrim t).length > 0 then some t else none, fun x => ?_⟩
      rw [if_neg hc, ht]
      cases x
      · rfl
      · simp only [if_true]
        split <;> rfl

theorem type2_shape (u : Ucs2Decoder) (rt : RadioText) (he : rt.text.encoding = .basic) :
    ∃ (rt' : RadioText) (a : Option Bool) (t s : Option Str), ∀ x : Bool, decodeType2 u x rt g =
      (rt', { rtAb := if x then a else none, radiotext := t, partialRadiotext := if x then s else none }) := by
  unfold decodeType2
  by_cases hb : (!(g.has .b3 && g.has .b4)) = true
  · refine ⟨rt, none, none, none, fun x => ?_⟩
    rw [if_pos hb]
    cases x <;> rfl
  dsimp only
  obtain ⟨m, hm⟩ := str_basic u rt.text he
  by_cases hpot : rtPotential { rt with ab := getBool (g.get .b2) 4 }
      (getBits 4 (g.get .b2) 0 * if (g.type.version == .A) = true then 4 else 2) = true
  · obtain ⟨t, s, hts⟩ := print_shape u (rtReceive u
      { rt with ab := getBool (g.get .b2) 4, previousPotentiallyComplete := rtrim m } g (g.type.version == .A)
      (rt.ab != getBool (g.get .b2) 4) (getBits 4 (g.get .b2) 0 * if (g.type.version == .A) = true then 4 else 2))
      (by rw [rtReceive_encoding]; exact he)
      (if (rtrim m == rt.previousPotentiallyComplete) = true then some (rtrim m) else none) (getBool (g.get .b2) 4)
    refine ⟨rtReceive u { rt with ab := getBool (g.get .b2) 4, previousPotentiallyComplete := rtrim m } g
      (g.type.version == .A) (rt.ab != getBool (g.get .b2) 4)
      (getBits 4 (g.get .b2) 0 * if (g.type.version == .A) = true then 4 else 2), some (getBool (g.get .b2) 4), t, s,
      fun x => ?_⟩
    rw [if_neg hb, if_pos hpot, hm]
    dsimp only
    rw [hts]
  · obtain ⟨t, s, hts⟩ := print_shape u (rtReceive u
      { rt with ab := getBool (g.get .b2) 4 } g (g.type.version == .A)
      (rt.ab != getBool (g.get .b2) 4) (getBits 4 (g.get .b2) 0 * if (g.type.version == .A) = true then 4 else 2))
      (by rw [rtReceive_encoding]; exact he) none (getBool (g.get .b2) 4)
    refine ⟨rtReceive u { rt with ab := getBool (g.get .b2) 4 } g (g.type.version == .A)
      (rt.ab != getBool (g.get .b2) 4)
      (getBits 4 (g.get .b2) 0 * if (g.type.version == .A) = true then 4 else 2), some (getBool (g.get .b2) 4), t, s,
      fun x => ?_⟩
    rw [if_neg hb, if_neg hpot, hts]

theorem twin_rt {x y : Bool} (hp : y ≠ x → ∀ k ∈ partialMembers, p k = false) (a : Option Bool) (t s : Option Str) :
    keptOps p (Station.rtOps env { rtAb := if y then a else none, radiotext := t, partialRadiotext := if y then s else none }) =
      keptOps p (Station.rtOps env { rtAb := if x then a else none, radiotext := t, partialRadiotext := if x then s else none }) := by
  by_cases e : y = x
  · rw [e]
  have h1 : p "rt_ab" = false := hp e _ (by simp [partialMembers])
  have h2 : p "partial_radiotext" = false := hp e _ (by simp [partialMembers])
  unfold Station.rtOps
  cases x <;> cases y <;> first | exact absurd rfl e | skip
  all_goals
    cases a <;> cases t <;> cases s <;>
      simp [keptOps, List.filter_cons, JOp.key, JOp.path, h1, h2] <;> rfl

theorem twin_15A (hp : o.showPartial ≠ st.options.showPartial → ∀ k ∈ partialMembers, p k = false)
    (hs : st.longPs.encoding = .utf8) :
    ((st.opt o).decodeType15A env g).1 = (st.decodeType15A env g).1.opt o ∧
      keptOps p ((st.opt o).decodeType15A env g).2 = keptOps p (st.decodeType15A env g).2 := by
  unfold Station.decodeType15A
  rw [show (st.opt o).longPs = st.longPs from rfl, show (st.opt o).options = o from rfl]
  dsimp only
  have he : (if g.has .b4 = true then
      (if g.has .b3 = true then st.longPs.set2 env.ucs2 (getBits 3 (g.get .b2) 0 * 4) (getUint8 (g.get .b3) 8) (getUint8 (g.get .b3) 0)
        else st.longPs).set2 env.ucs2 (getBits 3 (g.get .b2) 0 * 4 + 2) (getUint8 (g.get .b4) 8) (getUint8 (g.get .b4) 0)
      else (if g.has .b3 = true then st.longPs.set2 env.ucs2 (getBits 3 (g.get .b2) 0 * 4) (getUint8 (g.get .b3) 8) (getUint8 (g.get .b3) 0)
        else st.longPs)).encoding = .utf8 := by
    cases g.has .b3 <;> cases g.has .b4 <;>
      simp only [if_true, if_false, Bool.false_eq_true, set2_encoding, hs]
  generalize (if g.has .b4 = true then
      (if g.has .b3 = true then st.longPs.set2 env.ucs2 (getBits 3 (g.get .b2) 0 * 4) (getUint8 (g.get .b3) 8) (getUint8 (g.get .b3) 0)
        else st.longPs).set2 env.ucs2 (getBits 3 (g.get .b2) 0 * 4 + 2) (getUint8 (g.get .b4) 8) (getUint8 (g.get .b4) 0)
      else (if g.has .b3 = true then st.longPs.set2 env.ucs2 (getBits 3 (g.get .b2) 0 * 4) (getUint8 (g.get .b3) 8) (getUint8 (g.get .b3) 0)
        else st.longPs)) = text at he ⊢
  refine ⟨rfl, ?_⟩
  by_cases hc : ((g.has .b3 || g.has .b4) && text.isComplete) = true
  · rw [if_pos hc, if_pos hc]
  · rw [if_neg hc, if_neg hc]
    have ht : text.str env.ucs2 = some text.getData := by rw [RDSString.str, he]; rfl
    rw [ht]
    refine kept_demand hp ?_
    intro op hop
    rw [List.mem_singleton.mp hop]
    exact ⟨"partial_long_ps", by simp [partialMembers], rfl⟩

theorem of_map {x x' : Option (Station × List JOp)} (hx : x' = x.map fun r => (r.1.opt o, r.2)) {q q' : Station × List JOp}
    (h : x = some q) (h' : x' = some q') : q'.1 = q.1.opt o ∧ keptOps p q'.2 = keptOps p q.2 := by
  rw [h] at hx
  rw [hx] at h'
  cases h'
  exact ⟨rfl, rfl⟩

theorem twin_dispatch (hr : g.type.version ≠ .C → g.type.number = 14 → o.rbds = st.options.rbds)
    (hp : o.showPartial ≠ st.options.showPartial → ∀ k ∈ partialMembers, p k = false)
    (hg : st.Good) {q q' : Station × List JOp} (h : st.dispatch env g = some q)
    (h' : (st.opt o).dispatch env g = some q') : q'.1 = q.1.opt o ∧ keptOps p q'.2 = keptOps p q.2 := by
  unfold Station.dispatch at h h'
  dsimp only at h h'
  rw [show (st.opt o).odaForGroup = st.odaForGroup from rfl, show (st.opt o).radiotext = st.radiotext from rfl,
    show (st.opt o).options = o from rfl] at h'
  by_cases hc : g.type.version = .C
  · rw [if_pos hc] at h h'
    exact of_map (opt_C st o g) h h'
  rw [if_neg hc] at h h'
  have hr := hr hc
  clear hc
  by_cases hc : g.type.number = 0
  · rw [if_pos hc] at h h'
    exact twin_type0 env st g hp hg.ps h h'
  rw [if_neg hc] at h h'
  clear hc
  by_cases hc : g.type.number = 1
  · rw [if_pos hc] at h h'
    refine of_map ?_ h h'
    rw [opt_type1]
    cases st.decodeType1 g <;> rfl
  rw [if_neg hc] at h h'
  clear hc
  by_cases hc : g.type.number = 2
  · rw [if_pos hc] at h h'
    obtain ⟨rt, a, t, s, hs⟩ := type2_shape g env.ucs2 st.radiotext hg.radiotext
    rw [hs] at h h'
    cases h
    cases h'
    exact ⟨rfl, twin_rt env hp a t s⟩
  rw [if_neg hc] at h h'
  clear hc
  by_cases hc : g.type.number = 3 ∧ g.type.version = .A
  · rw [if_pos hc] at h h'
    exact of_map (opt_type3A st o g) h h'
  rw [if_neg hc] at h h'
  clear hc
  by_cases hc : g.type.number = 4 ∧ g.type.version = .A
  · rw [if_pos hc] at h h'
    exact of_map rfl h h'
  rw [if_neg hc] at h h'
  clear hc
  by_cases hc : g.type.number = 10 ∧ g.type.version = .A
  · rw [if_pos hc] at h h'
    exact of_map (by rw [opt_type10A]; rfl) h h'
  rw [if_neg hc] at h h'
  clear hc
  by_cases hc : g.type.number = 14
  · rw [if_pos hc] at h h'
    exact of_map (opt_type14 env st o g (hr hc)) h h'
  rw [if_neg hc] at h h'
  clear hc
  by_cases hc : g.type.number = 15 ∧ g.type.version = .B
  · rw [if_pos hc] at h h'
    refine of_map ?_ h h'
    cases Station.decodeType15B g <;> rfl
  rw [if_neg hc] at h h'
  clear hc
  by_cases hc : (st.odaForGroup g.type).isSome = true
  · rw [if_pos hc] at h h'
    exact of_map (opt_oda env st o g) h h'
  rw [if_neg hc] at h h'
  clear hc
  by_cases hc : g.type.number = 5
  · rw [if_pos hc] at h h'
    exact of_map (opt_type5 env st o g) h h'
  rw [if_neg hc] at h h'
  clear hc
  by_cases hc : g.type.number = 6
  · rw [if_pos hc] at h h'
    exact of_map rfl h h'
  rw [if_neg hc] at h h'
  clear hc
  by_cases hc : g.type.number = 7 ∧ g.type.version = .A
  · rw [if_pos hc] at h h'
    exact of_map rfl h h'
  rw [if_neg hc] at h h'
  clear hc
  by_cases hc : g.type.number = 8 ∧ g.type.version = .A
  · rw [if_pos hc] at h h'
    exact of_map (opt_tmc env st o g) h h'
  rw [if_neg hc] at h h'
  clear hc
  by_cases hc : g.type.number = 9 ∧ g.type.version = .A
  · rw [if_pos hc] at h h'
    exact of_map rfl h h'
  rw [if_neg hc] at h h'
  clear hc
  by_cases hc : g.type.number = 15 ∧ g.type.version = .A
  · rw [if_pos hc] at h h'
    have := Option.some.inj h
    subst this
    have := Option.some.inj h'
    subst this
    exact twin_15A env st g hp hg.longPs
  rw [if_neg hc] at h h'
  clear hc
  exact of_map (opt_oda env st o g) h h'
end

end Redsea
