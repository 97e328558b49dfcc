import Verif.Lemmas.OutputOptions
import Verif.Lemmas.Utf8Station
import Verif.Lemmas.PlainMembers

/-
The same received with different options.
-/

namespace Redsea

/-! ### Objects -/

/-- The members of an object. -/
def J.parts : J → List (String × J)
  | .obj l => l
  | _ => []

/-- A member that is left out makes no difference. -/
theorem member_dropped {p : String → Bool} {k : String} (hp : p k = false) (f : J → Option J) (l l' : List (String × J))
    (h : updateMember k f l = some l') : l'.filter (fun m => p m.1) = l.filter fun m => p m.1 := by
  induction l generalizing l' with
  | nil =>
    obtain ⟨v, -, rfl⟩ := Option.map_eq_some_iff.mp h
    simp [hp]
  | cons m l ih =>
    obtain ⟨k', v⟩ := m
    unfold updateMember at h
    split at h
    · rename_i hk
      subst hk
      obtain ⟨v', -, rfl⟩ := Option.map_eq_some_iff.mp h
      simp [hp]
    · obtain ⟨l1, h1, rfl⟩ := Option.map_eq_some_iff.mp h
      rw [List.filter_cons, List.filter_cons, ih l1 h1]

theorem member_kept {p : String → Bool} {k : String} (hp : p k = true) (f : J → Option J) (l l' : List (String × J))
    (h : updateMember k f l = some l') :
    updateMember k f (l.filter fun m => p m.1) = some (l'.filter fun m => p m.1) := by
  induction l generalizing l' with
  | nil =>
    obtain ⟨v, hv, rfl⟩ := Option.map_eq_some_iff.mp h
    simp [updateMember, hv, hp]
  | cons m l ih =>
    obtain ⟨k', v⟩ := m
    unfold updateMember at h
    split at h
    · rename_i hk
      subst hk
      obtain ⟨v', hv, rfl⟩ := Option.map_eq_some_iff.mp h
      simp [updateMember, hv, hp]
    · rename_i hk
      obtain ⟨l1, h1, rfl⟩ := Option.map_eq_some_iff.mp h
      by_cases hp' : p k' = true
      · simp [updateMember, hk, hp', ih l1 h1]
      · simp [hp', ih l1 h1]

/-- The function that an operation applies to its member. -/
def JOp.action : JOp → J → Option J
  | .set _ v => fun _ => some v
  | .push _ v => J.pushBack v
  | .touch _ => some

theorem apply_action (op : JOp) (j : J) : op.apply j = j.update op.path op.action := by
  cases op <;> rfl

theorem apply_parts {op : JOp} {k : String} (hk : op.key = some k) {j j' : J} (h : op.apply j = some j') :
    ∃ f l', updateMember k f j.parts = some l' ∧ j' = .obj l' ∧ ∀ l, op.apply (.obj l) = (updateMember k f l).map .obj := by
  rw [apply_action] at h
  unfold JOp.key at hk
  cases hp : op.path with
  | nil => rw [hp] at hk; cases hk
  | cons a path =>
    rw [hp] at hk h
    cases hk
    refine ⟨J.update path op.action, ?_⟩
    have e : ∀ l, op.apply (.obj l) = (updateMember k (J.update path op.action) l).map .obj := by
      intro l
      rw [apply_action, hp, J.update]
    cases j with
    | null =>
      obtain ⟨l, h1, rfl⟩ := Option.map_eq_some_iff.mp h
      exact ⟨l, h1, rfl, e⟩
    | obj m =>
      obtain ⟨l, h1, rfl⟩ := Option.map_eq_some_iff.mp h
      exact ⟨l, h1, rfl, e⟩
    | _ => cases h

/-- Performing only the operations on some members gives these members. -/
theorem build_kept (p : String → Bool) (ops : List JOp) (hk : ∀ op ∈ ops, ∃ k, op.key = some k) (j r : J)
    (h : J.build ops j = some r) :
    J.build (keptOps p ops) (.obj (j.parts.filter fun m => p m.1)) = some (.obj (r.parts.filter fun m => p m.1)) := by
  induction ops generalizing j with
  | nil =>
    have : j = r := by simpa [J.build] using h
    rw [this]
    rfl
  | cons op ops ih =>
    rw [build_cons] at h
    obtain ⟨j1, h1, h2⟩ := Option.bind_eq_some_iff.mp h
    have := ih (fun x hx => hk x (List.mem_cons_of_mem _ hx)) j1 h2
    obtain ⟨k, hop⟩ := hk op List.mem_cons_self
    obtain ⟨f, l', hl, rfl, hall⟩ := apply_parts hop h1
    by_cases hp : p k = true
    · have e : keptOps p (op :: ops) = op :: keptOps p ops := by
        unfold keptOps
        rw [List.filter_cons, if_pos (by rw [hop]; simpa using hp)]
      rw [e, build_cons, hall, member_kept hp f _ _ hl]
      exact this
    · have hp : p k = false := by simpa using hp
      have e : keptOps p (op :: ops) = keptOps p ops := by
        unfold keptOps
        rw [List.filter_cons, if_neg (by rw [hop]; simp [hp])]
      rw [e, ← member_dropped hp f _ _ hl]
      exact this

theorem utf8_split (p : String → Bool) (l : List (String × J)) : J.utf8Members l =
    (J.utf8Members (l.filter fun m => p m.1) && J.utf8Members (l.filter fun m => !p m.1)) := by
  induction l with
  | nil => rfl
  | cons m l ih =>
    rw [J.utf8Members, ih, List.filter_cons, List.filter_cons]
    cases p m.1
    · simp only [Bool.false_eq_true, if_false, Bool.not_false, if_true, J.utf8Members]
      cases m.2.utf8 <;> simp
    · simp only [Bool.not_true, Bool.false_eq_true, if_false, if_true, J.utf8Members, Bool.and_assoc]

/-- Two objects that were built with the same operations, except for those on some members. -/
theorem build_same (p : String → Bool) {ops ops' : List JOp} (hk : ∀ op ∈ ops, ∃ k, op.key = some k)
    (hk' : ∀ op ∈ ops', ∃ k, op.key = some k) (he : keptOps p ops' = keptOps p ops) {j j' : J}
    (h : J.build ops .null = some j) (h' : J.build ops' .null = some j') :
    (j'.parts.filter fun m => p m.1) = j.parts.filter fun m => p m.1 := by
  have h1 := build_kept p ops hk _ _ h
  have h2 := build_kept p ops' hk' _ _ h'
  rw [he, h1] at h2
  have := Option.some.inj h2
  injection this with this
  exact this.symm

/-- The strings of an object are those in some members and those in the others. -/
theorem build_dropped (p : String → Bool) {ops : List JOp} (hk : ∀ op ∈ ops, ∃ k, op.key = some k)
    (hu : OpsUtf8 (keptOps (fun k => !p k) ops)) {j : J} (h : J.build ops .null = some j) :
    J.utf8Members j.parts = J.utf8Members (j.parts.filter fun m => p m.1) := by
  have h1 := build_kept (fun k => !p k) ops hk _ _ h
  have := build_utf8 _ hu _ _ (by rfl) h1
  rw [utf8_split p, show J.utf8Members (j.parts.filter fun m => !p m.1) = true from this, Bool.and_true]

/-! ### Lines -/

/-- The names that are not left out. -/
def keptName (o o' : Options) (k : String) : Bool := decide (k ∉ optionMembers o o')

section
variable {o o' : Options}

theorem kept_partial (h : o'.showPartial ≠ o.showPartial) : ∀ k ∈ partialMembers, keptName o o' k = false := by
  intro k hk
  unfold keptName optionMembers
  rw [if_neg (fun e => h e.symm)]
  simp [hk]

theorem kept_raw (h : o'.showRaw ≠ o.showRaw) : ∀ k ∈ ["raw_data"], keptName o o' k = false := by
  intro k hk
  unfold keptName optionMembers
  rw [if_neg (c := o.showRaw = o'.showRaw) (fun e => h e.symm)]
  rw [List.mem_singleton.mp hk]
  simp

theorem kept_time (h : ¬(o.timestamp = o'.timestamp ∧ (o.timestamp = true → o.timeFormat = o'.timeFormat))) :
    ∀ k ∈ ["rx_time"], keptName o o' k = false := by
  intro k hk
  unfold keptName optionMembers
  rw [if_neg h, List.mem_singleton.mp hk]
  simp

theorem kept_bler (h : o'.bler ≠ o.bler) : ∀ k ∈ ["bler"], keptName o o' k = false := by
  intro k hk
  unfold keptName optionMembers
  rw [if_neg (c := o.bler = o'.bler) (fun e => h e.symm), List.mem_singleton.mp hk]
  simp

theorem kept_stream (h : o'.streams ≠ o.streams) : ∀ k ∈ ["stream"], keptName o o' k = false := by
  intro k hk
  unfold keptName optionMembers
  rw [if_neg (c := o.streams = o'.streams) (fun e => h e.symm), List.mem_singleton.mp hk]
  simp

theorem kept_channel (h : o'.numChannels ≠ o.numChannels) : ∀ k ∈ ["channel"], keptName o o' k = false := by
  intro k hk
  unfold keptName optionMembers
  rw [if_neg (c := o.numChannels = o'.numChannels) (fun e => h e.symm), List.mem_singleton.mp hk]
  simp

variable (env : Env) (f : Int → Str) (st : Station) (g : Group) (t : Option Int) (b : Option Nat)

theorem twin_header (ho : st.options = o) (hr : o'.rbds = o.rbds)
    (hf : o.timeFormat = o'.timeFormat → f = env.formatTime)
    (ht : o.timestamp = o'.timestamp → t = g.time) (hb : o.bler = o'.bler → b = g.bler) :
    keptOps (keptName o o') ((st.opt o').headerOps (env.clock f) (g.tag t b)) =
      keptOps (keptName o o') (st.headerOps env g) := by
  unfold Station.headerOps
  simp only [kept_append]
  have h1 : keptOps (keptName o o') ((st.opt o').streamOps (g.tag t b)) = keptOps (keptName o o') (st.streamOps g) := by
    unfold Station.streamOps
    rw [ho]
    refine kept_demand (x := o.streams) (y := o'.streams) kept_stream ?_
    intro op hop
    rw [List.mem_singleton.mp hop]
    exact ⟨"stream", by simp, rfl⟩
  have h2 : (st.opt o').piOps (g.tag t b) = st.piOps g := by
    unfold Station.piOps
    rw [ho, show (st.opt o').options.rbds = o.rbds from hr]
    rfl
  have h3 : keptOps (keptName o o') (Station.timeOps (env.clock f) (st.opt o') (g.tag t b)) =
      keptOps (keptName o o') (Station.timeOps env st g) := by
    unfold Station.timeOps
    rw [ho]
    by_cases hc : o.timestamp = o'.timestamp ∧ (o.timestamp = true → o.timeFormat = o'.timeFormat)
    · rw [show (st.opt o').options.timestamp = o.timestamp from hc.1.symm]
      cases hts : o.timestamp with
      | false => rfl
      | true =>
        rw [show (env.clock f).formatTime = env.formatTime from hf (hc.2 hts),
          show (g.tag t b).time = g.time from ht hc.1]
    · have h := kept_time hc
      have k : ∀ s : Str, ∀ op ∈ [JOp.set ["rx_time"] (.str s)], ∃ k ∈ ["rx_time"], op.key = some k := by
        intro s op hop
        rw [List.mem_singleton.mp hop]
        exact ⟨"rx_time", by simp, rfl⟩
      have e : ∀ (x : Bool) (s : Str), keptOps (keptName o o') (if x then [JOp.set ["rx_time"] (.str s)] else []) = [] := by
        intro x s
        cases x
        · rfl
        · exact kept_none h (k s)
      rw [e, e]
  have h4 : keptOps (keptName o o') (Station.blerOps (g.tag t b)) = keptOps (keptName o o') (Station.blerOps g) := by
    by_cases hc : o.bler = o'.bler
    · unfold Station.blerOps
      rw [show (g.tag t b).bler = g.bler from hb hc]
    · have h := kept_bler (o := o) (o' := o') (fun e => hc e.symm)
      have e : ∀ g : Group, keptOps (keptName o o') (Station.blerOps g) = [] := by
        intro g
        refine kept_none h ?_
        intro op hop
        unfold Station.blerOps at hop
        rw [Option.mem_toList] at hop
        obtain ⟨q, -, rfl⟩ := Option.map_eq_some_iff.mp hop
        exact ⟨"bler", by simp, rfl⟩
      rw [e, e]
  have h5 : keptOps (keptName o o') (st.opt o').channelOps = keptOps (keptName o o') st.channelOps := by
    unfold Station.channelOps
    rw [ho]
    by_cases hc : o.numChannels = o'.numChannels
    · rw [show (st.opt o').options.numChannels = o.numChannels from hc.symm]
      rfl
    · have h := kept_channel (o := o) (o' := o') (fun e => hc e.symm)
      have e : ∀ (x : Prop) [Decidable x] (n : Nat), keptOps (keptName o o') (if x then [JOp.set ["channel"] (.nat n)] else []) = [] := by
        intro x _ n
        split
        · refine kept_none h ?_
          intro op hop
          rw [List.mem_singleton.mp hop]
          exact ⟨"channel", by simp, rfl⟩
        · rfl
      rw [e, e]
  have h6 : keptOps (keptName o o') ((st.opt o').rawOps (g.tag t b)) = keptOps (keptName o o') (st.rawOps g) := by
    unfold Station.rawOps
    rw [ho, show (g.tag t b).printHex = g.printHex from rfl]
    refine kept_demand (x := o.showRaw) (y := o'.showRaw) kept_raw ?_
    intro op hop
    rw [List.mem_singleton.mp hop]
    exact ⟨"raw_data", by simp, rfl⟩
  rw [h1, h2, h3, h4, h5, h6]

end


/-! ### One group -/

/-- What is printed for a group by two stations with different options. -/
def LinePair (o o' : Options) (valid : Prop) (x y : Option Line) : Prop :=
  (x = none ∧ y = none) ∨ ∃ j j', x = some (printJson j) ∧ y = some (printJson j') ∧
    SameOthers (optionMembers o o') j j' ∧ (valid → o.showPartial = o'.showPartial → j'.utf8 = j.utf8) ∧
    (valid → o.showPartial = false → j'.utf8 = true → j.utf8 = true) ∧
    (o.showPartial = false → ∀ k ∈ partialMembers, k ∉ j.parts.map Prod.fst)

theorem opt_checkPI (st : Station) (o : Options) (g : Group) (t : Option Int) (b : Option Nat) :
    (st.opt o).checkPI (g.tag t b) = ((st.checkPI g).1.opt o, (st.checkPI g).2) := by
  unfold Station.checkPI
  simp only [show (g.tag t b).hasPI = g.hasPI from rfl, show (g.tag t b).type = g.type from rfl,
    show (g.tag t b).isEmpty = g.isEmpty from rfl, show (st.opt o).lastGroupHadPi = st.lastGroupHadPi from rfl]
  repeat' split
  all_goals rfl

theorem basics_tag (st : Station) (g : Group) (t : Option Int) (b : Option Nat) :
    st.decodeBasics (g.tag t b) = st.decodeBasics g := rfl

theorem header_texts {env : Env} (hv : ∀ n, validUtf8 (env.formatTime n) = true) (st : Station) (g : Group) :
    OpsUtf8 (st.headerOps env g) := by
  unfold Station.headerOps Station.streamOps Station.piOps Station.timeOps Station.blerOps Station.channelOps
    Station.rawOps
  have := utf8_of_valid _ (hv (g.time.getD 0))
  ops_utf8

theorem ops_keys {env : Env} {st : Station} {g : Group} {basics body : List JOp}
    (hbk : ∀ op ∈ basics, ∃ k, op.key = some k ∧ k ∈ ["group", "tp", "prog_type"]) (hok : OpsOk body) :
    ∀ op ∈ st.headerOps env g ++ basics ++ body, ∃ k, op.key = some k := by
  intro op hop
  rw [List.mem_append, List.mem_append] at hop
  rcases hop with (hop | hop) | hop
  · obtain ⟨k, h1, -⟩ := header_keys env st g op hop
    exact ⟨k, h1⟩
  · obtain ⟨k, h1, -⟩ := hbk op hop
    exact ⟨k, h1⟩
  · obtain ⟨k, h1, -⟩ := free_key (hok op hop).2 (k := "pi") (by decide)
    exact ⟨k, h1⟩

/-- The names that depend on options other than `-p` are names in the first part of a line. -/
theorem optionMembers_header {o o' : Options} {k : String} (h : keptName o o' k = false) :
    (o.showPartial ≠ o'.showPartial ∧ k ∈ partialMembers) ∨ k ∈ ["raw_data", "rx_time", "bler", "stream", "channel"] := by
  unfold keptName optionMembers at h
  simp only [List.mem_append, decide_eq_false_iff_not, Decidable.not_not] at h
  rcases h with ((((h | h) | h) | h) | h) | h
  · split at h
    · cases h
    · rename_i hne
      exact .inl ⟨hne, h⟩
  all_goals
    refine .inr ?_
    split at h <;> simp_all

theorem dropped_texts {o o' : Options} {env : Env} (hv : ∀ n, validUtf8 (env.formatTime n) = true) {st : Station} {g : Group}
    {basics body : List JOp} (hp : o.showPartial = o'.showPartial ∨ KeysIn plainMembers body)
    (hbk : ∀ op ∈ basics, ∃ k, op.key = some k ∧ k ∈ ["group", "tp", "prog_type"]) (hok : OpsOk body) :
    OpsUtf8 (keptOps (fun k => !keptName o o' k) (st.headerOps env g ++ basics ++ body)) := by
  intro op hop
  unfold keptOps at hop
  obtain ⟨hop, hn⟩ := List.mem_filter.mp hop
  rw [List.mem_append, List.mem_append] at hop
  rcases hop with (hop | hop) | hop
  · exact header_texts hv st g op hop
  · obtain ⟨k, h1, h2⟩ := hbk op hop
    rw [h1] at hn
    have := optionMembers_header (o := o) (o' := o') (k := k) (by simpa using hn)
    simp only [partialMembers, List.mem_cons, List.not_mem_nil, or_false] at h2 this
    rcases h2 with rfl | rfl | rfl <;> simp at this
  · obtain ⟨k, h1, -⟩ := free_key (hok op hop).2 (k := "pi") (by decide)
    rw [h1] at hn
    rcases optionMembers_header (o := o) (o' := o') (k := k) (by simpa using hn) with ⟨hne, hk⟩ | this
    · rcases hp with hp | hp
      · exact absurd hp hne
      · obtain ⟨k', h2, h3⟩ := hp op hop
        rw [h1] at h2
        cases h2
        have : ∀ k ∈ partialMembers, k ∉ plainMembers := by decide
        exact absurd h3 (this k hk)
    · have hr : k ∈ reservedKeys := by
        simp only [List.mem_cons, List.not_mem_nil, or_false] at this
        rcases this with rfl | rfl | rfl | rfl | rfl <;> decide
      obtain ⟨k', h2, h3⟩ := free_key (hok op hop).2 hr
      rw [h1] at h2
      exact absurd (Option.some.inj h2) h3

/-- Without `-p` the members for partial data are not there. -/
theorem no_partial {env : Env} {st : Station} {g : Group} {basics body : List JOp} (hp : KeysIn plainMembers body)
    (hbk : ∀ op ∈ basics, ∃ k, op.key = some k ∧ k ∈ ["group", "tp", "prog_type"]) {j : J}
    (h : J.build (st.headerOps env g ++ basics ++ body) .null = some j) :
    ∀ k ∈ partialMembers, k ∉ j.parts.map Prod.fst := by
  intro k hk hm
  have keys : KeysIn (commonMembers ++ plainMembers) (st.headerOps env g ++ basics ++ body) :=
    keys_append (keys_append (keys_mono (header_keys env st g) fun k hk => List.mem_append_left _ hk)
      (keys_mono (s := ["group", "tp", "prog_type"]) hbk fun k hk => List.mem_append_left _ (by
        revert k; simp [commonMembers])))
      (keys_mono hp fun k hk => List.mem_append_right _ hk)
  have e : keptOps (fun n => decide (n = k)) (st.headerOps env g ++ basics ++ body) = [] := by
    unfold keptOps
    rw [List.filter_eq_nil_iff]
    intro op hop he
    obtain ⟨k', h1, h2⟩ := keys op hop
    rw [h1] at he
    have : k' = k := by simpa using he
    subst this
    have : ∀ k ∈ partialMembers, k ∉ commonMembers ++ plainMembers := by decide
    exact this _ hk h2
  have hb := build_kept (fun n => decide (n = k)) _ (fun op hop => by
    obtain ⟨k', h1, -⟩ := keys op hop
    exact ⟨k', h1⟩) _ _ h
  rw [e] at hb
  have hb := Option.some.inj hb
  injection hb with hb
  obtain ⟨m, hm1, hm2⟩ := List.mem_map.mp hm
  have : m ∈ j.parts.filter fun m => decide (m.1 = k) := List.mem_filter.mpr ⟨hm1, by simpa using hm2⟩
  rw [← hb] at this
  cases this

theorem ops_nonempty {env : Env} {st st' : Station} {g : Group} {basics : List JOp} (body : List JOp)
    (hb : st'.decodeBasics g = some basics) : st.headerOps env g ++ basics ++ body ≠ [] := by
  intro he
  obtain ⟨he1, -⟩ := List.append_eq_nil_iff.mp he
  obtain ⟨he1, he2⟩ := List.append_eq_nil_iff.mp he1
  by_cases hv : g.type.version = .C
  · exact basics_nonempty _ g hv basics hb he2
  · exact headerOps_nonempty env st g hv he1

theorem object_parts {j : J} (h : j.isObject) : j = .obj j.parts := by
  cases j with
  | obj l => rfl
  | _ => cases h

/-- One group, handled by two stations that differ in their options. -/
theorem twin_update {o o' : Options} (env : Env) (hk : env.tmc.KeysOk) (f : Int → Str) (st : Station) (g : Group)
    (t : Option Int) (b : Option Nat) (ho : st.options = o) (hr : o'.rbds = o.rbds)
    (hf : o.timeFormat = o'.timeFormat → f = env.formatTime)
    (ht : o.timestamp = o'.timestamp → t = g.time) (hb : o.bler = o'.bler → b = g.bler)
    (hg : st.Good) (hg' : (st.opt o').Good) {s1 s1' : Station} {x y : Option Line}
    (h : st.updateAndPrint env g = some (s1, x))
    (h' : (st.opt o').updateAndPrint (env.clock f) (g.tag t b) = some (s1', y)) :
    s1' = s1.opt o' ∧
      LinePair o o' ((∀ n, validUtf8 (env.formatTime n) = true) ∧ ∀ n, validUtf8 (f n) = true) x y := by
  obtain ⟨sa, xa, ha, -, an, al⟩ := updateAndPrint_parts env hk st g hg
  rw [h] at ha
  cases ha
  obtain ⟨sb, xb, hb', -, bn, bl⟩ := updateAndPrint_parts (env.clock f) hk (st.opt o') (g.tag t b) hg'
  rw [h'] at hb'
  cases hb'
  rw [opt_checkPI, show (st.opt o').hasPi = st.hasPi from rfl] at bn bl
  dsimp only at bn bl
  cases x with
  | none =>
    have an := an rfl
    cases y with
    | none =>
      have bn := bn rfl
      refine ⟨?_, .inl ⟨rfl, rfl⟩⟩
      rcases an with ⟨a1, rfl⟩ | ⟨a1, a2, rfl⟩ <;> rcases bn with ⟨b1, rfl⟩ | ⟨b1, b2, rfl⟩
      · rfl
      · rw [a1] at b1; cases b1
      · rw [a1] at b1; cases b1
      · rfl
    | some l =>
      obtain ⟨-, -, -, -, -, b1, b2, -⟩ := bl l rfl
      rcases an with ⟨a1, -⟩ | ⟨-, a2, -⟩
      · rw [a1] at b1; cases b1
      · rw [a2] at b2; cases b2
  | some l =>
    obtain ⟨basics, body, j, hj, rfl, a1, a2, hbs, hd, hbk, hok, -⟩ := al l rfl
    cases y with
    | none =>
      have bn := bn rfl
      rcases bn with ⟨b1, -⟩ | ⟨-, b2, -⟩
      · rw [a1] at b1; cases b1
      · rw [a2] at b2; cases b2
    | some l' =>
      obtain ⟨basics', body', j', hj', rfl, -, -, hbs', hd', hbk', hok', -⟩ := bl l' rfl
      have hgc : (st.checkPI g).1.Good := checkPI_good st g hg
      have hoc : (st.checkPI g).1.options = o := by
        rw [← ho]
        unfold Station.checkPI
        repeat' split
        all_goals rfl
      rw [basics_tag, opt_basics _ _ _ (by rw [hoc]; exact hr), hbs] at hbs'
      cases hbs'
      have hbody : s1' = s1.opt o' ∧ keptOps (keptName o o') body' = keptOps (keptName o o') body := by
        rw [show (g.tag t b).hasType = g.hasType from rfl] at hd'
        by_cases hty : g.hasType = true
        · rw [if_pos hty] at hd hd'
          rw [tag_dispatch, clock_dispatch] at hd'
          exact twin_dispatch (p := keptName o o') env (st.checkPI g).1 g (fun _ _ => by rw [hoc]; exact hr)
            (fun hne => kept_partial (by rw [hoc] at hne; exact hne)) hgc hd hd'
        · rw [if_neg hty] at hd hd'
          cases hd
          cases hd'
          exact ⟨rfl, rfl⟩
      refine ⟨hbody.1, .inr ⟨j, j', rfl, rfl, ?_⟩⟩
      have k1 := ops_keys (env := env) (st := st) (g := g) hbk hok
      have k2 := ops_keys (env := env.clock f) (st := st.opt o') (g := g.tag t b) hbk' hok'
      have e : keptOps (keptName o o') ((st.opt o').headerOps (env.clock f) (g.tag t b) ++ basics ++ body') =
          keptOps (keptName o o') (st.headerOps env g ++ basics ++ body) := by
        rw [kept_append, kept_append, kept_append, kept_append, twin_header env f st g t b ho hr hf ht hb, hbody.2]
      have same := build_same (keptName o o') k1 k2 e hj hj'
      have o1 := object_parts (build_object _ k1 _ _ hj (.inl (ops_nonempty body hbs)))
      have o2 := object_parts (build_object _ k2 _ _ hj' (.inl (ops_nonempty (g := g.tag t b) body' hbs)))
      have plain : o.showPartial = false → KeysIn plainMembers body := by
        intro hsp
        by_cases hty : g.hasType = true
        · rw [if_pos hty] at hd
          exact plain_dispatch env _ g (by rw [hoc]; exact hsp) hgc.radiotext _ hd
        · rw [if_neg hty] at hd
          cases hd
          exact keys_nil
      refine ⟨⟨j.parts, j'.parts, o1, o2, same.symm⟩, fun hv hp => ?_, fun hv hp hu => ?_,
        fun hsp => no_partial (plain hsp) hbk hj⟩
      · rw [o1, o2]
        show J.utf8Members j'.parts = J.utf8Members j.parts
        rw [build_dropped (keptName o o') k1 (dropped_texts hv.1 (.inl hp) hbk hok) hj,
          build_dropped (keptName o o') k2 (dropped_texts (env := env.clock f) hv.2 (.inl hp) hbk' hok') hj', same]
      · rw [o2] at hu
        rw [o1]
        have hu : J.utf8Members j'.parts = true := hu
        show J.utf8Members j.parts = true
        rw [utf8_split (keptName o o'), Bool.and_eq_true] at hu
        rw [build_dropped (keptName o o') k1 (dropped_texts hv.1 (.inr (plain hp)) hbk hok) hj, ← same]
        exact hu.1

/-! ### Channels -/

/-- Two channels that have received the same with different options. -/
structure OptionTwin (o o' : Options) (c d : Channel) : Prop where
  options : c.options = o
  options' : d.options = o'
  stationOptions : c.station.options = o
  station : d.station = c.station.opt o'
  good : c.Good
  good' : d.Good
  cached : d.cachedPi = c.cachedPi
  streams : d.blockStreams = c.blockStreams
  which : d.whichChannel = c.whichChannel
  time : o.timestamp = o'.timestamp → d.lastRxTime = c.lastRxTime
  bler : o.bler = o'.bler → d.blerAverage = c.blerAverage

section
variable {o o' : Options} (s : SameReception o o') {env : Env} (hk : env.tmc.KeysOk) {f : Int → Str}
  (hf : o.timeFormat = o'.timeFormat → f = env.formatTime)

theorem pair_bler {c d : Channel} (w : OptionTwin o o' c d) {g : Group} {t : Option Int} {b : Option Nat}
    (hb : o.bler = o'.bler → b = g.bler) {c1 d1 : Channel} {g1 g2 : Group}
    (h1 : c.addBler g = some (c1, g1)) (h2 : d.addBler (g.tag t b) = some (d1, g2)) :
    OptionTwin o o' c1 d1 ∧ ∃ b1, g2 = g1.tag t b1 ∧ (o.bler = o'.bler → b1 = g1.bler) ∧ g1.time = g.time := by
  obtain ⟨ca, ga, e1, k1⟩ := addBler_good c g w.good
  rw [h1] at e1
  cases e1
  obtain ⟨da, gb, e2, k2⟩ := addBler_good d (g.tag t b) w.good'
  rw [h2] at e2
  cases e2
  obtain ⟨x, r, rfl, rfl⟩ := addBler_group c g c1 g1 h1
  obtain ⟨x', r', rfl, rfl⟩ := addBler_group d (g.tag t b) d1 g2 h2
  have key : o.bler = o'.bler → x' = x ∧ r' = r := by
    intro he
    unfold Channel.addBler at h1 h2
    rw [w.options] at h1
    rw [w.options', ← he, w.bler he, show (g.tag t b).getNumErrors = g.getNumErrors from rfl] at h2
    cases hx : o.bler with
    | false =>
      rw [hx] at h1 h2
      simp only [Bool.false_eq_true, if_false, Option.some.injEq, Prod.mk.injEq] at h1 h2
      have e3 : c.blerAverage = r := congrArg Channel.blerAverage h1.1
      have e4 : d.blerAverage = r' := congrArg Channel.blerAverage h2.1
      have e5 : g.bler = x := congrArg Group.bler h1.2
      have e6 : b = x' := congrArg Group.bler h2.2
      refine ⟨?_, ?_⟩
      · rw [← e6, hb he, e5]
      · rw [← e4, w.bler he, e3]
    | true =>
      rw [hx] at h1 h2
      simp only [if_true, Option.bind_eq_bind, Option.bind_eq_some_iff, Option.pure_def, Option.some.injEq,
        Prod.mk.injEq] at h1 h2
      obtain ⟨a, ha, h1, h1'⟩ := h1
      obtain ⟨a', ha', h2, h2'⟩ := h2
      rw [ha] at ha'
      cases ha'
      have e3 : a = r := congrArg Channel.blerAverage h1
      have e4 : a = r' := congrArg Channel.blerAverage h2
      have e5 : some a.sum.toNat = x := congrArg Group.bler h1'
      have e6 : some a.sum.toNat = x' := congrArg Group.bler h2'
      exact ⟨by rw [← e6, e5], by rw [← e4, e3]⟩
  refine ⟨⟨w.options, w.options', w.stationOptions, w.station, k1, k2, w.cached, w.streams, w.which, w.time,
    fun he => (key he).2⟩, x', rfl, fun he => (key he).1, rfl⟩

theorem mark_tag (g : Group) (t : Option Int) (b : Option Nat) (n : Nat) :
    Channel.markStream (g.tag t b) n = (Channel.markStream g n).tag t b ∧ (Channel.markStream g n).time = g.time ∧
      (Channel.markStream g n).bler = g.bler := by
  unfold Channel.markStream
  split <;> exact ⟨rfl, rfl, rfl⟩

theorem pair_pi {c d : Channel} (w : OptionTwin o o' c d) (g : Group) (t : Option Int) (b : Option Nat) :
    OptionTwin o o' (c.updatePI g) (d.updatePI (g.tag t b)) := by
  have k1 := updatePI_good c g w.good
  have k2 := updatePI_good d (g.tag t b) w.good'
  unfold Channel.updatePI at k1 k2 ⊢
  rw [show (g.tag t b).hasPI = g.hasPI from rfl, show (g.tag t b).getPI = g.getPI from rfl, w.cached] at k2 ⊢
  dsimp only at k1 k2 ⊢
  by_cases h1 : g.hasPI = true
  · rw [if_pos h1] at k1 k2 ⊢
    rw [if_pos h1]
    by_cases h2 : (c.cachedPi.update g.getPI).2 = .changeConfirmed
    · rw [if_pos h2] at k1 k2 ⊢
      rw [if_pos h2]
      refine ⟨w.options, w.options', w.options, ?_, k1, k2, rfl, w.streams, w.which, w.time, w.bler⟩
      dsimp only
      rw [w.options', w.which]
      rfl
    · rw [if_neg h2] at k1 k2 ⊢
      rw [if_neg h2]
      exact ⟨w.options, w.options', w.stationOptions, w.station, k1, k2, rfl, w.streams, w.which, w.time, w.bler⟩
  · rw [if_neg h1] at k1 k2 ⊢
    rw [if_neg h1]
    exact w

/-- What is printed when two channels handle a group. -/
abbrev PairOk (o o' : Options) (env : Env) (f : Int → Str) (h k : Handled) : Prop :=
  LinePair o o' ((∀ n, validUtf8 (env.formatTime n) = true) ∧ ∀ n, validUtf8 (f n) = true) h.line k.line

include s hk hf in
theorem pair_handle {c d : Channel} (w : OptionTwin o o' c d) {g : Group} {t : Option Int} {b : Option Nat}
    (ht : o.timestamp = o'.timestamp → t = g.time) (hb : o.bler = o'.bler → b = g.bler) {n : Nat} {c' d' : Channel}
    {h k : Handled} (h1 : c.handleGroup env g n = some (c', h))
    (h2 : d.handleGroup (env.clock f) (g.tag t b) n = some (d', k)) :
    OptionTwin o o' c' d' ∧ PairOk o o' env f h k := by
  obtain ⟨ca, ra, e1, k1⟩ := handleGroup_good env hk c g n w.good
  rw [h1] at e1
  cases e1
  obtain ⟨da, rb, e2, k2⟩ := handleGroup_good (env.clock f) hk d (g.tag t b) n w.good'
  rw [h2] at e2
  cases e2
  obtain ⟨c1, g1, a1, a2, a3⟩ := handleGroup_parts h1
  obtain ⟨d1, g2, b1, b2, b3⟩ := handleGroup_parts h2
  obtain ⟨w1, x, rfl, hx, htm⟩ := pair_bler w hb a1 b1
  obtain ⟨m1, m2, m3⟩ := mark_tag g1 t x n
  rw [m1] at b2
  rw [a2] at a3
  rw [b2] at b3
  generalize hgm : Channel.markStream g1 n = gm at *
  have w2 := pair_pi w1 gm t x
  generalize c1.updatePI gm = c2 at *
  generalize d1.updatePI (gm.tag t x) = d2 at *
  unfold Channel.output at a3 b3
  rw [if_neg (by rw [w2.options]; exact s.json)] at a3
  rw [if_neg (by rw [w2.options']; exact s.json'), w2.station] at b3
  obtain ⟨⟨s1, l1⟩, u1, a3⟩ := Option.bind_eq_some_iff.mp a3
  obtain ⟨⟨s2, l2⟩, u2, b3⟩ := Option.bind_eq_some_iff.mp b3
  have q1 := Option.some.inj a3
  have q2 := Option.some.inj b3
  simp only [Prod.mk.injEq] at q1 q2
  obtain ⟨rfl, rfl⟩ := q1
  obtain ⟨rfl, rfl⟩ := q2
  obtain ⟨v1, v2⟩ := twin_update env hk f c2.station gm t x w2.stationOptions s.rbds hf
    (fun he => by rw [ht he, m2, htm]) (fun he => by rw [hx he, m3]) w2.good.station
    (by rw [← w2.station]; exact w2.good'.station) u1 u2
  refine ⟨⟨w2.options, w2.options', ?_, v1, k1, k2, w2.cached, w2.streams, w2.which, w2.time, w2.bler⟩, v2⟩
  obtain ⟨st', line, e1, -, hn, hl⟩ := updateAndPrint_parts env hk c2.station gm w2.good.station
  rw [u1] at e1
  cases e1
  have hoc : (c2.station.checkPI gm).1.options = c2.station.options := by
    unfold Station.checkPI
    repeat' split
    all_goals rfl
  show s1.options = o
  cases hh : h.line with
  | none =>
    rcases hn hh with ⟨-, e⟩ | ⟨-, -, e⟩
    · rw [e]; exact w2.stationOptions
    · rw [e, hoc]; exact w2.stationOptions
  | some l =>
    obtain ⟨-, -, -, -, -, -, -, -, -, -, -, hfr⟩ := hl l hh
    rw [hfr.options, hoc]
    exact w2.stationOptions

include s hk hf in
theorem pair_group {c d : Channel} (w : OptionTwin o o' c d) {now : Int} {g : Group} {t : Option Int} {b : Option Nat}
    (ht : o.timestamp = o'.timestamp → t = g.time) (hb : o.bler = o'.bler → b = g.bler) {n : Nat} {c' d' : Channel}
    {h k : Handled} (h1 : c.processGroup env now g n = some (c', h))
    (h2 : d.processGroup (env.clock f) now (g.tag t b) n = some (d', k)) :
    OptionTwin o o' c' d' ∧ PairOk o o' env f h k := by
  have key : ∃ c1 d1 t1 t2, OptionTwin o o' c1 d1 ∧ c.stampGroup now g = (c1, g.tag t1 g.bler) ∧
      d.stampGroup now (g.tag t b) = (d1, (g.tag t1 g.bler).tag t2 b) ∧ (o.timestamp = o'.timestamp → t2 = t1) := by
    unfold Channel.stampGroup
    rw [show c.options.timestamp = o.timestamp by rw [w.options], show d.options.timestamp = o'.timestamp by rw [w.options']]
    have keep : ∀ a a' : Int, (o.timestamp = o'.timestamp → a' = a) →
        OptionTwin o o' { c with lastRxTime := a } { d with lastRxTime := a' } := fun a a' ha =>
      ⟨w.options, w.options', w.stationOptions, w.station, ⟨w.good.station, w.good.streams, w.good.bler⟩,
        ⟨w.good'.station, w.good'.streams, w.good'.bler⟩, w.cached, w.streams, w.which, ha, w.bler⟩
    rw [show (g.tag t b).time = t from rfl]
    by_cases x1 : (o.timestamp && g.time.isNone) = true <;> by_cases x2 : (o'.timestamp && t.isNone) = true
    · rw [if_pos x1, if_pos x2]
      refine ⟨_, _, some (if now < c.lastRxTime then c.lastRxTime else now),
        some (if now < d.lastRxTime then d.lastRxTime else now), keep now now (fun _ => rfl), rfl, rfl, ?_⟩
      intro he
      rw [w.time he]
    · rw [if_pos x1, if_neg x2]
      refine ⟨_, _, some (if now < c.lastRxTime then c.lastRxTime else now), t, keep now d.lastRxTime ?_, rfl, rfl, ?_⟩
      all_goals
        intro he
        rw [← he, ht he] at x2
        exact absurd x1 x2
    · rw [if_neg x1, if_pos x2]
      refine ⟨_, _, g.time, some (if now < d.lastRxTime then d.lastRxTime else now), keep c.lastRxTime now ?_, rfl, rfl, ?_⟩
      all_goals
        intro he
        rw [← he, ht he] at x2
        exact absurd x2 x1
    · rw [if_neg x1, if_neg x2]
      exact ⟨c, d, g.time, t, w, rfl, rfl, ht⟩
  obtain ⟨c1, d1, t1, t2, w1, e1, e2, he⟩ := key
  unfold Channel.processGroup at h1 h2
  rw [e1] at h1
  rw [e2] at h2
  exact pair_handle s hk hf w1 (g := g.tag t1 g.bler) he hb h1 h2

include s in
theorem pair_push {c d : Channel} (w : OptionTwin o o' c d) {x : Bool} {n : Nat} {c' d' : Channel} {u v : Option Group}
    (h1 : c.pushBit x n = some (c', u)) (h2 : d.pushBit x n = some (d', v)) : OptionTwin o o' c' d' ∧ v = u := by
  unfold Channel.pushBit at h1 h2
  rw [show c.options.useFec = o.useFec by rw [w.options]] at h1
  rw [w.streams, show d.options.useFec = o.useFec by rw [w.options', s.fec]] at h2
  cases hs : c.blockStreams[n]? with
  | none => rw [hs] at h1; cases h1
  | some st =>
    rw [hs] at h1 h2
    simp only [Option.bind_eq_bind, Option.bind_some] at h1 h2
    have e1 := Option.some.inj h1
    have e2 := Option.some.inj h2
    simp only [Prod.mk.injEq] at e1 e2
    obtain ⟨rfl, rfl⟩ := e1
    obtain ⟨rfl, rfl⟩ := e2
    refine ⟨⟨w.options, w.options', w.stationOptions, w.station, ⟨w.good.station, ?_, w.good.bler⟩,
      ⟨w.good'.station, ?_, w.good'.bler⟩, w.cached, rfl, w.which, w.time, w.bler⟩, rfl⟩
    all_goals
      simp only [List.length_set]
      exact w.good.streams

include s hk hf in
theorem pair_bits {delay : Nat → Int} {tm : Int} {n : Nat} (bits : List Bool) {c d : Channel} {q r : Channel × List Handled}
    (w : OptionTwin o o' c d) (h1 : Channel.processBits env delay tm n c bits = some q)
    (h2 : Channel.processBits (env.clock f) delay tm n d bits = some r) :
    OptionTwin o o' q.1 r.1 ∧ List.Forall₂ (PairOk o o' env f) q.2 r.2 := by
  induction bits generalizing c d q r with
  | nil =>
    rw [← Option.some.inj h1, ← Option.some.inj h2]
    exact ⟨w, .nil⟩
  | cons b bits ih =>
    rw [Channel.processBits] at h1 h2
    simp only [Option.bind_eq_bind, Option.bind_eq_some_iff] at h1 h2
    obtain ⟨⟨c1, x⟩, a1, h1⟩ := h1
    obtain ⟨⟨d1, y⟩, a2, h2⟩ := h2
    obtain ⟨w1, rfl⟩ := pair_push s w a1 a2
    cases y with
    | none => exact ih w1 h1 h2
    | some g =>
      simp only [Option.bind_eq_some_iff] at h1 h2
      obtain ⟨⟨c2, h⟩, b1, ⟨c3, hs⟩, e1, h1⟩ := h1
      obtain ⟨⟨d2, k⟩, b2, ⟨d3, ks⟩, e2, h2⟩ := h2
      rw [← Option.some.inj h1, ← Option.some.inj h2]
      have hx : o.timestamp = o'.timestamp →
          (if tm - delay bits.length < d1.lastRxTime then d1.lastRxTime else tm - delay bits.length) =
            if tm - delay bits.length < c1.lastRxTime then c1.lastRxTime else tm - delay bits.length :=
        fun he => by rw [w1.time he]
      generalize (if tm - delay bits.length < c1.lastRxTime then c1.lastRxTime else tm - delay bits.length) = x1 at *
      generalize (if tm - delay bits.length < d1.lastRxTime then d1.lastRxTime else tm - delay bits.length) = x2 at *
      obtain ⟨w2, hp⟩ := pair_group s hk hf w1 (g := g.setTime x1) (t := some x2) (b := g.bler)
        (fun he => by rw [hx he]; rfl) (fun _ => rfl) b1 b2
      obtain ⟨w3, hps⟩ := ih (c := { c2 with lastRxTime := x1 }) (d := { d2 with lastRxTime := x2 })
        ⟨w2.options, w2.options', w2.stationOptions, w2.station, ⟨w2.good.station, w2.good.streams, w2.good.bler⟩,
        ⟨w2.good'.station, w2.good'.streams, w2.good'.bler⟩, w2.cached, w2.streams, w2.which, hx, w2.bler⟩ e1 e2
      exact ⟨w3, .cons hp hps⟩

include s hk hf in
theorem pair_flush {now : Nat → Int} (l : List Nat) {c d : Channel} {q r : Channel × List Handled}
    (w : OptionTwin o o' c d) (h1 : c.flushStreams env now l = some q) (h2 : d.flushStreams (env.clock f) now l = some r) :
    OptionTwin o o' q.1 r.1 ∧ List.Forall₂ (PairOk o o' env f) q.2 r.2 := by
  induction l generalizing c d q r with
  | nil =>
    rw [← Option.some.inj h1, ← Option.some.inj h2]
    exact ⟨w, .nil⟩
  | cons i l ih =>
    rw [Channel.flushStreams] at h1 h2
    rw [w.streams] at h2
    simp only [Option.bind_eq_bind, Option.bind_eq_some_iff] at h1 h2
    obtain ⟨x, a1, h1⟩ := h1
    obtain ⟨x', a2, h2⟩ := h2
    rw [a1] at a2
    obtain rfl := Option.some.inj a2
    by_cases he : x.flushCurrentGroup.isEmpty = true
    · rw [if_pos he] at h1 h2
      exact ih w h1 h2
    · rw [if_neg he] at h1 h2
      simp only [Option.bind_eq_some_iff] at h1 h2
      obtain ⟨⟨c2, h⟩, b1, ⟨c3, hs⟩, e1, h1⟩ := h1
      obtain ⟨⟨d2, k⟩, b2, ⟨d3, ks⟩, e2, h2⟩ := h2
      rw [← Option.some.inj h1, ← Option.some.inj h2]
      obtain ⟨w2, hp⟩ := pair_group s hk hf w (g := x.flushCurrentGroup) (t := x.flushCurrentGroup.time)
        (b := x.flushCurrentGroup.bler) (fun _ => rfl) (fun _ => rfl) b1 b2
      obtain ⟨w3, hps⟩ := ih w2 e1 e2
      exact ⟨w3, .cons hp hps⟩

/-- The lines of two channels, in pairs. -/
def LinesPair (o o' : Options) (env : Env) (f : Int → Str) (xs ys : List Line) : Prop :=
  List.Forall₂ (fun x y => PairOk o o' env f ⟨{}, some x⟩ ⟨{}, some y⟩) xs ys

theorem linesPair_append {a b a' b' : List Line} (h : LinesPair o o' env f a a') (h' : LinesPair o o' env f b b') :
    LinesPair o o' env f (a ++ b) (a' ++ b') := by
  unfold LinesPair at *
  induction h with
  | nil => exact h'
  | cons hx _ ih => exact .cons hx ih

theorem printedLines_one (t : Trace) (l : List Trace) : printedLines (t :: l) = printedLines [t] ++ printedLines l := by
  unfold printedLines
  exact List.filterMap_append (l := [t])

theorem linesPair_handled {hs ks : List Handled} (h : List.Forall₂ (PairOk o o' env f) hs ks) :
    LinesPair o o' env f (printedLines (hs.map .handled)) (printedLines (ks.map .handled)) := by
  induction h with
  | nil => exact .nil
  | @cons x y xs ys hx _ ih =>
    rw [List.map_cons, List.map_cons, printedLines_one, printedLines_one (.handled y)]
    refine linesPair_append ?_ ih
    rcases hx with ⟨e1, e2⟩ | hx
    · rw [show (printedLines [.handled x]) = [] by simp [printedLines, e1],
        show (printedLines [.handled y]) = [] by simp [printedLines, e2]]
      exact .nil
    · obtain ⟨j, j', e1, e2, h1⟩ := hx
      rw [show (printedLines [.handled x]) = [printJson j] by simp [printedLines, e1],
        show (printedLines [.handled y]) = [printJson j'] by simp [printedLines, e2]]
      exact .cons (.inr ⟨j, j', rfl, rfl, h1⟩) .nil

include s hk hf in
theorem pair_step {delay : Nat → Int} {c d : Channel} {e : ChannelEvent} {q r : Channel × List Trace}
    (w : OptionTwin o o' c d) (h1 : c.step env delay e = some q) (h2 : d.step (env.clock f) delay e = some r) :
    OptionTwin o o' q.1 r.1 ∧ LinesPair o o' env f (printedLines q.2) (printedLines r.2) := by
  cases e with
  | bit now b n =>
    simp only [Channel.step, Option.map_eq_some_iff] at h1 h2
    obtain ⟨⟨c1, hs⟩, h1, rfl⟩ := h1
    obtain ⟨⟨d1, ks⟩, h2, rfl⟩ := h2
    dsimp only
    unfold Channel.processBit at h1 h2
    simp only [Option.bind_eq_bind, Option.bind_eq_some_iff] at h1 h2
    obtain ⟨⟨c1, x⟩, a1, h1⟩ := h1
    obtain ⟨⟨d1, y⟩, a2, h2⟩ := h2
    obtain ⟨w1, rfl⟩ := pair_push s w a1 a2
    cases y with
    | none =>
      have e1 := Option.some.inj h1
      have e2 := Option.some.inj h2
      simp only [Prod.mk.injEq] at e1 e2
      obtain ⟨rfl, rfl⟩ := e1
      obtain ⟨rfl, rfl⟩ := e2
      exact ⟨w1, linesPair_handled .nil⟩
    | some g =>
      simp only [Option.bind_eq_some_iff] at h1 h2
      obtain ⟨⟨c2, h⟩, b1, h1⟩ := h1
      obtain ⟨⟨d2, k⟩, b2, h2⟩ := h2
      have e1 := Option.some.inj h1
      have e2 := Option.some.inj h2
      simp only [Prod.mk.injEq] at e1 e2
      obtain ⟨rfl, rfl⟩ := e1
      obtain ⟨rfl, rfl⟩ := e2
      obtain ⟨w2, hp⟩ := pair_group s hk hf w1 (g := g) (t := g.time) (b := g.bler) (fun _ => rfl) (fun _ => rfl) b1 b2
      exact ⟨w2, linesPair_handled (.cons hp .nil)⟩
  | bits tm l n =>
    simp only [Channel.step, Option.map_eq_some_iff] at h1 h2
    obtain ⟨⟨c1, hs⟩, h1, rfl⟩ := h1
    obtain ⟨⟨d1, ks⟩, h2, rfl⟩ := h2
    obtain ⟨w1, hp⟩ := pair_bits s hk hf l w h1 h2
    exact ⟨w1, linesPair_handled hp⟩
  | group now g n =>
    simp only [Channel.step, Option.map_eq_some_iff] at h1 h2
    obtain ⟨⟨c1, h⟩, h1, rfl⟩ := h1
    obtain ⟨⟨d1, k⟩, h2, rfl⟩ := h2
    obtain ⟨w2, hp⟩ := pair_group s hk hf w (g := g) (t := g.time) (b := g.bler) (fun _ => rfl) (fun _ => rfl) h1 h2
    exact ⟨w2, linesPair_handled (.cons hp .nil)⟩
  | flush now =>
    simp only [Channel.step, Option.map_eq_some_iff] at h1 h2
    obtain ⟨⟨c1, hs⟩, h1, rfl⟩ := h1
    obtain ⟨⟨d1, ks⟩, h2, rfl⟩ := h2
    obtain ⟨w1, hp⟩ := pair_flush s hk hf _ w h1 h2
    exact ⟨w1, linesPair_handled hp⟩
  | resetPI =>
    simp only [Channel.step, Option.some.injEq] at h1 h2
    subst h1 h2
    refine ⟨⟨w.options, w.options', w.stationOptions, w.station, ⟨w.good.station, w.good.streams, w.good.bler⟩,
      ⟨w.good'.station, w.good'.streams, w.good'.bler⟩, ?_, w.streams, w.which, w.time, w.bler⟩, .nil⟩
    show d.cachedPi.reset = c.cachedPi.reset
    rw [w.cached]

include s hk hf in
theorem pair_run {delay : Nat → Int} (es : List ChannelEvent) {c d : Channel} {q r : Channel × List Trace}
    (w : OptionTwin o o' c d) (h1 : Channel.run env delay c es = some q)
    (h2 : Channel.run (env.clock f) delay d es = some r) :
    LinesPair o o' env f (printedLines q.2) (printedLines r.2) := by
  induction es generalizing c d q r with
  | nil =>
    rw [← Option.some.inj h1, ← Option.some.inj h2]
    exact .nil
  | cons e es ih =>
    rw [Channel.run] at h1 h2
    simp only [Option.bind_eq_bind, Option.bind_eq_some_iff] at h1 h2
    obtain ⟨q1, a1, q2, b1, h1⟩ := h1
    obtain ⟨r1, a2, r2, b2, h2⟩ := h2
    rw [← Option.some.inj h1, ← Option.some.inj h2]
    obtain ⟨w1, hl⟩ := pair_step s hk hf w a1 a2
    have : ∀ a b : List Trace, printedLines (a ++ b) = printedLines a ++ printedLines b := fun a b => List.filterMap_append
    rw [this, this]
    exact linesPair_append hl (ih w1 b1 b2)

theorem pair_new (o o' : Options) (w : Nat) : OptionTwin o o' (Channel.new o w) (Channel.new o' w) :=
  ⟨rfl, rfl, rfl, rfl, channel_new_good o w, channel_new_good o' w, rfl, rfl, rfl, fun _ => rfl, fun _ => rfl⟩

end

end Redsea
