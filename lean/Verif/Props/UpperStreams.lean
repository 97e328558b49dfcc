import Verif.Lemmas.UpperSound
import Verif.Props.WallClock
import Verif.Props.Services

/-
Property C101: the upper data streams do not change what is printed for stream 0.
-/

namespace Redsea
open _root_.Spec _root_.Redsea.Spec

/-- **C101**: without receive times (`-t`) and block error rates (`-E`), whatever is received on the upper streams, the lines
printed for the groups of stream 0 are those that are printed when nothing else is received. -/
theorem C101_calls (env : Env) (delay : Nat → Int) (o : Options) (ht : o.timestamp = false) (hb : o.bler = false) (w : Nat)
    (es : List ChannelEvent) (hu : ∀ e ∈ es, e.Usual) {q : Channel × List Trace}
    (h : Channel.run env delay (Channel.new o w) es = some q) :
    ∃ r, Channel.run env delay (Channel.new o w) (es.filter ChannelEvent.isBase) = some r ∧ baseLines r.2 = baseLines q.2 :=
  run_base es hu (twin_new o w ht hb) h

/-- **C101**, two channels that receive the same on stream 0, and anything on the upper streams. -/
theorem C101_independent (env : Env) (delay : Nat → Int) (o : Options) (ht : o.timestamp = false) (hb : o.bler = false) (w : Nat)
    (es es' : List ChannelEvent) (hu : ∀ e ∈ es, e.Usual) (hu' : ∀ e ∈ es', e.Usual)
    (same : es.filter ChannelEvent.isBase = es'.filter ChannelEvent.isBase) {q q' : Channel × List Trace}
    (h : Channel.run env delay (Channel.new o w) es = some q) (h' : Channel.run env delay (Channel.new o w) es' = some q') :
    baseLines q'.2 = baseLines q.2 := by
  obtain ⟨r, e1, e2⟩ := C101_calls env delay o ht hb w es hu h
  obtain ⟨r', e1', e2'⟩ := C101_calls env delay o ht hb w es' hu' h'
  rw [← same, e1] at e1'
  rw [← e2, ← e2', Option.some.inj e1']

theorem sameLine_symm {names : List String} {a b : Line} (h : SameLine names a b) : SameLine names b a := by
  cases h with
  | json h =>
    obtain ⟨l, l', h1, h2, h3⟩ := h
    exact .json ⟨l', l, h2, h1, h3.symm⟩
  | error => exact .error

/-! ### With receive times and block error rates -/

theorem bits_numbered {env : Env} {delay : Nat → Int} {t : Int} {n : Nat} (bits : List Bool) {c : Channel}
    {q : Channel × List Handled} (h : Channel.processBits env delay t n c bits = some q) : ∀ k ∈ q.2, k.group.dataStream = n := by
  induction bits generalizing c q with
  | nil =>
    rw [← Option.some.inj h]
    exact fun k hk => nomatch hk
  | cons b bits ih =>
    rw [Channel.processBits] at h
    obtain ⟨p, -, h⟩ := Option.bind_eq_some_iff.mp h
    split at h
    · exact ih h
    · obtain ⟨x, hx, h⟩ := Option.bind_eq_some_iff.mp h
      obtain ⟨y, hy, h⟩ := Option.bind_eq_some_iff.mp h
      rw [← Option.some.inj h]
      intro k hk
      rcases List.mem_cons.mp hk with rfl | hk
      · exact (handleGroup_keeps (c' := x.1) (h := x.2) hx).2.1
      · exact ih hy k hk

theorem flush_numbered {env : Env} {now : Nat → Int} (l : List Nat) (h0 : 0 ∉ l) {c : Channel} {q : Channel × List Handled}
    (h : Channel.flushStreams env now c l = some q) : ∀ k ∈ q.2, k.group.dataStream ≠ 0 := by
  induction l generalizing c q with
  | nil =>
    rw [← Option.some.inj h]
    exact fun k hk => nomatch hk
  | cons i l ih =>
    have hi : i ≠ 0 := fun e => h0 (by rw [e]; exact List.mem_cons_self)
    have hl : 0 ∉ l := fun e => h0 (List.mem_cons_of_mem _ e)
    rw [Channel.flushStreams] at h
    obtain ⟨s, -, h⟩ := Option.bind_eq_some_iff.mp h
    dsimp only at h
    split at h
    · exact ih hl h
    · obtain ⟨x, hx, h⟩ := Option.bind_eq_some_iff.mp h
      obtain ⟨y, hy, h⟩ := Option.bind_eq_some_iff.mp h
      rw [← Option.some.inj h]
      intro k hk
      rcases List.mem_cons.mp hk with rfl | hk
      · rw [(handleGroup_keeps (c' := x.1) (h := x.2) hx).2.1]
        exact hi
      · exact ih hl hy k hk

theorem no_base {tr : List Trace} (h : ∀ k, Trace.handled k ∈ tr → k.group.dataStream ≠ 0) : baseLines tr = [] := by
  unfold baseLines
  rw [List.filterMap_eq_nil_iff]
  intro t ht
  cases t with
  | handled k => exact if_neg (h k ht)
  | reset => rfl

/-- The lines of one call are all for stream 0, or none is. -/
theorem step_base {env : Env} {delay : Nat → Int} {c : Channel} {e : ChannelEvent} {q : Channel × List Trace}
    (h : c.step env delay e = some q) : baseLines q.2 = if e.isBase then printedLines q.2 else [] := by
  have split : ∀ n, (∀ k, Trace.handled k ∈ q.2 → k.group.dataStream = n) →
      baseLines q.2 = if (n == 0) = true then printedLines q.2 else [] := by
    intro n hn
    by_cases h0 : n = 0
    · subst h0
      rw [if_pos (beq_self_eq_true 0), base_printed hn]
    · rw [if_neg (by simpa using h0)]
      exact no_base fun k hk => by rw [hn k hk]; exact h0
  cases e with
  | bit t b n =>
    refine split n ?_
    obtain ⟨p, hp, rfl⟩ := Option.map_eq_some_iff.mp h
    unfold Channel.processBit at hp
    obtain ⟨x, hx, hp⟩ := Option.bind_eq_some_iff.mp hp
    intro k hk
    obtain ⟨k', hk, e⟩ := List.mem_map.mp hk
    cases e
    split at hp
    · rw [← Option.some.inj hp] at hk
      cases hk
    · obtain ⟨y, hy, hp⟩ := Option.bind_eq_some_iff.mp hp
      rw [← Option.some.inj hp] at hk
      obtain rfl := List.mem_singleton.mp hk
      exact (handleGroup_keeps (c' := y.1) (h := y.2) hy).2.1
  | bits t l n =>
    refine split n ?_
    obtain ⟨p, hp, rfl⟩ := Option.map_eq_some_iff.mp h
    intro k hk
    obtain ⟨k', hk, e⟩ := List.mem_map.mp hk
    cases e
    exact bits_numbered l hp _ hk
  | group t g n =>
    refine split n ?_
    obtain ⟨p, hp, rfl⟩ := Option.map_eq_some_iff.mp h
    intro k hk
    obtain e := List.mem_singleton.mp hk
    injection e with e
    rw [e]
    exact (handleGroup_keeps (c' := p.1) (h := p.2) hp).2.1
  | flush now =>
    obtain ⟨p, hp, rfl⟩ := Option.map_eq_some_iff.mp h
    refine no_base fun k hk => ?_
    obtain ⟨k', hk, e⟩ := List.mem_map.mp hk
    cases e
    exact flush_numbered [1, 2, 3] (by decide) hp _ hk
  | resetPI =>
    rw [← Option.some.inj h]
    rfl

theorem pair_base {o o' : Options} (s : SameReception o o') {env : Env} (hk : env.tmc.KeysOk) {f : Int → Str}
    (hf : o.timeFormat = o'.timeFormat → f = env.formatTime) {delay : Nat → Int} (es : List ChannelEvent) {c d : Channel}
    {q r : Channel × List Trace} (w : OptionTwin o o' c d) (h1 : Channel.run env delay c es = some q)
    (h2 : Channel.run (env.clock f) delay d es = some r) : LinesPair o o' env f (baseLines q.2) (baseLines r.2) := by
  induction es generalizing c d q r with
  | nil =>
    rw [← Option.some.inj h1, ← Option.some.inj h2]
    exact .nil
  | cons e es ih =>
    rw [Channel.run] at h1 h2
    obtain ⟨a, ha, h1⟩ := Option.bind_eq_some_iff.mp h1
    obtain ⟨a2, ha2, h1⟩ := Option.bind_eq_some_iff.mp h1
    obtain ⟨b, hb, h2⟩ := Option.bind_eq_some_iff.mp h2
    obtain ⟨b2, hb2, h2⟩ := Option.bind_eq_some_iff.mp h2
    obtain ⟨w1, l1⟩ := pair_step s hk hf w ha hb
    rw [← Option.some.inj h1, ← Option.some.inj h2]
    show LinesPair o o' env f (baseLines (a.2 ++ a2.2)) (baseLines (b.2 ++ b2.2))
    rw [baseLines_append, baseLines_append, step_base ha, step_base hb]
    refine linesPair_append ?_ (ih w1 ha2 hb2)
    split
    · exact l1
    · exact .nil

/-- The options without receive times and block error rates. -/
def Options.unmeasured (o : Options) : Options := { o with timestamp := false, bler := false }

theorem same_more {names names' : List String} (h : ∀ k ∈ names, k ∈ names') {a b : Line} (s : SameLine names a b) :
    SameLine names' a b := by
  cases s with
  | json s =>
    obtain ⟨l, l', h1, h2, h3⟩ := s
    have e : ∀ x : List (String × J), x.filter (fun m => decide (m.1 ∉ names')) =
        (x.filter fun m => decide (m.1 ∉ names)).filter fun m => decide (m.1 ∉ names') := by
      intro x
      rw [List.filter_filter]
      refine List.filter_congr fun m _ => ?_
      by_cases hm : m.1 ∈ names'
      · simp [hm]
      · have hn : m.1 ∉ names := fun hn => hm (h m.1 hn)
        simp [hm, hn]
    exact .json ⟨l, l', h1, h2, by rw [e l, e l', h3]⟩
  | error => exact .error

theorem same_trans {names : List String} {a b c : Line} (h : SameLine names a b) (h' : SameLine names b c) :
    SameLine names a c := by
  cases h with
  | json h =>
    cases h' with
    | json h' =>
      obtain ⟨l, l', h1, h2, h3⟩ := h
      obtain ⟨m, m', h1', h2', h3'⟩ := h'
      rw [h2] at h1'
      cases h1'
      exact .json ⟨l, m', h1, h2', h3.trans h3'⟩
  | error => exact h'

theorem same_trans_lines {names : List String} {a b c : List Line} (h : List.Forall₂ (SameLine names) a b)
    (h' : List.Forall₂ (SameLine names) b c) : List.Forall₂ (SameLine names) a c := by
  induction h generalizing c with
  | nil => exact h'
  | cons hx _ ih => cases h' with
    | cons hy h' => exact .cons (same_trans hx hy) (ih h')

/-- **C101**, with receive times and block error rates: whatever is received on the upper streams, the lines printed for the
groups of stream 0 are those that are printed when nothing else is received, apart from the members "rx_time" and "bler". -/
theorem C101_other_members (env : Env) (hk : env.tmc.KeysOk) (delay : Nat → Int) (o : Options) (hj : o.outputType ≠ .hex)
    (ht : ∀ n, ∃ s : String, env.formatTime n = unicodeBytes s) (w : Nat) (es : List ChannelEvent) (hv : ∀ e ∈ es, e.Valid)
    (hu : ∀ e ∈ es, e.Usual) : ∃ q r, Channel.run env delay (Channel.new o w) es = some q ∧
      Channel.run env delay (Channel.new o w) (es.filter ChannelEvent.isBase) = some r ∧
      List.Forall₂ (SameLine ["rx_time", "bler"]) (baseLines r.2) (baseLines q.2) := by
  have hv' : ∀ e ∈ es.filter ChannelEvent.isBase, e.Valid := fun e he => hv e (List.mem_filter.mp he).1
  obtain ⟨c, tr, h1⟩ := C60_never_fails env hk delay o w es hv
  obtain ⟨d, tr', h2⟩ := C60_never_fails env hk delay o w _ hv'
  obtain ⟨c', tr1, h3⟩ := C60_never_fails env hk delay o.unmeasured w es hv
  obtain ⟨r, h4, e⟩ := C101_calls env delay o.unmeasured rfl rfl w es hu h3
  have s : SameReception o o.unmeasured := ⟨rfl, rfl, hj, hj⟩
  have names : ∀ k ∈ optionMembers o o.unmeasured, k ∈ ["rx_time", "bler"] := by
    intro k hk
    unfold optionMembers at hk
    rw [if_pos (c := o.showPartial = o.unmeasured.showPartial) rfl, if_pos (c := o.showRaw = o.unmeasured.showRaw) rfl,
      if_pos (c := o.streams = o.unmeasured.streams) rfl, if_pos (c := o.numChannels = o.unmeasured.numChannels) rfl] at hk
    simp only [List.nil_append, List.append_nil, List.mem_append] at hk
    rcases hk with hk | hk
    · split at hk
      · cases hk
      · rw [List.mem_singleton.mp hk]
        decide
    · split at hk
      · cases hk
      · rw [List.mem_singleton.mp hk]
        decide
  have p1 := linesPair_same (o := o) (o' := o.unmeasured) rfl ht ht (pair_base s hk (f := env.formatTime) (fun _ => rfl) es (pair_new o o.unmeasured w) h1 h3)
  have p2 := linesPair_same (o := o) (o' := o.unmeasured) rfl ht ht (pair_base s hk (f := env.formatTime) (fun _ => rfl) _ (pair_new o o.unmeasured w) h2 h4)
  refine ⟨_, _, h1, h2, ?_⟩
  rw [e] at p2
  have p1 := p1.imp fun a b h => same_more names h
  have p2 := p2.imp fun a b h => same_more names h
  refine same_trans_lines p2 (List.Forall₂.flip (p1.imp fun a b h => sameLine_symm h))

section
variable {F C : Type} (ar : Arith F) (L : Liquid F C)

/-- The options without `--streams`. -/
def Options.oneStream (o : Options) : Options := { o with streams := false }

/-- **C101**, for sound: with `--streams`, the lines printed for the groups of stream 0 are the lines that are printed without
`--streams`, apart from the member "stream". -/
theorem C101_sound (env : Env) (hk : env.tmc.KeysOk) (delay : Nat → Int) (o : Options) (hs : o.streams = true)
    (hj : o.outputType ≠ .hex) (ht : o.timestamp = false) (hb : o.bler = false) (resampling : Bool) (clock : Nat → Int)
    (now : Nat → Nat → Int) (fuel channels : Nat) (file : List F) {tr : List (Nat × Trace)}
    (h : processMPXInput ar L env delay o resampling clock now fuel channels file = some tr) :
    ∃ tr', processMPXInput ar L env delay o.oneStream resampling clock now fuel channels file = some tr' ∧
      List.Forall₂ (SameLine ["stream"]) (soundLines tr') (baseLines (tr.map Prod.snd)) := by
  rw [sound_num, hs] at h
  obtain ⟨t1, h1, l1⟩ := sound_twin ht hb h
  -- a format for times that is not used
  let f0 : Int → Str := fun _ => []
  have empty : ([] : Str) = unicodeBytes "" := by decide +kernel
  have a1 := alike_num (ar := ar) (L := L) (alike_clocks (env := env) f0 delay delay) 1 (o := o) (o' := o)
    (fun ch => ⟨untimed_new o ch ht, _, rfl⟩) (clock := clock) (clock' := clock) (fun _ => trivial) (now := now) (now' := now)
    (fun _ _ => trivial) resampling fuel channels file
  obtain ⟨t2, h2⟩ := Option.isSome_iff_exists.mp ((a1.2 trivial).mpr (by rw [h1]; rfl))
  have l2 := a1.1 t1 t2 h1 h2
  have hk' : (env.clock f0).tmc.KeysOk := hk
  have a2 := alike_num (ar := ar) (L := L) (alike_options (o := o) (o' := o.oneStream) ⟨rfl, rfl, hj, hj⟩ hk' (f := f0)
    (fun _ => rfl) delay) 1 (o := o) (o' := o.oneStream) (fun ch => pair_new _ _ ch) (clock := clock) (clock' := clock)
    (fun _ => rfl) (now := now) (now' := now) (fun _ _ => rfl) resampling fuel channels file
  obtain ⟨t3, h3⟩ := Option.isSome_iff_exists.mp ((a2.2 trivial).mpr (by rw [h2]; rfl))
  have l3 := linesPair_same (o := o) (o' := o.oneStream) rfl (fun _ => ⟨"", empty⟩) (fun _ => ⟨"", empty⟩)
    (a2.1 t2 t3 h2 h3)
  have a3 := alike_num (ar := ar) (L := L) (alike_clocks (env := env.clock f0) env.formatTime delay delay) 1 (o := o.oneStream)
    (o' := o.oneStream) (fun ch => ⟨untimed_new _ ch ht, _, rfl⟩) (clock := clock) (clock' := clock) (fun _ => trivial)
    (now := now) (now' := now) (fun _ _ => trivial) resampling fuel channels file
  obtain ⟨t4, h4⟩ := Option.isSome_iff_exists.mp ((a3.2 trivial).mpr (by
    rw [show (env.clock f0).clock f0 = env.clock f0 from rfl] at h3
    rw [h3]
    rfl))
  have l4 := a3.1 t3 t4 h3 h4
  have names : optionMembers o o.oneStream = ["stream"] := by
    unfold optionMembers
    rw [show o.oneStream.streams = false from rfl, hs]
    simp [Options.oneStream]
  rw [names] at l3
  refine ⟨t4, h4, ?_⟩
  rw [l4, ← l1, ← l2]
  exact List.Forall₂.flip (l3.imp fun a b hab => sameLine_symm hab)

/-- **C101**, for the program: when it is run with `--streams` and without on the same recording, it prints the same lines
about location tables, and then, apart from the member "stream", the lines printed for stream 0 in the one run are all lines
printed in the other. -/
theorem C101_program (m : Machine F) (opts opts' : List Opt) (extra extra' : Bool) (o : Options)
    (h : getOptions m.float opts extra = some o) (h' : getOptions m.float opts' extra' = some o.oneStream)
    (he : o.earlyExit = false) (hi : o.inputType = .mpxStdin ∨ o.inputType = .mpxSndfile)
    (hm : m.sound o.oneStream = m.sound o) (hs : o.streams = true) (hj : o.outputType ≠ .hex) (ht : o.timestamp = false)
    (hb : o.bler = false) (rows : List KeyRow) (hv : ∀ r ∈ rows, r.Valid ∧ r.xorstart ≤ 24)
    (hf : m.keyFile = rows.map KeyRow.line) {fin fin' : Finished F} (hr : runMain ar L m opts extra = some fin)
    (hok : fin.success = true) (hr' : runMain ar L m opts' extra' = some fin') (hok' : fin'.success = true) :
    ∃ infos tables rate channels samples tr ls', m.sound o = .opened rate channels samples ∧
      loadTables m o.loctableDirs = some tables ∧
      processMPXInput ar L (m.env o tables) m.delay (o.forSound rate channels) (rate ≠ 171000) m.now m.later
        (samples.length + 2) channels samples = some tr ∧
      o.printed fin = infos ++ (soundLines tr).map .line ∧ o.oneStream.printed fin' = infos ++ ls'.map .line ∧
      List.Forall₂ (SameLine ["stream"]) ls' (baseLines (tr.map Prod.snd)) := by
  obtain ⟨rate, channels, samples, t, tr, h1, h2, h3, h4⟩ := sound_calls ar L m o opts extra h he hi hr hok
  obtain ⟨rate', channels', samples', t', tr', h1', h2', h3', h4'⟩ :=
    sound_calls ar L m o.oneStream opts' extra' h' he hi hr' hok'
  rw [hm, h1] at h1'
  cases h1'
  rw [show o.oneStream.loctableDirs = o.loctableDirs from rfl, h2] at h2'
  cases h2'
  have hk := keysOk_of_rows m (o := o) t rows hv hf
  obtain ⟨tr2, e, l⟩ := C101_sound ar L (m.env o t) hk m.delay (o.forSound rate channels) hs hj ht hb _ m.now m.later _ _ _ h3
  rw [show (o.forSound rate channels).oneStream = o.oneStream.forSound rate channels from rfl] at e
  rw [show m.env o.oneStream t = m.env o t by unfold Machine.env; rfl] at h3'
  rw [h3'] at e
  cases e
  exact ⟨_, t, rate, channels, samples, tr, _, h1, h2, h3, h4, h4', l⟩

end

/-- Three groups of stream 0, and between them a group of stream 1 with an assignment of a pipe, and bits of stream 2. -/
def demoUpper : List ChannelEvent :=
  [.group 0 (demoGroup 0x6204 0x0000 0xE0E0 0x4142) 0, .group 0 (demoGroup 0x8001 0x4BD7 0x1234 0x5678) 1,
   .group 0 (demoGroup 0x6204 0x0001 0xE0E0 0x4142) 0, .bits 0 [true, false, true] 2,
   .group 0 (demoGroup 0x6204 0x0002 0xE0E0 0x4142) 0, .flush (fun _ => 0),
   .group 0 (demoGroup 0x8001 0x4BD7 0x1234 0x5678) 1]

/-- Two lines are printed, one of them for stream 0. -/
example : ((Channel.run demoEnv (fun _ => 0) (Channel.new {} 0) demoUpper).map fun q =>
      ((q.2.filterMap fun t => match t with | .handled h => h.line | .reset => none).length, (baseLines q.2).length)) =
      some (2, 1) ∧
    (∀ e ∈ demoUpper, e.Usual) ∧ (demoUpper.filter ChannelEvent.isBase).length = 3 := by
  refine ⟨by decide +kernel, ?_, by decide +kernel⟩
  intro e he
  simp only [demoUpper, List.mem_cons, List.not_mem_nil, or_false] at he
  rcases he with rfl | rfl | rfl | rfl | rfl | rfl | rfl <;>
    first | trivial | (intro _; exact (by decide +kernel))

/-- The member "bler" of the lines for stream 0. -/
def errorRates (tr : List Trace) : List (Option Int) :=
  (baseLines tr).map fun l => match memberOf "bler" (some l) with
  | some (.int n) => some n
  | _ => none

/-- Block error rates have to be left out: the groups of all streams count. An empty group on stream 1 makes it 8 % for the
first line of stream 0. -/
theorem C101_error_rates : ∃ (es : List ChannelEvent) (q r : Channel × List Trace), (∀ e ∈ es, e.Usual) ∧
    Channel.run demoEnv (fun _ => 0) (Channel.new { bler := true } 0) es = some q ∧
    Channel.run demoEnv (fun _ => 0) (Channel.new { bler := true } 0) (es.filter ChannelEvent.isBase) = some r ∧
    errorRates q.2 = [some 8] ∧ errorRates r.2 = [some 0] := by
  have h : ∀ (x y : Option (Channel × List Trace)) (P Q : List Trace → Prop) [DecidablePred P] [DecidablePred Q],
      (x.any fun r => decide (P r.2)) = true → (y.any fun r => decide (Q r.2)) = true →
      ∃ a b, x = some a ∧ y = some b ∧ P a.2 ∧ Q b.2 := by
    intro x y P Q _ _ hx hy
    cases x with
    | none => cases hx
    | some x => cases y with
      | none => cases hy
      | some y => exact ⟨x, y, rfl, rfl, of_decide_eq_true hx, of_decide_eq_true hy⟩
  have hu : ∀ e ∈ ChannelEvent.group 0 {} 1 :: demoUpper.filter ChannelEvent.isBase, e.Usual := by
    intro e he
    simp only [demoUpper, ChannelEvent.isBase, List.filter, List.mem_cons] at he
    rcases he with rfl | he
    · intro h
      cases h
    · simp only [beq_self_eq_true, Nat.reduceBEq, List.mem_cons, List.not_mem_nil, or_false] at he
      rcases he with rfl | rfl | rfl <;> (intro _; exact (by decide +kernel))
  obtain ⟨q, r, h1, h2, h3, h4⟩ := h
    (Channel.run demoEnv (fun _ => 0) (Channel.new { bler := true } 0)
      (ChannelEvent.group 0 {} 1 :: demoUpper.filter ChannelEvent.isBase))
    (Channel.run demoEnv (fun _ => 0) (Channel.new { bler := true } 0)
      ((ChannelEvent.group 0 {} 1 :: demoUpper.filter ChannelEvent.isBase).filter ChannelEvent.isBase))
    (fun t => errorRates t = [some 8]) (fun t => errorRates t = [some 0]) (by decide +kernel) (by decide +kernel)
  exact ⟨_, q, r, hu, h1, h2, h3, h4⟩

/-- The hypotheses of `C101_other_members`. -/
example : (∀ e ∈ demoUpper, e.Valid) ∧ (demoUpper.filter ChannelEvent.isBase).length = 3 ∧
    ∀ n, ∃ s : String, timesEnv.formatTime n = unicodeBytes s := by
  refine ⟨?_, by decide +kernel, fun n => ?_⟩
  · simp [demoUpper, ChannelEvent.Valid]
  · by_cases h : n < 100
    · exact ⟨"early", by simp only [timesEnv, if_pos h]; decide +kernel⟩
    · exact ⟨"late", by simp only [timesEnv, if_neg h]; decide +kernel⟩

/-- The runs of `C101_sound` on the recording of property C73. -/
example : ∃ tr tr', processMPXInput exactArith demoLiquid demoEnv (fun _ => 0) { streams := true } false (fun _ => 0)
      (fun _ _ => 0) (demoRecording.length + 2) 1 demoRecording = some tr ∧
    processMPXInput exactArith demoLiquid demoEnv (fun _ => 0) {} false (fun _ => 0)
      (fun _ _ => 0) (demoRecording.length + 2) 1 demoRecording = some tr' ∧
    List.Forall₂ (SameLine ["stream"]) (soundLines tr') (baseLines (tr.map Prod.snd)) := by
  obtain ⟨tr, h1, -⟩ := C73_channel_stories exactArith demoLiquid demoEnv demoEnv_keys (fun _ => 0) { streams := true } false
    (fun h => by cases h) (fun _ => 0) (fun _ _ => 0) 1 (by omega) (by omega) demoRecording
  obtain ⟨tr', h2, h3⟩ := C101_sound exactArith demoLiquid demoEnv demoEnv_keys (fun _ => 0) { streams := true } rfl
    (by decide) rfl rfl false _ _ _ _ _ h1
  exact ⟨tr, tr', h1, h2, h3⟩

/-- With `-f a.wav -s` and with `-f a.wav`. -/
example (lib : FloatLib) :
    getOptions (oneChunk lib).float [.arg 'f' (ascii "a.wav"), .letter 's'] false =
      some { inputType := .mpxSndfile, sndfilename := ascii "a.wav", streams := true } ∧
    getOptions (oneChunk lib).float [.arg 'f' (ascii "a.wav")] false =
      some (Options.oneStream { inputType := .mpxSndfile, sndfilename := ascii "a.wav", streams := true }) :=
  ⟨by rfl, by rfl⟩

end Redsea
