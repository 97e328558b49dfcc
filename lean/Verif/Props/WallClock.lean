import Verif.Lemmas.WallClock
import Verif.Lemmas.OptionSound
import Verif.Props.OutputOptions
import Verif.Props.Causal

/-
Property C97: the clock is seen only in receive times; and property C89 with sound as the input.
-/

namespace Redsea
open _root_.Spec _root_.Redsea.Spec

/-! ### Without `-t` -/

theorem pairs_finish {F : Type} {o : Options} {tables : List (Word × LocationDatabase)} {e : Item F} {α β : Type} {x : Option α}
    {y : Option β} {f : α → List Trace} {g : β → List Trace}
    (h : Pairs True (fun a b => printedLines (g b) = printedLines (f a)) x y) :
    (y >>= fun b => pure (finish o tables (g b) e) : Option (Finished F)) = (x >>= fun a => pure (finish o tables (f a) e)) := by
  cases x with
  | none =>
    cases y with
    | none => rfl
    | some b => exact absurd ((h.2 trivial).mp rfl) Bool.false_ne_true
  | some a =>
    cases y with
    | none => exact absurd ((h.2 trivial).mpr rfl) Bool.false_ne_true
    | some b =>
      have := h.1 a b rfl rfl
      show some (finish o tables (g b) e) = some (finish o tables (f a) e)
      unfold finish
      rw [this]

theorem sameCalls_map {α : Type} {c c' : α × Nat → ChannelEvent} (h : ∀ q, SameCall (c q) (c' q)) (l : List (α × Nat)) :
    List.Forall₂ SameCall (l.map c) (l.map c') := by
  induction l with
  | nil => exact .nil
  | cons q l ih => exact .cons (h q) ih

section
variable {F C : Type} (ar : Arith F) (L : Liquid F C) (m : Machine F) (now : Nat → Int) (later : Nat → Nat → Int)
  (delay : Nat → Int) (conv : Str → Int → Str)

/-- The same machine with other clocks and another `strftime`. -/
def Machine.atTime (m : Machine F) (now : Nat → Int) (later : Nat → Nat → Int) (delay : Nat → Int)
    (conv : Str → Int → Str) : Machine F := { m with now := now, later := later, delay := delay, conv := conv }

theorem env_atTime (o : Options) (tables : List (Word × LocationDatabase)) : (m.atTime now later delay conv).env o tables =
    (m.env o tables).clock fun t => getTimePointString conv t o.timeFormat := by
  unfold Machine.env
  rfl

theorem tables_atTime (dirs : List Str) : loadTables (m.atTime now later delay conv) dirs = loadTables m dirs := by
  induction dirs with
  | nil => rfl
  | cons d ds ih =>
    unfold loadTables
    rw [ih]
    rfl

theorem untimed_calls (env : Env) (f : Int → Str) {o : Options} (ht : o.timestamp = false) (d d' : Nat → Int)
    {es es' : List ChannelEvent} (he : List.Forall₂ SameCall es es') :
    Pairs True (fun q r => printedLines r.2 = printedLines q.2) (Channel.run env d (Channel.new o 0) es)
      (Channel.run (env.clock f) d' (Channel.new o 0) es') :=
  times_run_times f he ⟨untimed_new o 0 ht, _, rfl⟩

theorem bits_env (env : Env) (f : Int → Str) {o : Options} (ht : o.timestamp = false) (d d' n n' l l' : Nat → Int) (s : Str)
    (tables : List (Word × LocationDatabase)) (e : Item F) :
    (processASCIIBitsInput (env.clock f) d' n' l' o s >>= fun r => pure (finish o tables r.2 e)) =
      (processASCIIBitsInput env d n l o s >>= fun r => pure (finish o tables r.2 e)) := by
  refine pairs_finish (f := Prod.snd) (g := Prod.snd) (untimed_calls env f ht d d' ?_)
  unfold bitCalls
  exact List.rel_append (sameCalls_map (fun _ => .bit _ _ _ _) _) (.cons (.flush _ _) .nil)

theorem hex_env (env : Env) (f : Int → Str) {o : Options} (ht : o.timestamp = false) (d d' n n' : Nat → Int) (s : Str)
    (tables : List (Word × LocationDatabase)) (e : Item F) :
    (processHexInput (env.clock f) d' n' o s >>= fun r => pure (finish o tables r.2 e)) =
      (processHexInput env d n o s >>= fun r => pure (finish o tables r.2 e)) :=
  pairs_finish (f := Prod.snd) (g := Prod.snd) (untimed_calls env f ht d d' (sameCalls_map (fun _ => .group _ _ _ _) _))

theorem tef_env (env : Env) (f : Int → Str) {o : Options} (ht : o.timestamp = false) (d d' n n' : Nat → Int) (s : Str)
    (tables : List (Word × LocationDatabase)) (e : Item F) :
    (processTEFInput (env.clock f) d' n' o s >>= fun r => pure (finish o tables r.2 e)) =
      (processTEFInput env d n o s >>= fun r => pure (finish o tables r.2 e)) :=
  pairs_finish (f := Prod.snd) (g := Prod.snd) (untimed_calls env f ht d d' (sameCalls_map (fun _ => .group _ _ _ _) _))

theorem mpx_env (env : Env) (f : Int → Str) {o : Options} (ht : o.timestamp = false) (d d' n n' : Nat → Int)
    (l l' : Nat → Nat → Int) (x : Bool) (fuel channels : Nat) (s : List F)
    (tables : List (Word × LocationDatabase)) (e : Option (List F)) :
    (do
      let tr ← processMPXInput ar L (env.clock f) d' o x n' l' fuel channels s
      let echo ← e
      pure (finish o tables (tr.map fun q : Nat × Trace => q.2) (.echoSamples echo))) =
    (do
      let tr ← processMPXInput ar L env d o x n l fuel channels s
      let echo ← e
      pure (finish o tables (tr.map fun q : Nat × Trace => q.2) (.echoSamples echo))) := by
  have h := alike_sound (ar := ar) (L := L) (alike_clocks (env := env) f d d') (o := o) (o' := o) rfl
    (fun ch => ⟨untimed_new o ch ht, _, rfl⟩) (clock := n) (clock' := n') (fun _ => trivial) (now := l) (now' := l')
    (fun _ _ => trivial) x fuel channels s
  cases e with
  | none => cases processMPXInput ar L (env.clock f) d' o x n' l' fuel channels s <;>
      cases processMPXInput ar L env d o x n l fuel channels s <;> rfl
  | some e => exact pairs_finish (f := List.map Prod.snd) (g := List.map Prod.snd) h

theorem bind_eq {α β : Type} {x : Option α} {f g : α → Option β} (h : ∀ a, f a = g a) : (x >>= f) = (x >>= g) := by
  rw [funext h]

theorem bits_atTime {o : Options} (ht : o.timestamp = false) : runBits (m.atTime now later delay conv) o = runBits m o := by
  unfold runBits
  rw [tables_atTime]
  refine bind_eq fun t => ?_
  rw [env_atTime]
  exact bits_env (m.env o t) _ ht m.delay delay m.now now (m.later 0) (later 0) m.stdin t _

theorem hex_atTime {o : Options} (ht : o.timestamp = false) : runHex (m.atTime now later delay conv) o = runHex m o := by
  unfold runHex
  rw [tables_atTime]
  refine bind_eq fun t => ?_
  rw [env_atTime]
  exact hex_env (m.env o t) _ ht m.delay delay m.now now m.stdin t _

theorem tef_atTime {o : Options} (ht : o.timestamp = false) : runTEF (m.atTime now later delay conv) o = runTEF m o := by
  unfold runTEF
  rw [tables_atTime]
  refine bind_eq fun t => ?_
  rw [env_atTime]
  exact tef_env (m.env o t) _ ht m.delay delay m.now now m.stdin t _

theorem mpx_atTime {o : Options} (ht : o.timestamp = false) :
    runMPX ar L (m.atTime now later delay conv) o = runMPX ar L m o := by
  unfold runMPX
  rw [show (m.atTime now later delay conv).sound = m.sound from rfl]
  cases m.sound o with
  | nothing => rfl
  | error => rfl
  | opened rate channels samples =>
    dsimp only
    split
    · rfl
    rw [tables_atTime]
    refine bind_eq fun t => ?_
    split
    · rfl
    rw [env_atTime]
    exact mpx_env ar L (m.env _ t) _ (o := { o with samplerate := .num rate, numChannels := channels }) ht m.delay delay m.now now
      m.later later _ _ _ samples t _

/-- **C97**: without `-t`, what the program prints, and whether it succeeds, does not depend on the clock, on the time at which
bits are taken to have arrived, or on how times are formatted. -/
theorem C97_no_times (opts : List Opt) (extra : Bool)
    (h : ∀ o, getOptions m.float opts extra = some o → o.timestamp = false) :
    runMain ar L { m with now := now, later := later, delay := delay, conv := conv } opts extra = runMain ar L m opts extra := by
  show runMain ar L (m.atTime now later delay conv) opts extra = _
  unfold runMain
  rw [show (m.atTime now later delay conv).float = m.float from rfl]
  cases ho : getOptions m.float opts extra with
  | none => rfl
  | some o =>
    have ht := h o ho
    dsimp only
    split
    · rfl
    rw [mpx_atTime ar L m now later delay conv ht, bits_atTime m now later delay conv ht,
      hex_atTime m now later delay conv ht, tef_atTime m now later delay conv ht]

end

/-! ### With `-t` -/

/-- The options without `-t`. -/
def Options.untimed (o : Options) : Options := { o with timestamp := false }

theorem members_untimed {o : Options} (ht : o.timestamp = true) :
    optionMembers o o.untimed = ["rx_time"] ∧ optionMembers o.untimed o = ["rx_time"] := by
  unfold optionMembers Options.untimed
  simp [ht]

theorem sameOthers_trans {names : List String} {a b c : J} (h1 : SameOthers names a b) (h2 : SameOthers names b c) :
    SameOthers names a c := by
  obtain ⟨l, l1, rfl, rfl, e1⟩ := h1
  obtain ⟨l2, l3, e2, rfl, e3⟩ := h2
  cases e2
  exact ⟨l, l3, rfl, rfl, e1.trans e3⟩

theorem sameLine_trans {names : List String} {a b c : Line} (h1 : SameLine names a b) (h2 : SameLine names b c) :
    SameLine names a c := by
  cases h1 with
  | json h1 =>
    cases h2 with
    | json h2 => exact .json (sameOthers_trans h1 h2)
  | error =>
    cases h2 with
    | error => exact .error

theorem sameLines_trans {names : List String} {a b c : List Line} (h1 : List.Forall₂ (SameLine names) a b)
    (h2 : List.Forall₂ (SameLine names) b c) : List.Forall₂ (SameLine names) a c := by
  induction h1 generalizing c with
  | nil => exact h2
  | cons hx _ ih =>
    cases h2 with
    | cons hy hl => exact .cons (sameLine_trans hx hy) (ih hl)

/-- Lines in pairs, when the options for partial data are the same. -/
theorem linesPair_same {o o' : Options} {env : Env} {f : Int → Str} (hp : o.showPartial = o'.showPartial)
    (ht : ∀ n, ∃ s : String, env.formatTime n = unicodeBytes s) (ht' : ∀ n, ∃ s : String, f n = unicodeBytes s)
    {a b : List Line} (h : LinesPair o o' env f a b) : List.Forall₂ (SameLine (optionMembers o o')) a b := by
  unfold LinesPair at h
  refine h.imp ?_
  rintro x y (⟨hx, -⟩ | ⟨j, j', hx, hy, same, hu, -⟩)
  · cases hx
  · have e1 : x = printJson j := Option.some.inj hx
    have e2 : y = printJson j' := Option.some.inj hy
    rw [e1, e2]
    exact print_pair same (hu ⟨fun n => (validUtf8_iff _).mpr (ht n), fun n => (validUtf8_iff _).mpr (ht' n)⟩ hp)

/-- Three programs, of which the one between has no times. -/
theorem lines_three {env : Env} {f : Int → Str} {o : Options} (ht : o.timestamp = true)
    (hv : ∀ n, ∃ s : String, env.formatTime n = unicodeBytes s) (hv' : ∀ n, ∃ s : String, f n = unicodeBytes s)
    {α : Type} {p : α → List Line} {x y z w : Option α}
    (h1 : Pairs True (fun a b => LinesPair o o.untimed env env.formatTime (p a) (p b)) x y)
    (h2 : Pairs True (fun a b => p b = p a) y z)
    (h3 : Pairs True (fun a b => LinesPair o.untimed o (env.clock f) f (p a) (p b)) z w) {a d : α} (ha : x = some a)
    (hd : w = some d) : List.Forall₂ (SameLine ["rx_time"]) (p a) (p d) := by
  subst ha hd
  cases y with
  | none => exact absurd ((h1.2 trivial).mpr rfl) Bool.false_ne_true
  | some b =>
    cases z with
    | none => exact absurd ((h2.2 trivial).mpr rfl) Bool.false_ne_true
    | some c =>
      have e1 := linesPair_same (o := o) (o' := o.untimed) rfl hv hv (h1.1 a b rfl rfl)
      have e2 := h2.1 b c rfl rfl
      have e3 := linesPair_same (o := o.untimed) (o' := o) rfl hv' hv' (h3.1 c d rfl rfl)
      rw [(members_untimed ht).1] at e1
      rw [(members_untimed ht).2, e2] at e3
      exact sameLines_trans e1 e3

theorem same_untimed {o : Options} (hj : o.outputType ≠ .hex) : SameReception o o.untimed ∧ SameReception o.untimed o :=
  ⟨⟨rfl, rfl, hj, hj⟩, ⟨rfl, rfl, hj, hj⟩⟩

theorem valid_times {es es' : List ChannelEvent} (he : List.Forall₂ SameCall es es') (hs : ∀ e ∈ es, e.Valid) :
    ∀ e ∈ es', e.Valid := by
  induction he with
  | nil => exact hs
  | @cons x y xs ys hx _ ih =>
    intro e hm
    rcases List.mem_cons.mp hm with rfl | hm
    · have := hs x (List.mem_cons_self ..)
      cases hx <;> exact this
    · exact ih (fun e he => hs e (List.mem_cons_of_mem _ he)) e hm

/-- **C97**, for the calls of one channel: when the same is received at other times and with another format for times, the same
lines are printed, except for the receive times. -/
theorem C97_only_times (env : Env) (hk : env.tmc.KeysOk) (f : Int → Str) (delay delay' : Nat → Int) (o : Options)
    (hj : o.outputType ≠ .hex) (ht : o.timestamp = true) (hv : ∀ n, ∃ s : String, env.formatTime n = unicodeBytes s)
    (hv' : ∀ n, ∃ s : String, f n = unicodeBytes s) (w : Nat) (es es' : List ChannelEvent)
    (he : List.Forall₂ SameCall es es') (hs : ∀ e ∈ es, e.Valid) {q r : Channel × List Trace}
    (h : Channel.run env delay (Channel.new o w) es = some q)
    (h' : Channel.run { env with formatTime := f } delay' (Channel.new o w) es' = some r) :
    List.Forall₂ (SameLine ["rx_time"]) (printedLines q.2) (printedLines r.2) := by
  have h' : Channel.run (env.clock f) delay' (Channel.new o w) es' = some r := h'
  have hs' := valid_times he hs
  refine lines_three (p := fun q : Channel × List Trace => printedLines q.2) ht hv hv'
    (y := Channel.run env delay (Channel.new o.untimed w) es) (z := Channel.run (env.clock f) delay' (Channel.new o.untimed w) es')
    ⟨fun a b ha hb => ?_, fun _ => ?_⟩ (times_run_times f he ⟨untimed_new _ _ rfl, _, rfl⟩)
    ⟨fun a b ha hb => ?_, fun _ => ?_⟩ h h'
  · exact pair_run (same_untimed hj).1 hk (f := env.formatTime) (fun _ => rfl) es (pair_new _ _ w) ha hb
  · obtain ⟨_, _, e1, -⟩ := run_good env hk delay es hs _ (channel_new_good o w)
    obtain ⟨_, _, e2, -⟩ := run_good env hk delay es hs _ (channel_new_good o.untimed w)
    rw [e1, e2]
    exact Iff.rfl
  · exact pair_run (same_untimed hj).2 (env := env.clock f) hk (f := f) (fun _ => rfl) es' (pair_new _ _ w) ha hb
  · obtain ⟨_, _, e1, -⟩ := run_good (env.clock f) hk delay' es' hs' _ (channel_new_good o w)
    obtain ⟨_, _, e2, -⟩ := run_good (env.clock f) hk delay' es' hs' _ (channel_new_good o.untimed w)
    rw [e1, e2]
    exact Iff.rfl

/-! ### The program -/

section
variable {F C : Type} (ar : Arith F) (L : Liquid F C) (m : Machine F)

theorem env_format (o o' : Options) (h : o'.timeFormat = o.timeFormat) (tables : List (Word × LocationDatabase)) :
    m.env o' tables = m.env o tables := by
  unfold Machine.env
  rw [h]

/-- The options of the channels for a recording, src/redsea.cc:124-126. -/
def Options.forSound (o : Options) (rate channels : Nat) : Options := { o with samplerate := .num rate, numChannels := channels }

/-- What the program does with sound, when it succeeds. -/
theorem sound_calls (o : Options) (opts : List Opt) (extra : Bool) (h : getOptions m.float opts extra = some o)
    (he : o.earlyExit = false) (hi : o.inputType = .mpxStdin ∨ o.inputType = .mpxSndfile) {fin : Finished F}
    (hr : runMain ar L m opts extra = some fin) (hok : fin.success = true) :
    ∃ rate channels samples tables tr, m.sound o = .opened rate channels samples ∧
      loadTables m o.loctableDirs = some tables ∧
      processMPXInput ar L (m.env o tables) m.delay (o.forSound rate channels) (rate ≠ 171000) m.now m.later
        (samples.length + 2) channels samples = some tr ∧
      o.printed fin = tableLines tables ++ (soundLines tr).map .line := by
  rw [runMain_process ar L m opts extra h he] at hr
  have hr : runMPX ar L m o = some fin := by
    rcases hi with hi | hi <;> rw [hi] at hr <;> exact hr
  unfold runMPX at hr
  cases hm : m.sound o with
  | nothing =>
    rw [hm] at hr
    rw [← Option.some.inj hr] at hok
    exact absurd hok Bool.false_ne_true
  | error =>
    rw [hm] at hr
    rw [← Option.some.inj hr] at hok
    exact absurd hok Bool.false_ne_true
  | opened rate channels samples =>
    rw [hm] at hr
    dsimp only at hr
    by_cases ha : (!rateAccepted rate o.streams) = true
    · rw [if_pos ha] at hr
      rw [← Option.some.inj hr] at hok
      exact absurd hok Bool.false_ne_true
    · rw [if_neg ha] at hr
      obtain ⟨t, ht, hr⟩ := Option.bind_eq_some_iff.mp hr
      by_cases hb : (!resamplerAccepts rate) = true
      · rw [if_pos hb] at hr
        cases hr
      · rw [if_neg hb, env_format m o { o with samplerate := .num rate, numChannels := channels } rfl] at hr
        obtain ⟨tr, h1, hr⟩ := Option.bind_eq_some_iff.mp hr
        obtain ⟨ec, -, hr⟩ := Option.bind_eq_some_iff.mp hr
        refine ⟨rate, channels, samples, t, tr, rfl, ht, h1, ?_⟩
        rw [← Option.some.inj hr]
        exact printed_finish _ _ _

/-- **C89**, for the program with sound as the input: two command lines for the same recording, the same number of streams and
the same location tables print the same lines about location tables, and then the same lines about groups, one for one, except
for the members that the options are about. -/
theorem C89_sound (opts opts' : List Opt) (extra extra' : Bool) (o o' : Options)
    (h : getOptions m.float opts extra = some o) (h' : getOptions m.float opts' extra' = some o')
    (he : o.earlyExit = false) (he' : o'.earlyExit = false) (hi : o.inputType = .mpxStdin ∨ o.inputType = .mpxSndfile)
    (hi' : o'.inputType = .mpxStdin ∨ o'.inputType = .mpxSndfile) (hm : m.sound o' = m.sound o)
    (hst : o'.streams = o.streams) (hn : o.numChannels = o'.numChannels)
    (hd : o'.loctableDirs = o.loctableDirs) (hs : SameReception o o') (hp : o.showPartial = o'.showPartial)
    (htime : ∀ t, ∃ s : String, getTimePointString m.conv t o.timeFormat = unicodeBytes s)
    (htime' : ∀ t, ∃ s : String, getTimePointString m.conv t o'.timeFormat = unicodeBytes s)
    (rows : List KeyRow) (hv : ∀ r ∈ rows, r.Valid ∧ r.xorstart ≤ 24) (hf : m.keyFile = rows.map KeyRow.line)
    {fin fin' : Finished F} (hr : runMain ar L m opts extra = some fin) (hok : fin.success = true)
    (hr' : runMain ar L m opts' extra' = some fin') (hok' : fin'.success = true) :
    ∃ infos ls ls', o.printed fin = infos ++ ls.map .line ∧ o'.printed fin' = infos ++ ls'.map .line ∧
      List.Forall₂ (SameLine (optionMembers o o')) ls ls' := by
  obtain ⟨rate, channels, samples, t, tr, h1, h2, h3, h4⟩ := sound_calls ar L m o opts extra h he hi hr hok
  obtain ⟨rate', channels', samples', t', tr', h1', h2', h3', h4'⟩ := sound_calls ar L m o' opts' extra' h' he' hi' hr' hok'
  rw [hm, h1] at h1'
  cases h1'
  rw [hd, h2] at h2'
  cases h2'
  have hk := keysOk_of_rows m (o := o) t rows hv hf
  rw [env_clock m o o'] at h3'
  have hft : ∀ n, (m.env o t).formatTime n = getTimePointString m.conv n o.timeFormat := by
    intro n
    unfold Machine.env
    rfl
  have hform : o.timeFormat = o'.timeFormat → (fun t => getTimePointString m.conv t o'.timeFormat) = (m.env o t).formatTime := by
    intro e
    rw [← e]
    exact funext fun n => (hft n).symm
  generalize m.env o t = env at *
  have names : optionMembers (o.forSound rate channels) (o'.forSound rate channels) = optionMembers o o' := by
    unfold optionMembers
    rw [if_pos (show (o.forSound rate channels).numChannels = (o'.forSound rate channels).numChannels from rfl), if_pos hn]
    rfl
  have key := (alike_sound (ar := ar) (L := L) (alike_options (o := o.forSound rate channels) (o' := o'.forSound rate channels)
    (f := fun t => getTimePointString m.conv t o'.timeFormat)
    ⟨hs.rbds, hs.fec, hs.json, hs.json'⟩ hk hform m.delay) (o := o.forSound rate channels) (o' := o'.forSound rate channels) hst (fun ch => pair_new _ _ ch) (fun i => rfl) (fun i j => rfl)
    _ _ _ _).1 tr tr' h3 h3'
  refine ⟨tableLines t, soundLines tr, soundLines tr', h4, h4', ?_⟩
  rw [← names]
  exact linesPair_same (o := o.forSound rate channels) (o' := o'.forSound rate channels) hp (fun n => by rw [hft n]; exact htime n) htime' key

/-- **C97**, for the program: with `-t`, on machines whose clocks and whose `strftime` are different, the same lines about
location tables are printed, and then the same lines about groups, one for one, except for the receive times. -/
theorem C97_program (now : Nat → Int) (later : Nat → Nat → Int) (delay : Nat → Int) (conv : Str → Int → Str) (opts : List Opt)
    (extra : Bool) (o : Options) (h : getOptions m.float opts extra = some o) (he : o.earlyExit = false)
    (hj : o.outputType ≠ .hex) (ht : o.timestamp = true)
    (htime : ∀ t, ∃ s : String, getTimePointString m.conv t o.timeFormat = unicodeBytes s)
    (htime' : ∀ t, ∃ s : String, getTimePointString conv t o.timeFormat = unicodeBytes s)
    (rows : List KeyRow) (hv : ∀ r ∈ rows, r.Valid ∧ r.xorstart ≤ 24) (hf : m.keyFile = rows.map KeyRow.line)
    {fin fin' : Finished F} (hr : runMain ar L m opts extra = some fin) (hok : fin.success = true)
    (hr' : runMain ar L { m with now := now, later := later, delay := delay, conv := conv } opts extra = some fin')
    (hok' : fin'.success = true) :
    ∃ infos ls ls', o.printed fin = infos ++ ls.map .line ∧ o.printed fin' = infos ++ ls'.map .line ∧
      List.Forall₂ (SameLine ["rx_time"]) ls ls' := by
  have hr' : runMain ar L (m.atTime now later delay conv) opts extra = some fin' := hr'
  by_cases hi : o.inputType = .mpxStdin ∨ o.inputType = .mpxSndfile
  · obtain ⟨rate, channels, samples, t, tr, h1, h2, h3, h4⟩ := sound_calls ar L m o opts extra h he hi hr hok
    obtain ⟨rate', channels', samples', t', tr', h1', h2', h3', h4'⟩ :=
      sound_calls ar L (m.atTime now later delay conv) o opts extra h he hi hr' hok'
    rw [show (m.atTime now later delay conv).sound o = m.sound o from rfl, h1] at h1'
    cases h1'
    rw [tables_atTime, h2] at h2'
    cases h2'
    have hk := keysOk_of_rows m (o := o) t rows hv hf
    rw [env_atTime] at h3'
    have hft : ∀ n, (m.env o t).formatTime n = getTimePointString m.conv n o.timeFormat := by
      intro n
      unfold Machine.env
      rfl
    generalize m.env o t = env at *
    refine ⟨tableLines t, soundLines tr, soundLines tr', h4, h4', ?_⟩
    let p := fun (e : Env) (d : Nat → Int) (n : Nat → Int) (l : Nat → Nat → Int) =>
      processMPXInput ar L e d (o.forSound rate channels).untimed (rate ≠ 171000) n l (samples.length + 2) channels samples
    refine lines_three (env := env) (o := o.forSound rate channels) (p := soundLines) ht
      (fun n => by rw [hft n]; exact htime n) htime' (y := p env m.delay m.now m.later)
      (z := p (env.clock fun n => getTimePointString conv n o.timeFormat) delay now later) ?_ ?_ ?_ h3 h3'
    · exact alike_sound (alike_options (same_untimed (o := o.forSound rate channels) hj).1 hk
        (fun _ => rfl) m.delay) (o := o.forSound rate channels) (o' := (o.forSound rate channels).untimed) rfl
        (fun ch => pair_new _ _ ch) (fun i => rfl) (fun i j => rfl) _ _ _ _
    · exact alike_sound (alike_clocks _ m.delay delay) (o := (o.forSound rate channels).untimed)
        (o' := (o.forSound rate channels).untimed) rfl
        (fun ch => ⟨untimed_new _ _ rfl, _, rfl⟩) (fun i => trivial) (fun i j => trivial) _ _ _ _
    · exact alike_sound (alike_options (same_untimed (o := o.forSound rate channels) hj).2
        (env := env.clock fun n => getTimePointString conv n o.timeFormat) hk
        (fun _ => rfl) delay) (o := (o.forSound rate channels).untimed) (o' := o.forSound rate channels) rfl
        (fun ch => pair_new _ _ ch) (fun i => rfl) (fun i j => rfl) _ _ _ _
  · have hi : o.inputType = .asciiBits ∨ o.inputType = .hex ∨ o.inputType = .tef6686 := by
      revert hi
      cases o.inputType <;> simp
    obtain ⟨t, c, tr, h1, h2, h3⟩ := text_calls ar L m o opts extra h he hi hr
    obtain ⟨t', c', tr', h1', h2', h3'⟩ := text_calls ar L (m.atTime now later delay conv) o opts extra h he hi hr'
    rw [tables_atTime, h1] at h1'
    cases h1'
    have hk := keysOk_of_rows m (o := o) t rows hv hf
    rw [env_atTime] at h2'
    have hft : ∀ n, (m.env o t).formatTime n = getTimePointString m.conv n o.timeFormat := by
      intro n
      unfold Machine.env
      rfl
    generalize m.env o t = env at *
    refine ⟨tableLines t, printedLines tr, printedLines tr', h3, h3', ?_⟩
    refine C97_only_times env hk _ m.delay delay o hj ht (fun n => by rw [hft n]; exact htime n) htime' 0 _ _ ?_ ?_ h2 h2'
    · rcases hi with hi | hi | hi <;> rw [hi] <;> dsimp only
      · unfold bitCalls
        exact List.rel_append (sameCalls_map (fun _ => .bit _ _ _ _) _) (.cons (.flush _ _) .nil)
      · exact sameCalls_map (fun _ => .group _ _ _ _) _
      · exact sameCalls_map (fun _ => .group _ _ _ _) _
    · intro e hm
      rcases hi with hi | hi | hi <;> rw [hi] at hm <;> dsimp only at hm
      · unfold bitCalls at hm
        rcases List.mem_append.mp hm with hm | hm
        · obtain ⟨q, -, rfl⟩ := List.mem_map.mp hm
          show 0 < 4
          decide
        · rw [List.mem_singleton.mp hm]
          trivial
      · obtain ⟨q, -, rfl⟩ := List.mem_map.mp hm
        trivial
      · obtain ⟨q, -, rfl⟩ := List.mem_map.mp hm
        trivial

end

/-- With `-h -x`, the line of `oneLine_prints` is printed at any time. -/
example {F C : Type} (ar : Arith F) (L : Liquid F C) (lib : FloatLib) (now : Nat → Int) :
    ∃ fin, runMain ar L { oneLine F lib with now := now } [.letter 'h', .letter 'x'] false = some fin ∧
      fin.stdout = [.line (.hex (ascii "6204 0408 2020 4142\n"))] := by
  obtain ⟨fin, h1, h2⟩ := oneLine_prints ar L lib
  refine ⟨fin, ?_, h2⟩
  rw [← h1]
  refine C97_no_times ar L (oneLine F lib) now (oneLine F lib).later (oneLine F lib).delay (oneLine F lib).conv _ _ ?_
  intro o ho
  rw [show getOptions (oneLine F lib).float [.letter 'h', .letter 'x'] false =
      some { inputType := .hex, outputType := .hex } from rfl] at ho
  rw [← Option.some.inj ho]

/-- An environment in which times are printed as "early" and "late". -/
def timesEnv : Env := { demoEnv with formatTime := fun n => ascii (if n < 100 then "early" else "late") }

/-- The receive times, and the names of all members, when the three groups are received at the time `t`. -/
def demoTimes (t : Int) : Option (List (Option Str × List String)) :=
  (Channel.run timesEnv (fun _ => 0) (Channel.new { timestamp := true } 0) (demoNames.map fun g => .group t g 0)).map fun r =>
    (printedLines r.2).map fun l => match l with
    | .json (.obj m) => ((J.obj m).get? "rx_time" |>.bind fun j => match j with | .str s => some s | _ => none, m.map Prod.fst)
    | _ => (none, [])

/-- The times are not the same; all other members are. -/
example : demoTimes 5 = some [(some (ascii "early"), ["pi", "rx_time", "group", "tp", "prog_type", "di", "ta", "is_music"])] ∧
    demoTimes 500 = some [(some (ascii "late"), ["pi", "rx_time", "group", "tp", "prog_type", "di", "ta", "is_music"])] ∧
    List.Forall₂ SameCall (demoNames.map fun g => .group 5 g 0) (demoNames.map fun g => .group 500 g 0) :=
  ⟨by decide +kernel, by decide +kernel, .cons (.group _ _ _ _) (.cons (.group _ _ _ _) (.cons (.group _ _ _ _) .nil))⟩

/-- With `-h -t FORMAT`, on the machine of property C83. -/
example {F : Type} (lib : FloatLib) :
    getOptions (demoMachine F lib).float [.letter 'h', .arg 't' (ascii "%c")] false =
      some { inputType := .hex, timestamp := true, timeFormat := ascii "%c" } ∧
    (∀ t, ∃ s : String, getTimePointString (demoMachine F lib).conv t (ascii "%c") = unicodeBytes s) :=
  ⟨by rfl, fun t => ⟨"(format error)", by rw [show unicodeBytes _ = utf8Str "(format error)" by rw [unicodeBytes_eq]]; rfl⟩⟩

/-- With `-f a.wav` and with `-f a.wav -R -E`. -/
example (lib : FloatLib) :
    getOptions (oneChunk lib).float [.arg 'f' (ascii "a.wav")] false =
      some { inputType := .mpxSndfile, sndfilename := ascii "a.wav" } ∧
    getOptions (oneChunk lib).float [.arg 'f' (ascii "a.wav"), .letter 'R', .letter 'E'] false =
      some { inputType := .mpxSndfile, sndfilename := ascii "a.wav", showRaw := true, bler := true } ∧
    SameReception { inputType := .mpxSndfile, sndfilename := ascii "a.wav" }
      { inputType := .mpxSndfile, sndfilename := ascii "a.wav", showRaw := true, bler := true } ∧
    (oneChunk lib).sound { inputType := .mpxSndfile, sndfilename := ascii "a.wav", showRaw := true, bler := true } =
      (oneChunk lib).sound { inputType := .mpxSndfile, sndfilename := ascii "a.wav" } ∧
    optionMembers { inputType := .mpxSndfile, sndfilename := ascii "a.wav" }
      { inputType := .mpxSndfile, sndfilename := ascii "a.wav", showRaw := true, bler := true } = ["raw_data", "bler"] :=
  ⟨by rfl, by rfl, ⟨rfl, rfl, by decide, by decide⟩, rfl, by decide⟩

end Redsea
