import Verif.Lemmas.PlaceMembers
import Verif.Props.WallClock
import Verif.Props.Utf8
import Verif.Props.TmcProgram

/-
Property C104: location tables change the description of the place of a traffic message, and nothing else.
-/

namespace Redsea
open _root_.Spec _root_.Redsea.Spec

theorem tables_valid {env : Env} {f : Nat → LocationDatabase} (hu : env.tmc.Utf8) (hf : TablesUtf8 f) :
    (env.withTables f).tmc.Valid :=
  tmc_valid_of_utf8 ⟨hu.events, hu.supplementary, hf.points, hf.roads⟩

theorem times_valid {env : Env} (ht : ∀ n, ∃ s : String, env.formatTime n = unicodeBytes s) :
    ∀ n, validUtf8 (env.formatTime n) = true := fun n => (validUtf8_iff _).mpr (ht n)

/-! ### Calls -/

/-- **C104**: whatever happens on a channel, with other location tables the channel is in the same state afterwards, and the
same lines are printed, one for one, apart from the five members about the place of a traffic message. -/
theorem C104_same_lines (env : Env) (hk : env.tmc.KeysOk) (ht : ∀ n, ∃ s : String, env.formatTime n = unicodeBytes s)
    (hu : env.tmc.Utf8) (f : Nat → LocationDatabase) (hf : TablesUtf8 f) (delay : Nat → Int) (o : Options) (w : Nat)
    (es : List ChannelEvent) (hv : ∀ e ∈ es, e.Valid) :
    ∃ c tr tr', Channel.run env delay (Channel.new o w) es = some (c, tr) ∧
      Channel.run (env.withTables f) delay (Channel.new o w) es = some (c, tr') ∧
      (printedLines tr').map Line.withoutPlace = (printedLines tr).map Line.withoutPlace := by
  obtain ⟨c, tr, h1⟩ := C60_never_fails env hk delay o w es hv
  obtain ⟨d, tr', h2⟩ := C60_never_fails (env.withTables f) hk delay o w es hv
  have p := (placed_run (tmc_valid_of_utf8 hu) (tables_valid hu hf) (times_valid ht) es (Channel.new o w)).1 _ _ h1 h2
  obtain ⟨e, p⟩ := p
  obtain rfl : d = c := e
  exact ⟨d, tr, tr', h1, h2, p⟩

section
variable {F C : Type} (ar : Arith F) (L : Liquid F C)

/-- **C104**, for sound. -/
theorem C104_sound (env : Env) (ht : ∀ n, ∃ s : String, env.formatTime n = unicodeBytes s)
    (hu : env.tmc.Utf8) (f : Nat → LocationDatabase) (hf : TablesUtf8 f) (delay : Nat → Int) (o : Options) (resampling : Bool)
    (clock : Nat → Int) (now : Nat → Nat → Int) (fuel channels : Nat) (file : List F) {tr tr' : List (Nat × Trace)}
    (h : processMPXInput ar L env delay o resampling clock now fuel channels file = some tr)
    (h' : processMPXInput ar L (env.withTables f) delay o resampling clock now fuel channels file = some tr') :
    (soundLines tr').map Line.withoutPlace = (soundLines tr).map Line.withoutPlace :=
  (alike_sound (ar := ar) (L := L) (alike_placed (tmc_valid_of_utf8 hu) (tables_valid hu hf) (times_valid ht) delay) (o := o)
    (o' := o) rfl (fun _ => rfl) (fun _ => rfl) (fun _ _ => rfl) resampling fuel channels file).1 tr tr' h h'

/-! ### The program -/

/-- The options with other location tables. -/
def Options.withDirs (o : Options) (dirs : List Str) : Options := { o with loctableDirs := dirs }

/-- Location tables by number. -/
def numberedTables (tables : List (Word × LocationDatabase)) (n : Nat) : LocationDatabase :=
  (tables.lookup (BitVec.ofNat 16 n)).getD {}

variable (m : Machine F)

theorem env_tables (o : Options) (dirs : List Str) (t t' : List (Word × LocationDatabase)) :
    m.env (o.withDirs dirs) t' = (m.env o t).withTables (numberedTables t') := by
  unfold Machine.env
  rfl

theorem env_texts (o : Options) (t : List (Word × LocationDatabase)) (ht : TablesUtf8 (numberedTables t)) :
    (m.env o t).tmc.Utf8 := by
  obtain ⟨events, supplementary, h1, h2, h3, h4⟩ := C71_builtin_tables
  have e1 : (loadEvents tmcDataEvents).getD [] = events := by rw [h1]; rfl
  have e2 : (loadSupplementary tmcDataSuppl).getD [] = supplementary := by rw [h2]; rfl
  unfold Machine.env
  rw [e1, e2]
  exact ⟨fun c e he => h3 _ e he, fun c s hs => h4 _ s hs, ht.points, ht.roads⟩

theorem env_times (o : Options) (t : List (Word × LocationDatabase)) (n : Int) :
    (m.env o t).formatTime n = getTimePointString m.conv n o.timeFormat := by
  unfold Machine.env
  rfl

theorem dirs_members (o : Options) (dirs : List Str) : optionMembers o (o.withDirs dirs) = [] := by
  unfold optionMembers
  rw [if_pos (c := o.showPartial = (o.withDirs dirs).showPartial) rfl, if_pos (c := o.showRaw = (o.withDirs dirs).showRaw) rfl,
    if_pos (c := o.timestamp = (o.withDirs dirs).timestamp ∧ (o.timestamp = true → o.timeFormat = (o.withDirs dirs).timeFormat))
      ⟨rfl, fun _ => rfl⟩,
    if_pos (c := o.bler = (o.withDirs dirs).bler) rfl, if_pos (c := o.streams = (o.withDirs dirs).streams) rfl,
    if_pos (c := o.numChannels = (o.withDirs dirs).numChannels) rfl]
  rfl

theorem same_nil {a b : List Line} (h : List.Forall₂ (SameLine []) a b) : a = b := by
  induction h with
  | nil => rfl
  | cons h _ ih =>
    rw [ih]
    congr 1
    cases h with
    | error => rfl
    | json h =>
      obtain ⟨l, l', rfl, rfl, e⟩ := h
      have key : ∀ l : List (String × J), l.filter (fun m => m.1 ∉ ([] : List String)) = l := fun l =>
        List.filter_eq_self.mpr fun m _ => by simp
      rw [key, key] at e
      rw [e]

omit m in
theorem dirs_lines (env : Env) (hk : env.tmc.KeysOk) (ht : ∀ n, ∃ s : String, env.formatTime n = unicodeBytes s)
    (hu : env.tmc.Utf8) (f : Nat → LocationDatabase) (hf : TablesUtf8 f) (delay : Nat → Int) (o : Options) (dirs : List Str)
    (hj : o.outputType ≠ .hex) {es : List ChannelEvent} (hv : ∀ e ∈ es, e.Valid) {c c' : Channel} {tr tr' : List Trace}
    (h : Channel.run env delay (Channel.new o 0) es = some (c, tr))
    (h' : Channel.run (env.withTables f) delay (Channel.new (o.withDirs dirs) 0) es = some (c', tr')) :
    (printedLines tr').map Line.withoutPlace = (printedLines tr).map Line.withoutPlace := by
  obtain ⟨d, u, v, k1, k2, k3⟩ := C104_same_lines env hk ht hu f hf delay o 0 es hv
  rw [h] at k1
  cases k1
  have p := C89_same_lines (env.withTables f) hk env.formatTime delay o (o.withDirs dirs) ⟨rfl, rfl, hj, hj⟩ (fun _ => rfl) 0 es
    k2 h' ht ht rfl
  rw [dirs_members] at p
  rw [← same_nil p]
  exact k3

variable (opts opts' : List Opt) (extra extra' : Bool) (o : Options) (dirs : List Str)
  (h : getOptions m.float opts extra = some o) (h' : getOptions m.float opts' extra' = some (o.withDirs dirs))
  (he : o.earlyExit = false) (hj : o.outputType ≠ .hex)
  (htime : ∀ t, ∃ s : String, getTimePointString m.conv t o.timeFormat = unicodeBytes s)
  (hu : ∀ t, loadTables m o.loctableDirs = some t → TablesUtf8 (numberedTables t))
  (hu' : ∀ t, loadTables m dirs = some t → TablesUtf8 (numberedTables t))
  (rows : List KeyRow) (hv : ∀ r ∈ rows, r.Valid ∧ r.xorstart ≤ 24) (hf : m.keyFile = rows.map KeyRow.line)
include h h' he hj htime hu hu' hv hf

/-- **C104**, for the program: two command lines for the same input (text) that differ in the location tables (`-l`) print lines
about the tables, and then the same lines about groups, one for one, apart from the place of traffic messages. -/
theorem C104_program (hi : o.inputType = .asciiBits ∨ o.inputType = .hex ∨ o.inputType = .tef6686)
    {fin fin' : Finished F} (hr : runMain ar L m opts extra = some fin) (hr' : runMain ar L m opts' extra' = some fin') :
    ∃ t t', ∃ ls ls' : List Line, loadTables m o.loctableDirs = some t ∧ loadTables m dirs = some t' ∧
      o.printed fin = tableLines t ++ ls.map .line ∧ o.printed fin' = tableLines t' ++ ls'.map .line ∧
      ls'.map Line.withoutPlace = ls.map Line.withoutPlace := by
  obtain ⟨t, c, tr, h1, h2, h3⟩ := text_calls ar L m o opts extra h he hi hr
  obtain ⟨t', c', tr', h1', h2', h3'⟩ := text_calls ar L m (o.withDirs dirs) opts' extra' h' he hi hr'
  refine ⟨t, t', _, _, h1, h1', h3, h3', ?_⟩
  rw [env_tables m o dirs t t'] at h2'
  have hk := keysOk_of_rows m (o := o) t rows hv hf
  have ht : ∀ n, ∃ s : String, (m.env o t).formatTime n = unicodeBytes s := fun n => by rw [env_times]; exact htime n
  have htexts := env_texts m o t (hu t h1)
  generalize m.env o t = env at *
  refine dirs_lines env hk ht htexts _ (hu' t' h1') m.delay o dirs hj ?_ h2 h2'
  rcases hi with hi | hi | hi <;> rw [hi] <;> dsimp only
  · exact bitCalls_valid _ _ _
  · intro e he
    obtain ⟨q, -, rfl⟩ := List.mem_map.mp he
    trivial
  · intro e he
    obtain ⟨q, -, rfl⟩ := List.mem_map.mp he
    trivial

/-- **C104**, for the program with sound as the input. -/
theorem C104_program_sound (hi : o.inputType = .mpxStdin ∨ o.inputType = .mpxSndfile) (hm : m.sound (o.withDirs dirs) = m.sound o)
    {fin fin' : Finished F} (hr : runMain ar L m opts extra = some fin) (hok : fin.success = true)
    (hr' : runMain ar L m opts' extra' = some fin') (hok' : fin'.success = true) :
    ∃ t t', ∃ ls ls' : List Line, loadTables m o.loctableDirs = some t ∧ loadTables m dirs = some t' ∧
      o.printed fin = tableLines t ++ ls.map .line ∧ o.printed fin' = tableLines t' ++ ls'.map .line ∧
      ls'.map Line.withoutPlace = ls.map Line.withoutPlace := by
  obtain ⟨rate, channels, samples, t, tr, h1, h2, h3, h4⟩ := sound_calls ar L m o opts extra h he hi hr hok
  obtain ⟨rate', channels', samples', t', tr', h1', h2', h3', h4'⟩ := sound_calls ar L m (o.withDirs dirs) opts' extra' h' he hi
    hr' hok'
  rw [hm, h1] at h1'
  cases h1'
  refine ⟨t, t', _, _, h2, h2', h4, h4', ?_⟩
  rw [env_tables m o dirs t t'] at h3'
  have hk := keysOk_of_rows m (o := o) t rows hv hf
  have ht : ∀ n, ∃ s : String, (m.env o t).formatTime n = unicodeBytes s := fun n => by rw [env_times]; exact htime n
  have htexts := env_texts m o t (hu t h2)
  generalize m.env o t = env at *
  have p := alike_sound (ar := ar) (L := L) (alike_options (o := o.forSound rate channels) (o' := (o.withDirs dirs).forSound rate channels)
    (env := env.withTables (numberedTables t')) (f := env.formatTime) ⟨rfl, rfl, hj, hj⟩ hk (fun _ => rfl) m.delay)
    (o := o.forSound rate channels) (o' := (o.withDirs dirs).forSound rate channels) rfl (fun ch => pair_new _ _ ch)
    (clock := m.now) (clock' := m.now) (fun i => rfl) (now := m.later) (now' := m.later) (fun i j => rfl)
    (decide (rate ≠ 171000)) (samples.length + 2) channels samples
  obtain ⟨mid, hmid⟩ := Option.isSome_iff_exists.mp ((p.2 trivial).mp (Option.isSome_iff_exists.mpr ⟨tr', h3'⟩))
  have q := linesPair_same (o := o.forSound rate channels) (o' := (o.withDirs dirs).forSound rate channels) rfl ht ht
    (p.1 mid tr' hmid h3')
  rw [show (o.withDirs dirs).forSound rate channels = (o.forSound rate channels).withDirs dirs from rfl, dirs_members] at q
  rw [← same_nil q]
  exact C104_sound ar L env ht htexts _ (hu' t' h2') m.delay (o.forSound rate channels) _ _ _ _ _ _ h3 hmid

end

/-! ### Examples -/

/-- Location table 17, with two places on a road. -/
def bridgeTable : LocationDatabase where
  ltn := 17
  points := fun lcd =>
    if lcd = 7 then some { name1 := ascii "Bridge", roaLcd := 5, posOff := 8 }
    else if lcd = 8 then some { name1 := ascii "Ring", roaLcd := 5, negOff := 7 } else none
  roads := fun lcd => if lcd = 5 then some { roadNumber := ascii "E 18" } else none

theorem bridge_texts : TablesUtf8 fun _ => bridgeTable where
  points t lcd p h := by
    have h : (if lcd = 7 then some { name1 := ascii "Bridge", roaLcd := 5, posOff := 8 }
      else if lcd = 8 then some { name1 := ascii "Ring", roaLcd := 5, negOff := 7 } else none : Option Point) = some p := h
    split at h
    · cases h
      exact ⟨"Bridge", "", by decide +kernel, by decide +kernel⟩
    split at h
    · cases h
      exact ⟨"Ring", "", by decide +kernel, by decide +kernel⟩
    · cases h
  roads t lcd r h := by
    have h : (if lcd = 5 then some { roadNumber := ascii "E 18" } else none : Option Road) = some r := h
    split at h
    · cases h
      exact ⟨"E 18", "", by decide +kernel, by decide +kernel⟩
    · cases h

/-- Location table 17 is announced, and a traffic message is received. -/
def placeCalls : List ChannelEvent :=
  demoCalls [demoHeard (demoTmc (tableWord 17 true false 5)), demoHeard (demoTmc (tableWord 17 true false 5)),
    demoHeard (demoTmc (tableWord 17 true false 5)), demoHeard (demoUser demoQueue)]

/-- The names of the members of traffic messages. -/
def placeNames (l : List Line) : List (List String) :=
  l.map fun x => match x with
  | .json j => (match j.at? ["tmc", "message"] with | some (.obj m) => m.map (·.1) | _ => [])
  | _ => []

/-- With the table, without it, and with what the table says taken away. -/
example : ((Channel.run (demoEnv.withTables fun _ => bridgeTable) (fun _ => 0) (Channel.new {} 0) placeCalls).map fun q =>
      placeNames (printedLines q.2)) = some [[], ["event_codes", "location", "direction", "extent", "urgency", "coordinates",
        "span_from", "span_to", "road_number"]] ∧
    ((Channel.run demoEnv (fun _ => 0) (Channel.new {} 0) placeCalls).map fun q => placeNames (printedLines q.2)) =
      some [[], ["event_codes", "location", "direction", "extent", "urgency"]] ∧
    ((Channel.run (demoEnv.withTables fun _ => bridgeTable) (fun _ => 0) (Channel.new {} 0) placeCalls).map fun q =>
      placeNames ((printedLines q.2).map Line.withoutPlace)) =
      some [[], ["event_codes", "location", "direction", "extent", "urgency"]] := by
  refine ⟨?_, ?_, ?_⟩ <;> decide +kernel

/-- The case of `C104_same_lines` for these. -/
example : ∃ c tr tr', Channel.run demoEnv (fun _ => 0) (Channel.new {} 0) placeCalls = some (c, tr) ∧
    Channel.run (demoEnv.withTables fun _ => bridgeTable) (fun _ => 0) (Channel.new {} 0) placeCalls = some (c, tr') ∧
    (printedLines tr').map Line.withoutPlace = (printedLines tr).map Line.withoutPlace :=
  C104_same_lines demoEnv demoEnv_keys (fun _ => ⟨"", show ([] : Str) = unicodeBytes "" by decide +kernel⟩)
    ⟨fun c e h => (nomatch h), fun c e h => (nomatch h), fun t l p h => (nomatch h), fun t l p h => (nomatch h)⟩ _ bridge_texts
    (fun _ => 0) {} 0 placeCalls (by intro e he; obtain ⟨q, -, rfl⟩ := List.mem_map.mp he; trivial)

/-- With `-h`, and with `-h -l /tables`. -/
example {F : Type} (lib : FloatLib) :
    getOptions (demoMachine F lib).float [.letter 'h'] false = some { inputType := .hex } ∧
    getOptions (demoMachine F lib).float [.letter 'h', .arg 'l' (ascii "/tables")] false =
      some (({ inputType := .hex } : Options).withDirs [ascii "/tables"]) := ⟨by rfl, by rfl⟩

end Redsea
