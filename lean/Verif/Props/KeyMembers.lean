import Verif.Lemmas.KeyMembers
import Verif.Props.PlaceMembers

/-
Property C105: keys add the location to encrypted traffic messages, and do nothing else.
-/

namespace Redsea
open _root_.Spec _root_.Redsea.Spec

/-! ### Calls -/

/-- **C105**: whatever happens on a channel, with keys the channel is in the same state afterwards as without, and the lines
are those without keys, one for one, some of them with the location of a traffic message added. -/
theorem C105_adds_locations (env : Env) (hn : ∀ i, env.tmc.serviceKey i = none)
    (ht : ∀ n, ∃ s : String, env.formatTime n = unicodeBytes s) (hu : env.tmc.Utf8) (keys : Nat → Option ServiceKey)
    (hk : (env.withKeys keys).tmc.KeysOk) (delay : Nat → Int) (o : Options) (w : Nat)
    (es : List ChannelEvent) (hv : ∀ e ∈ es, e.Valid) :
    ∃ c tr tr', Channel.run env delay (Channel.new o w) es = some (c, tr) ∧
      Channel.run (env.withKeys keys) delay (Channel.new o w) es = some (c, tr') ∧
      List.Forall₂ AddsLocation (printedLines tr) (printedLines tr') := by
  have hk0 : env.tmc.KeysOk := fun i k h => by rw [hn] at h; cases h
  obtain ⟨c, tr, h1⟩ := C60_never_fails env hk0 delay o w es hv
  obtain ⟨d, tr', h2⟩ := C60_never_fails (env.withKeys keys) hk delay o w es hv
  have hval := tmc_valid_of_utf8 hu
  have hval' : (env.withKeys keys).tmc.Valid := tmc_valid_of_utf8 ⟨hu.events, hu.supplementary, hu.points, hu.roads⟩
  have p := (keyed_run hn hval hval' (times_valid ht) es (Channel.new o w)).1 _ _ h1 h2
  obtain ⟨e, p⟩ := p
  obtain rfl : d = c := e
  exact ⟨d, tr, tr', h1, h2, p⟩

/-- **C105**: two sets of keys give the same state, and the same lines apart from the location of traffic messages. -/
theorem C105_two_keys (env : Env) (ht : ∀ n, ∃ s : String, env.formatTime n = unicodeBytes s) (hu : env.tmc.Utf8)
    (hk : env.tmc.KeysOk) (keys : Nat → Option ServiceKey)
    (hk' : (env.withKeys keys).tmc.KeysOk) (delay : Nat → Int) (o : Options) (w : Nat)
    (es : List ChannelEvent) (hv : ∀ e ∈ es, e.Valid) :
    ∃ c tr tr', Channel.run env delay (Channel.new o w) es = some (c, tr) ∧
      Channel.run (env.withKeys keys) delay (Channel.new o w) es = some (c, tr') ∧
      (printedLines tr').map Line.withoutLocation = (printedLines tr).map Line.withoutLocation := by
  obtain ⟨c, tr, tr', h1, h2, h3⟩ := C105_adds_locations (env.withKeys fun _ => none) (fun _ => rfl) ht
    ⟨hu.events, hu.supplementary, hu.points, hu.roads⟩ env.tmc.serviceKey hk delay o w es hv
  obtain ⟨d, ur, ur', k1, k2, k3⟩ := C105_adds_locations (env.withKeys fun _ => none) (fun _ => rfl) ht
    ⟨hu.events, hu.supplementary, hu.points, hu.roads⟩ keys hk' delay o w es hv
  rw [h1] at k1
  cases k1
  exact ⟨c, tr', ur', h2, k2, adds_both k3 h3⟩

section
variable {F C : Type} (ar : Arith F) (L : Liquid F C)

/-- **C105**, for sound. -/
theorem C105_sound (env : Env) (hn : ∀ i, env.tmc.serviceKey i = none)
    (ht : ∀ n, ∃ s : String, env.formatTime n = unicodeBytes s) (hu : env.tmc.Utf8) (keys : Nat → Option ServiceKey)
    (delay : Nat → Int) (o : Options) (resampling : Bool)
    (clock : Nat → Int) (now : Nat → Nat → Int) (fuel channels : Nat) (file : List F) {tr tr' : List (Nat × Trace)}
    (h : processMPXInput ar L env delay o resampling clock now fuel channels file = some tr)
    (h' : processMPXInput ar L (env.withKeys keys) delay o resampling clock now fuel channels file = some tr') :
    List.Forall₂ AddsLocation (soundLines tr) (soundLines tr') :=
  (alike_sound (ar := ar) (L := L) (alike_keyed (f := keys) hn (tmc_valid_of_utf8 hu)
    (tmc_valid_of_utf8 (env := (env.withKeys keys).tmc) ⟨hu.events, hu.supplementary, hu.points, hu.roads⟩) (times_valid ht) delay) (o := o)
    (o' := o) rfl (fun _ => rfl) (fun _ => rfl) (fun _ _ => rfl) resampling fuel channels file).1 tr tr' h h'

/-! ### The program -/

/-- The path of the key file, src/tmc/tmc.cc:357. -/
def keyPath : Str := ascii "service_key_table.csv"

/-- The machine without the key file. -/
def Machine.withoutKeyFile (m : Machine F) : Machine F :=
  { m with files := fun p => if p = keyPath then none else m.files p }

variable (m : Machine F)

theorem directory_same (dir : Str) : m.withoutKeyFile.directory dir = m.directory dir := by
  have key : ∀ name : Str, name.getLast? = some 0x54 → m.withoutKeyFile.files (dir ++ name) = m.files (dir ++ name) := by
    intro name hl
    refine if_neg fun e => ?_
    have := congrArg List.getLast? e
    rw [List.getLast?_append, hl, Option.some_or] at this
    revert this
    decide
  unfold Machine.directory tableFiles
  rw [key _ (by decide), key _ (by decide), key _ (by decide), key _ (by decide), key _ (by decide), key _ (by decide),
    key _ (by decide)]

theorem tables_same (dirs : List Str) : loadTables m.withoutKeyFile dirs = loadTables m dirs := by
  induction dirs with
  | nil => rfl
  | cons dir dirs ih =>
    unfold loadTables
    rw [ih, directory_same]
    rfl

theorem key_file_gone : m.withoutKeyFile.keyFile = [] := by
  unfold Machine.keyFile
  have : m.withoutKeyFile.files (ascii "service_key_table.csv") = none :=
    if_pos (c := ascii "service_key_table.csv" = keyPath) (e := m.files (ascii "service_key_table.csv")) rfl
  rw [this]
  rfl

theorem no_key_file (o : Options) (t : List (Word × LocationDatabase)) (i : Nat) :
    (m.withoutKeyFile.env o t).tmc.serviceKey i = none := by
  have : (m.withoutKeyFile.env o t).tmc.serviceKey i = (loadServiceKeys m.withoutKeyFile.keyFile).lookup (BitVec.ofNat 16 i) := by
    unfold Machine.env
    rfl
  rw [this, key_file_gone]
  rfl

theorem env_keys (o : Options) (t : List (Word × LocationDatabase)) :
    m.env o t = (m.withoutKeyFile.env o t).withKeys (m.env o t).tmc.serviceKey := by
  unfold Machine.env
  rfl

variable (opts : List Opt) (extra : Bool) (o : Options)
  (h : getOptions m.float opts extra = some o) (he : o.earlyExit = false)
  (htime : ∀ t, ∃ s : String, getTimePointString m.conv t o.timeFormat = unicodeBytes s)
  (hu : ∀ t, loadTables m o.loctableDirs = some t → TablesUtf8 (numberedTables t))
  (rows : List KeyRow) (hv : ∀ r ∈ rows, r.Valid ∧ r.xorstart ≤ 24) (hf : m.keyFile = rows.map KeyRow.line)
include h he htime hu hv hf

/-- **C105**, for the program (text): with a key file, it prints what it prints without, with locations added to traffic
messages. -/
theorem C105_program (hi : o.inputType = .asciiBits ∨ o.inputType = .hex ∨ o.inputType = .tef6686)
    {fin fin' : Finished F} (hr : runMain ar L m.withoutKeyFile opts extra = some fin) (hr' : runMain ar L m opts extra = some fin') :
    ∃ t, ∃ ls ls' : List Line, loadTables m o.loctableDirs = some t ∧ o.printed fin = tableLines t ++ ls.map .line ∧
      o.printed fin' = tableLines t ++ ls'.map .line ∧ List.Forall₂ AddsLocation ls ls' := by
  obtain ⟨t, c, tr, h1, h2, h3⟩ := text_calls ar L m.withoutKeyFile o opts extra h he hi hr
  obtain ⟨t', c', tr', h1', h2', h3'⟩ := text_calls ar L m o opts extra h he hi hr'
  rw [tables_same, h1'] at h1
  obtain rfl : t = t' := (Option.some.inj h1).symm
  clear h1
  refine ⟨t, _, _, h1', h3, h3', ?_⟩
  have hk := keysOk_of_rows m (o := o) t rows hv hf
  have ht : ∀ n, ∃ s : String, (m.withoutKeyFile.env o t).formatTime n = unicodeBytes s := fun n => by
    rw [env_times]; exact htime n
  have htexts := env_texts m.withoutKeyFile o t (hu t h1')
  have hn := no_key_file m o t
  rw [env_keys m o t] at h2' hk
  generalize (m.env o t).tmc.serviceKey = keys at *
  generalize m.withoutKeyFile.env o t = env at *
  have hes : ∀ e ∈ (match o.inputType with
        | .asciiBits => bitCalls m.now (m.later 0) (asciiBitsFed m.stdin)
        | .hex => groupCalls m.now (hexInputGroups m.stdin)
        | _ => (tefInputGroups m.stdin).zipIdx.map fun q => .group (m.now q.2) q.1 0 : List ChannelEvent), e.Valid := by
    rcases hi with hi | hi | hi <;> rw [hi] <;> dsimp only
    · exact bitCalls_valid _ _ _
    · intro e he
      obtain ⟨q, -, rfl⟩ := List.mem_map.mp he
      trivial
    · intro e he
      obtain ⟨q, -, rfl⟩ := List.mem_map.mp he
      trivial
  obtain ⟨d, u, v, k1, k2, k3⟩ := C105_adds_locations env hn ht htexts keys hk m.delay o 0 _ hes
  have e1 := h2.symm.trans k1
  have e2 := h2'.symm.trans k2
  cases e1
  cases e2
  exact k3

omit hv hf in
/-- **C105**, for the program with sound as the input. -/
theorem C105_program_sound (hi : o.inputType = .mpxStdin ∨ o.inputType = .mpxSndfile)
    {fin fin' : Finished F} (hr : runMain ar L m.withoutKeyFile opts extra = some fin) (hok : fin.success = true)
    (hr' : runMain ar L m opts extra = some fin') (hok' : fin'.success = true) :
    ∃ t, ∃ ls ls' : List Line, loadTables m o.loctableDirs = some t ∧ o.printed fin = tableLines t ++ ls.map .line ∧
      o.printed fin' = tableLines t ++ ls'.map .line ∧ List.Forall₂ AddsLocation ls ls' := by
  obtain ⟨rate, channels, samples, t, tr, h1, h2, h3, h4⟩ := sound_calls ar L m.withoutKeyFile o opts extra h he hi hr hok
  obtain ⟨rate', channels', samples', t', tr', h1', h2', h3', h4'⟩ := sound_calls ar L m o opts extra h he hi hr' hok'
  have h1 : m.sound o = .opened rate channels samples := h1
  rw [h1'] at h1
  cases h1
  rw [tables_same, h2'] at h2
  obtain rfl : t = t' := (Option.some.inj h2).symm
  clear h2
  refine ⟨t, _, _, h2', h4, h4', ?_⟩
  have ht : ∀ n, ∃ s : String, (m.withoutKeyFile.env o t).formatTime n = unicodeBytes s := fun n => by
    rw [env_times]; exact htime n
  have htexts := env_texts m.withoutKeyFile o t (hu t h2')
  have hn := no_key_file m o t
  rw [env_keys m o t] at h3'
  generalize (m.env o t).tmc.serviceKey = keys at *
  generalize m.withoutKeyFile.env o t = env at *
  exact C105_sound ar L env hn ht htexts keys m.delay _ _ _ _ _ _ _ h3 h3'

end

/-! ### Examples -/

/-- A key. -/
def demoKey : ServiceKey := ⟨0x0B, 2, 5⟩

/-- An encrypted service begins, gives its number and location table 17, and sends a traffic message. -/
def keyCalls : List ChannelEvent :=
  demoCalls [demoHeard (demoTmc (tableWord 0 true false 5)), demoHeard (demoTmc (tableWord 0 true false 5)),
    demoHeard (demoTmc (tableWord 0 true false 5)), demoHeard (demoUser ⟨0, 0x0041, 0x4400⟩),
    demoHeard (demoUser { demoQueue with z := encryptLocation 7 0x0B 2 5 })]

/-- A decoder with a location table, and no keys. -/
def keyEnv : Env := demoEnv.withTables fun _ => bridgeTable

/-- Without keys the location is not known; with the key it is, and so is the place. -/
example : ((Channel.run keyEnv (fun _ => 0) (Channel.new {} 0) keyCalls).map fun q => placeNames (printedLines q.2)) =
      some [[], [], ["event_codes", "encrypted_location", "direction", "extent", "urgency"]] ∧
    ((Channel.run (keyEnv.withKeys fun _ => some demoKey) (fun _ => 0) (Channel.new {} 0) keyCalls).map fun q =>
      placeNames (printedLines q.2)) = some [[], [], ["event_codes", "encrypted_location", "location", "direction", "extent",
        "urgency", "coordinates", "span_from", "span_to", "road_number"]] := by
  refine ⟨?_, ?_⟩ <;> decide +kernel

/-- The case of `C105_adds_locations` for these. -/
example : ∃ c tr tr', Channel.run keyEnv (fun _ => 0) (Channel.new {} 0) keyCalls = some (c, tr) ∧
    Channel.run (keyEnv.withKeys fun _ => some demoKey) (fun _ => 0) (Channel.new {} 0) keyCalls = some (c, tr') ∧
    List.Forall₂ AddsLocation (printedLines tr) (printedLines tr') :=
  C105_adds_locations keyEnv (fun _ => rfl) (fun _ => ⟨"", show ([] : Str) = unicodeBytes "" by decide +kernel⟩)
    ⟨fun c e h => (nomatch h), fun c e h => (nomatch h), bridge_texts.points, bridge_texts.roads⟩ _
    (fun i k h => by cases h; decide) (fun _ => 0) {} 0 keyCalls
    (by intro e he; obtain ⟨q, -, rfl⟩ := List.mem_map.mp he; trivial)

/-- The case of `C105_two_keys` for the key and another one, which gives another location. -/
example : ∃ c tr tr', Channel.run (keyEnv.withKeys fun _ => some demoKey) (fun _ => 0) (Channel.new {} 0) keyCalls = some (c, tr) ∧
    Channel.run (keyEnv.withKeys fun _ => some { demoKey with nrot := 6 }) (fun _ => 0) (Channel.new {} 0) keyCalls = some (c, tr') ∧
    (printedLines tr').map Line.withoutLocation = (printedLines tr).map Line.withoutLocation :=
  C105_two_keys (keyEnv.withKeys fun _ => some demoKey) (fun _ => ⟨"", show ([] : Str) = unicodeBytes "" by decide +kernel⟩)
    ⟨fun c e h => (nomatch h), fun c e h => (nomatch h), bridge_texts.points, bridge_texts.roads⟩
    (fun i k h => by cases h; decide) (fun _ => some { demoKey with nrot := 6 })
    (fun i k h => by cases h; decide) (fun _ => 0) {} 0 keyCalls
    (by intro e he; obtain ⟨q, -, rfl⟩ := List.mem_map.mp he; trivial)

/-- A machine with a key file; without it there are no keys, and the location tables are the same. -/
example {F : Type} (lib : FloatLib) :
    (demoMachine F lib).keyFile = [KeyRow.line { encid := 1, xorval := 92, xorstart := 4, nrot := 11 }] ∧
    (demoMachine F lib).withoutKeyFile.keyFile = [] ∧
    loadTables (demoMachine F lib).withoutKeyFile [ascii "/tables"] = loadTables (demoMachine F lib) [ascii "/tables"] ∧
    getOptions (demoMachine F lib).float [.letter 'h', .arg 'l' (ascii "/tables")] false =
      some { inputType := .hex, loctableDirs := [ascii "/tables"] } :=
  ⟨by rw [demoRow_line]; show fileLines (demoFiles (ascii "service_key_table.csv")) = [ascii "1,92,4,11"]; decide +kernel,
    key_file_gone _, tables_same _ _, by rfl⟩

end Redsea
