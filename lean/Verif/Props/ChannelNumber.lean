import Verif.Lemmas.ChannelNumber
import Verif.Lemmas.MpxChannels
import Verif.Props.UpperStreams

/-
Property C103: the number of a channel shows in the member "channel", and in nothing else.
-/

namespace Redsea
open _root_.Spec _root_.Redsea.Spec

/-! ### Calls -/

/-- **C103**, where the number is not printed (hex output, or one channel): a channel does exactly the same whatever its number
is. -/
theorem C103_not_printed (env : Env) (delay : Nat → Int) (o : Options) (h : o.outputType = .hex ∨ o.numChannels ≤ 1)
    (w w' : Nat) (es : List ChannelEvent) {q : Channel × List Trace}
    (hr : Channel.run env delay (Channel.new o w) es = some q) :
    ∃ r, Channel.run env delay (Channel.new o w') es = some r ∧ r.2 = q.2 := by
  have p := number_run (env := env) (delay := delay) es (number_new (w := w') o w h)
  obtain ⟨r, hr'⟩ := Option.isSome_iff_exists.mp ((p.2 trivial).mpr (by rw [hr]; rfl))
  exact ⟨r, hr', (p.1 q r hr hr').2⟩

/-- The options for another number of channels. -/
def Options.ofChannels (o : Options) (k : Nat) : Options := { o with numChannels := k }

theorem ofChannels_members (o : Options) (j k : Nat) :
    ∀ n ∈ optionMembers (o.ofChannels j) (o.ofChannels k), n ∈ ["channel"] := by
  intro n hn
  unfold optionMembers at hn
  rw [if_pos (c := (o.ofChannels j).showPartial = (o.ofChannels k).showPartial) rfl,
    if_pos (c := (o.ofChannels j).showRaw = (o.ofChannels k).showRaw) rfl,
    if_pos (c := (o.ofChannels j).timestamp = (o.ofChannels k).timestamp ∧
      ((o.ofChannels j).timestamp = true → (o.ofChannels j).timeFormat = (o.ofChannels k).timeFormat)) ⟨rfl, fun _ => rfl⟩,
    if_pos (c := (o.ofChannels j).bler = (o.ofChannels k).bler) rfl,
    if_pos (c := (o.ofChannels j).streams = (o.ofChannels k).streams) rfl] at hn
  simp only [List.nil_append] at hn
  split at hn
  · cases hn
  · exact hn

theorem ofChannels_reception (o : Options) (h : o.outputType ≠ .hex) (j k : Nat) :
    SameReception (o.ofChannels j) (o.ofChannels k) := ⟨rfl, rfl, h, h⟩

/-- **C103**: two channels with the same calls print the same lines, one for one, apart from the member "channel": whatever
their numbers are, and whatever the numbers of channels of the two programs are. -/
theorem C103_same_lines (env : Env) (hk : env.tmc.KeysOk) (delay : Nat → Int) (o : Options) (hj : o.outputType ≠ .hex)
    (ht : ∀ n, ∃ s : String, env.formatTime n = unicodeBytes s) (j k w w' : Nat) (es : List ChannelEvent)
    (hv : ∀ e ∈ es, e.Valid) :
    ∃ q r, Channel.run env delay (Channel.new (o.ofChannels j) w) es = some q ∧
      Channel.run env delay (Channel.new (o.ofChannels k) w') es = some r ∧
      List.Forall₂ (SameLine ["channel"]) (printedLines q.2) (printedLines r.2) := by
  obtain ⟨c, tr, h1⟩ := C60_never_fails env hk delay (o.ofChannels j) w es hv
  obtain ⟨d, tr', h2⟩ := C60_never_fails env hk delay (o.ofChannels k) w' es hv
  obtain ⟨c1, tr1, h3⟩ := C60_never_fails env hk delay (o.ofChannels 1) w es hv
  obtain ⟨r, h4, e⟩ := C103_not_printed env delay (o.ofChannels 1) (.inr (Nat.le_refl 1)) w w' es h3
  have p1 := C89_same_lines env hk env.formatTime delay _ _ (ofChannels_reception o hj j 1) (fun _ => rfl) w es h1 h3 ht ht rfl
  have p2 := C89_same_lines env hk env.formatTime delay _ _ (ofChannels_reception o hj 1 k) (fun _ => rfl) w' es
    (c := r.1) (tr := r.2) h4 h2 ht ht rfl
  rw [e] at p2
  exact ⟨_, _, h1, h2, same_trans_lines (p1.imp fun a b h => same_more (ofChannels_members o j 1) h)
    (p2.imp fun a b h => same_more (ofChannels_members o 1 k) h)⟩

/-! ### Sound -/

theorem samples_length {α : Type} (n c k : Nat) (hc : c < n) (l : List α) (hl : l.length = k * n) :
    (channelSamples n c l).length = k := by
  unfold channelSamples
  rw [hl, Nat.mul_div_cancel _ (by omega)]
  have key : ∀ js : List Nat, (∀ i ∈ js, i < k) → (js.filterMap fun i => l[i * n + c]?).length = js.length := by
    intro js hjs
    induction js with
    | nil => rfl
    | cons i js ih =>
      have hi := hjs i List.mem_cons_self
      have hb : i * n + c < l.length := by
        have : (i + 1) * n ≤ k * n := Nat.mul_le_mul_right _ hi
        rw [Nat.add_mul, Nat.one_mul] at this
        omega
      rw [List.filterMap_cons_some (f := fun i => l[i * n + c]?) (b := l[i * n + c])
          (List.getElem?_eq_getElem hb), List.length_cons, List.length_cons,
        ih fun i hi => hjs i (List.mem_cons_of_mem _ hi)]
  rw [key _ fun i hi => List.mem_range.mp hi, List.length_range]

/-- Two channels with the same samples are given the same chunks. -/
theorem same_chunks {α : Type} (clock : Nat → Int) (n c c' : Nat) (hn : 1 ≤ n) (h32 : n ≤ 32) (hc : c < n) (hc' : c' < n)
    (fuel : Nat) (r : MPXReader α) (hr : r.numChannels = n ∧ r.chunkSize = mpxChunkSize n)
    (hs : channelSamples n c r.file = channelSamples n c' r.file) :
    mpxChunks clock c fuel r = mpxChunks clock c' fuel r := by
  obtain ⟨hpos, hbuf, hmul⟩ := mpxChunkSize_spec n hn h32
  induction fuel generalizing r with
  | zero => rfl
  | succ fuel ih =>
    rw [mpxChunks, mpxChunks]
    by_cases he : r.isEof = true
    · rw [if_pos he, if_pos he]
    rw [if_neg he, if_neg he]
    obtain ⟨hnc, hcs⟩ := hr
    by_cases hlt : r.file.length < mpxChunkSize n
    · have hlen : (r.file.take r.chunkSize).length < r.chunkSize := by
        rw [hcs, List.length_take]; omega
      have hE : r.fillBuffer.isEof = true := by
        unfold MPXReader.fillBuffer
        exact if_pos hlen
      have hN : r.fillBuffer.numChannels = n := hnc
      have hR : ∀ ch, ch < n → r.fillBuffer.readChunk ch = some r.fillBuffer.buffer := by
        intro ch hch
        unfold MPXReader.readChunk
        rw [if_neg (by omega), if_pos hE]
      have hD : r.fillBuffer.file = [] := by
        show r.file.drop r.chunkSize = []
        rw [hcs]
        exact List.drop_of_length_le (by omega)
      rw [hR c hc, hR c' hc', ih r.fillBuffer ⟨hN, hcs⟩ (by rw [hD]; simp [channelSamples])]
    · have hl : (r.file.take (mpxChunkSize n)).length = 8192 / n * n := by
        rw [List.length_take]; omega
      have hE : r.fillBuffer.isEof = false := by
        unfold MPXReader.fillBuffer
        rw [hcs]
        dsimp only
        rw [if_neg (by rw [hl, hmul]; omega)]
        simpa using he
      have hB : r.fillBuffer.buffer = r.file.take (mpxChunkSize n) := by rw [← hcs]; rfl
      have hD : r.fillBuffer.file = r.file.drop (mpxChunkSize n) := by rw [← hcs]; rfl
      have hN : r.fillBuffer.numChannels = n := hnc
      have hR : ∀ ch, ch < n → r.fillBuffer.readChunk ch = some (channelSamples n ch (r.file.take (mpxChunkSize n))) := by
        intro ch hch
        rw [readChunk_full _ ch (by omega) hE (by rw [hB, hl]; omega), hN, hB]
      have hs' := hs
      rw [← List.take_append_drop (mpxChunkSize n) r.file, channelSamples_append n c _ _ _ (by omega) hc hl,
        channelSamples_append n c' _ _ _ (by omega) hc' hl] at hs'
      obtain ⟨e1, e2⟩ := List.append_inj hs' (by rw [samples_length n c _ hc _ hl, samples_length n c' _ hc' _ hl])
      rw [hR c hc, hR c' hc', e1, ih r.fillBuffer ⟨hN, hcs⟩ (by rw [hD]; exact e2)]

section
variable {F C : Type} (ar : Arith F) (L : Liquid F C)

/-- The lines printed for a channel. -/
def channelLines (ch : Nat) (tr : List (Nat × Trace)) : List Line := printedLines (ofChannel ch tr)

theorem story_of {env : Env} {delay : Nat → Int} {o : Options} {resampling : Bool} {clock : Nat → Int} {now : Nat → Nat → Int}
    {fuel channels : Nat} {file : List F} {tr : List (Nat × Trace)}
    (h : processMPXInput ar L env delay o resampling clock now fuel channels file = some tr) {ch : Nat} (hch : ch < channels) :
    ∃ chunks, mpxChunks clock ch fuel (MPXReader.init channels file) = some chunks ∧
      channelStory ar L env delay (if o.streams then 4 else 1) ⟨SubcarrierSet.new ar L resampling, Channel.new o ch⟩ chunks
        (now ch) = some (ofChannel ch tr) := by
  obtain ⟨chunks, r, f, h1, h2, h3, h4⟩ := processMPXInput_channel ar L env delay o resampling clock now fuel channels file tr h ch hch
  refine ⟨chunks, h1, ?_⟩
  unfold channelStory
  rw [h2, Option.bind_eq_bind, Option.bind_some, h3, h4]
  rfl

/-- The last step: the clock is read at other times. -/
theorem story_clock {env : Env} {delay : Nat → Int} {o : Options} {num : Nat} {s : SubcarrierSet L} {w : Nat}
    {chunks : List (Int × List F)} {now now' : Nat → Int} (h : o.timestamp = false ∨ now = now') {tr : List Trace}
    (hr : channelStory ar L env delay num ⟨s, Channel.new o w⟩ chunks now = some tr) :
    ∃ tr', channelStory ar L env delay num ⟨s, Channel.new o w⟩ chunks now' = some tr' ∧ printedLines tr' = printedLines tr := by
  rcases h with h | rfl
  · have p := alike_story (ar := ar) (L := L) (alike_clocks (env := env) env.formatTime delay delay) (fun _ => trivial) num chunks
      (m := ⟨s, Channel.new o w⟩) (m' := ⟨s, Channel.new o w⟩) ⟨rfl, untimed_new o w h, _, rfl⟩ (now := now) (now' := now')
      fun _ => trivial
    rw [show env.clock env.formatTime = env from rfl] at p
    obtain ⟨tr', h'⟩ := Option.isSome_iff_exists.mp ((p.2 trivial).mpr (by rw [hr]; rfl))
    exact ⟨tr', h', p.1 _ _ hr h'⟩
  · exact ⟨tr, hr, rfl⟩

theorem story_number {env : Env} {delay : Nat → Int} {o : Options} {num : Nat} {s : SubcarrierSet L} {w : Nat} (w' : Nat)
    {chunks : List (Int × List F)} {now : Nat → Int} (h : o.outputType = .hex ∨ o.numChannels ≤ 1) {tr : List Trace}
    (hr : channelStory ar L env delay num ⟨s, Channel.new o w⟩ chunks now = some tr) :
    ∃ tr', channelStory ar L env delay num ⟨s, Channel.new o w'⟩ chunks now = some tr' ∧ printedLines tr' = printedLines tr := by
  have p := alike_story (ar := ar) (L := L) (alike_number env delay w') (fun _ => rfl) num chunks
    (m := ⟨s, Channel.new o w⟩) (m' := ⟨s, Channel.new o w'⟩) ⟨rfl, number_new o w h⟩ (now := now) (now' := now) fun _ => rfl
  obtain ⟨tr', h'⟩ := Option.isSome_iff_exists.mp ((p.2 trivial).mpr (by rw [hr]; rfl))
  exact ⟨tr', h', p.1 _ _ hr h'⟩

theorem story_channels {env : Env} (hk : env.tmc.KeysOk) {delay : Nat → Int} {o : Options} (hj : o.outputType ≠ .hex)
    (ht : ∀ n, ∃ s : String, env.formatTime n = unicodeBytes s) {num : Nat} {s : SubcarrierSet L} {w : Nat} (j k : Nat)
    {chunks : List (Int × List F)} {now : Nat → Int} {tr : List Trace}
    (hr : channelStory ar L env delay num ⟨s, Channel.new (o.ofChannels j) w⟩ chunks now = some tr) :
    ∃ tr', channelStory ar L env delay num ⟨s, Channel.new (o.ofChannels k) w⟩ chunks now = some tr' ∧
      List.Forall₂ (SameLine ["channel"]) (printedLines tr) (printedLines tr') := by
  have p := alike_story (ar := ar) (L := L) (alike_options (ofChannels_reception o hj j k) hk (f := env.formatTime) (fun _ => rfl)
    delay) (fun _ => rfl) num chunks (m := ⟨s, Channel.new (o.ofChannels j) w⟩) (m' := ⟨s, Channel.new (o.ofChannels k) w⟩)
    ⟨rfl, pair_new _ _ w⟩ (now := now) (now' := now) fun _ => rfl
  rw [show env.clock env.formatTime = env from rfl] at p
  obtain ⟨tr', h'⟩ := Option.isSome_iff_exists.mp ((p.2 trivial).mpr (by rw [hr]; rfl))
  have := linesPair_same (o := o.ofChannels j) (o' := o.ofChannels k) rfl ht ht (p.1 _ _ hr h')
  exact ⟨tr', h', this.imp fun a b h => same_more (ofChannels_members o j k) h⟩

variable (env : Env) (hk : env.tmc.KeysOk) (delay : Nat → Int) (o : Options)
  (ht : ∀ n, ∃ s : String, env.formatTime n = unicodeBytes s) (resampling : Bool) (clock : Nat → Int) (now : Nat → Nat → Int)
  (fuel n : Nat) (hn : 1 ≤ n) (h32 : n ≤ 32) (file : List F) (ch ch' : Nat) (hc : ch < n) (hc' : ch' < n)
  (hs : channelSamples n ch file = channelSamples n ch' file) (hnow : o.timestamp = false ∨ now ch = now ch')
  {tr : List (Nat × Trace)}
  (h : processMPXInput ar L env delay o resampling clock now fuel n file = some tr)

include hn h32 hc hc' hs hnow h

/-- **C103**, for hex output: two channels of a recording with the same samples print the same lines. -/
theorem C103_sound_hex (hj : o.outputType = .hex) : channelLines ch tr = channelLines ch' tr := by
  obtain ⟨x, e1, h1⟩ := story_of ar L h hc
  obtain ⟨y, e2, h2⟩ := story_of ar L h hc'
  rw [same_chunks clock n ch ch' hn h32 hc hc' fuel _ ⟨rfl, rfl⟩ hs, e2] at e1
  cases e1
  obtain ⟨t1, h3, l1⟩ := story_number ar L ch' (.inl hj) h1
  obtain ⟨t2, h4, l2⟩ := story_clock ar L hnow h3
  rw [h2] at h4
  cases h4
  exact (l2.trans l1).symm

include hk ht

/-- **C103**, for sound: two channels of a recording with the same samples print the same lines, one for one, apart from the
member "channel". -/
theorem C103_sound (hj : o.outputType ≠ .hex) :
    List.Forall₂ (SameLine ["channel"]) (channelLines ch tr) (channelLines ch' tr) := by
  obtain ⟨x, e1, h1⟩ := story_of ar L h hc
  obtain ⟨y, e2, h2⟩ := story_of ar L h hc'
  rw [same_chunks clock n ch ch' hn h32 hc hc' fuel _ ⟨rfl, rfl⟩ hs, e2] at e1
  cases e1
  obtain ⟨t1, h3, l1⟩ := story_channels ar L hk (o := o) hj ht o.numChannels 1 h1
  obtain ⟨t2, h4, l2⟩ := story_number ar L ch' (o := o.ofChannels 1) (.inr (Nat.le_refl 1)) h3
  obtain ⟨t3, h5, l3⟩ := story_clock ar L (o := o.ofChannels 1) hnow h4
  obtain ⟨t4, h6, l4⟩ := story_channels ar L hk (o := o) hj ht 1 o.numChannels h5
  rw [show o.ofChannels o.numChannels = o from rfl, h2] at h6
  cases h6
  rw [l3, l2] at l4
  exact same_trans_lines l1 l4

omit hk ht hs hnow h in
/-- **C103**, for the program: when it is run on a recording, two channels that have the same samples print the same lines,
one for one, apart from the member "channel". -/
theorem C103_program (m : Machine F) (opts : List Opt) (extra : Bool) (o : Options)
    (hg : getOptions m.float opts extra = some o) (he : o.earlyExit = false)
    (hi : o.inputType = .mpxStdin ∨ o.inputType = .mpxSndfile) (hj : o.outputType ≠ .hex)
    (htime : ∀ t, ∃ s : String, getTimePointString m.conv t o.timeFormat = unicodeBytes s) (rate : Nat) (samples : List F)
    (hm : m.sound o = .opened rate n samples) (hs : channelSamples n ch samples = channelSamples n ch' samples)
    (hnow : o.timestamp = false ∨ m.later ch = m.later ch')
    (rows : List KeyRow) (hv : ∀ r ∈ rows, r.Valid ∧ r.xorstart ≤ 24)
    (hf : m.keyFile = rows.map KeyRow.line) {fin : Finished F} (hr : runMain ar L m opts extra = some fin)
    (hok : fin.success = true) :
    ∃ infos tables tr, loadTables m o.loctableDirs = some tables ∧
      processMPXInput ar L (m.env o tables) m.delay (o.forSound rate n) (rate ≠ 171000) m.now m.later
        (samples.length + 2) n samples = some tr ∧
      o.printed fin = infos ++ (soundLines tr).map .line ∧
      List.Forall₂ (SameLine ["channel"]) (channelLines ch tr) (channelLines ch' tr) := by
  obtain ⟨rate', channels, samples', t, tr, h1, h2, h3, h4⟩ := sound_calls ar L m o opts extra hg he hi hr hok
  rw [hm] at h1
  cases h1
  have hk := keysOk_of_rows m (o := o) t rows hv hf
  refine ⟨_, t, tr, h2, h3, h4, ?_⟩
  refine C103_sound ar L (m.env o t) hk m.delay (o.forSound rate n) ?_ _ m.now m.later _ n hn h32 samples ch ch' hc hc' hs hnow
    h3 hj
  intro k
  unfold Machine.env
  exact htime k

end

/-! ### Examples -/

/-- The member "channel" of the lines, and how many other members there are. -/
def channelMembers (tr : List Trace) : List (Option Nat × Nat) :=
  (printedLines tr).map fun l => match l with
  | .json (.obj m) => (match m.lookup "channel" with | some (.int n) => some n.toNat | _ => none,
      (m.filter fun x => x.1 ≠ "channel").length)
  | _ => (none, 0)

/-- Channels 0 and 1 of two, and a channel alone. -/
example : ((Channel.run demoEnv (fun _ => 0) (Channel.new { numChannels := 2 } 0) (demoCalls demoNames)).map fun q =>
      channelMembers q.2) = some [(some 0, 7)] ∧
    ((Channel.run demoEnv (fun _ => 0) (Channel.new { numChannels := 2 } 1) (demoCalls demoNames)).map fun q =>
      channelMembers q.2) = some [(some 1, 7)] ∧
    ((Channel.run demoEnv (fun _ => 0) (Channel.new {} 0) (demoCalls demoNames)).map fun q =>
      channelMembers q.2) = some [(none, 7)] := by
  refine ⟨?_, ?_, ?_⟩ <;> decide +kernel

/-- A recording with the same in two channels. -/
def doubled {α : Type} (l : List α) : List α := l.flatMap fun x => [x, x]

theorem doubled_same {α : Type} (l : List α) : channelSamples 2 0 (doubled l) = channelSamples 2 1 (doubled l) := by
  have key : ∀ (l : List α) (i : Nat), (doubled l)[i * 2 + 0]? = (doubled l)[i * 2 + 1]? := by
    intro l
    induction l with
    | nil => intro i; rfl
    | cons x l ih =>
      intro i
      rw [show doubled (x :: l) = x :: x :: doubled l from rfl]
      cases i with
      | zero => rfl
      | succ i =>
        rw [show (i + 1) * 2 + 0 = i * 2 + 0 + 2 by omega, show (i + 1) * 2 + 1 = i * 2 + 1 + 2 by omega]
        exact ih i
  unfold channelSamples
  refine congrArg (fun f => List.filterMap f _) (funext fun i => key l i)

/-- The run of `C103_sound` on the recording of property C73, in two channels. -/
example : ∃ tr, processMPXInput exactArith demoLiquid demoEnv (fun _ => 0) { numChannels := 2 } false (fun _ => 0)
      (fun _ _ => 0) ((doubled demoRecording).length + 2) 2 (doubled demoRecording) = some tr ∧
    List.Forall₂ (SameLine ["channel"]) (channelLines 0 tr) (channelLines 1 tr) := by
  obtain ⟨tr, h1, -⟩ := C73_channel_stories exactArith demoLiquid demoEnv demoEnv_keys (fun _ => 0) { numChannels := 2 } false
    (fun h => by cases h) (fun _ => 0) (fun _ _ => 0) 2 (by omega) (by omega) (doubled demoRecording)
  have empty : ([] : Str) = unicodeBytes "" := by decide +kernel
  exact ⟨tr, h1, C103_sound exactArith demoLiquid demoEnv demoEnv_keys (fun _ => 0) { numChannels := 2 } (fun _ => ⟨"", empty⟩)
    false _ _ _ 2 (by omega) (by omega) _ 0 1 (by omega) (by omega) (doubled_same _) (.inl rfl) h1 (by decide)⟩

end Redsea
