import Verif.Lemmas.Causal

/-
C96: what is printed does not depend on input that comes later.
-/

namespace Redsea

section
variable {F C : Type} (ar : Arith F) (L : Liquid F C) (m : Machine F)

theorem env_longer (o : Options) (tables : List (Word × LocationDatabase)) (stdin : Str) (now : Nat → Int)
    (later : Nat → Nat → Int) (sound : Options → Recording F) :
    ({ m with stdin := stdin, now := now, later := later, sound := sound } : Machine F).env o tables = m.env o tables := by
  unfold Machine.env
  rfl

theorem tables_longer (dirs : List Str) (stdin : Str) (now : Nat → Int)
    (later : Nat → Nat → Int) (sound : Options → Recording F) :
    loadTables ({ m with stdin := stdin, now := now, later := later, sound := sound } : Machine F) dirs = loadTables m dirs := by
  induction dirs with
  | nil => rfl
  | cons d ds ih =>
    unfold loadTables
    rw [ih]
    rfl

theorem lines_common (p x y : List Trace) (h : (printedLines x).length ≤ 1) :
    (printedLines (p ++ x)).dropLast <+: printedLines (p ++ y) := by
  rw [printedLines_append, printedLines_append]
  match printedLines x, h with
  | [], _ =>
    rw [List.append_nil]
    exact (List.dropLast_prefix _).trans (List.prefix_append _ _)
  | [l], _ =>
    rw [List.dropLast_concat]
    exact List.prefix_append _ _

/-- **C96**, for input that is text: let the program read an input, and let it read an input that begins with the same
characters and goes on in any way. The lines that are printed for the first input, but for the last one, are also the first
lines that are printed for the second. (The last line may be about something that the input cuts off.) The clock shows the
same times for as long as the inputs are the same. -/
theorem C96_text (opts : List Opt) (extra : Bool) (o : Options) (h : getOptions m.float opts extra = some o)
    (he : o.earlyExit = false) (hi : o.inputType = .asciiBits ∨ o.inputType = .hex ∨ o.inputType = .tef6686)
    (more : Str) (now : Nat → Int) (later : Nat → Nat → Int) (hn : ∀ i, i < m.stdin.length → now i = m.now i)
    {fin fin' : Finished F} (hr : runMain ar L m opts extra = some fin)
    (hr' : runMain ar L { m with stdin := m.stdin ++ more, now := now, later := later } opts extra = some fin') :
    ∃ infos, ∃ ls ls' : List Line, o.printed fin = infos ++ ls.map .line ∧ o.printed fin' = infos ++ ls'.map .line ∧
      ls.dropLast <+: ls' := by
  obtain ⟨t, c, tr, h1, h2, h3⟩ := text_calls ar L m o opts extra h he hi hr
  obtain ⟨t', c', tr', h1', h2', h3'⟩ := text_calls ar L { m with stdin := m.stdin ++ more, now := now, later := later } o opts extra h he hi hr'
  rw [tables_longer m, h1] at h1'
  cases h1'
  rw [env_longer m] at h2'
  refine ⟨tableLines t, printedLines tr, printedLines tr', h3, h3', ?_⟩
  dsimp only at h2'
  generalize m.env o t = env at h2 h2'
  rcases hi with hi | hi | hi <;> rw [hi] at h2 h2' <;> dsimp only at h2 h2'
  · obtain ⟨bs, x, d, e1, e2, e3⟩ := asciiBitsFed_longer m.stdin more
    unfold bitCalls at h2 h2'
    rw [e1, calls_snoc (fun t b => .bit t b 0), List.append_assoc] at h2
    obtain ⟨es, e4⟩ := calls_longer (fun t b => ChannelEvent.bit t b 0) m.now now bs (asciiBitsFed d) fun i hlt => hn i (by omega)
    rw [e2, e4, List.append_assoc] at h2'
    obtain ⟨cp, tp, tx, ty, hp, hx, -, rfl, rfl⟩ := run_common h2 h2'
    exact lines_common _ _ _ (bit_lines hp hx)
  · obtain ⟨gs, g, d, e1, e2, e3, -⟩ := hexInputGroups_longer m.stdin more
    unfold groupCalls at h2 h2'
    rw [e1, calls_snoc (fun t (g : Group) => .group t g g.dataStream)] at h2
    obtain ⟨es, e4⟩ := calls_longer (fun t (g : Group) => ChannelEvent.group t g g.dataStream) m.now now gs (hexInputGroups d)
      fun i hlt => hn i (by omega)
    rw [e2, e4] at h2'
    obtain ⟨cp, tp, tx, ty, hp, hx, -, rfl, rfl⟩ := run_common h2 h2'
    exact lines_common _ _ _ (group_lines hx)
  · obtain ⟨gs, g, d, e1, e2, e3⟩ := tefInputGroups_longer m.stdin more
    rw [e1, calls_snoc (fun t (g : Group) => .group t g 0)] at h2
    obtain ⟨es, e4⟩ := calls_longer (fun t (g : Group) => ChannelEvent.group t g 0) m.now now gs (tefInputGroups d)
      fun i hlt => hn i (by omega)
    rw [e2, e4] at h2'
    obtain ⟨cp, tp, tx, ty, hp, hx, -, rfl, rfl⟩ := run_common h2 h2'
    exact lines_common _ _ _ (group_lines hx)

/-- **C96**, for lines of hexadecimal input: when the first input ends with a newline, everything that is printed for it is
also what is printed first for the second. -/
theorem C96_whole_lines (opts : List Opt) (extra : Bool) (o : Options) (h : getOptions m.float opts extra = some o)
    (he : o.earlyExit = false) (hi : o.inputType = .hex) (lines more : Str) (hl : m.stdin = lines ++ ascii "\n")
    (now : Nat → Int) (later : Nat → Nat → Int) (hn : ∀ i, i < m.stdin.length → now i = m.now i)
    {fin fin' : Finished F} (hr : runMain ar L m opts extra = some fin)
    (hr' : runMain ar L { m with stdin := m.stdin ++ more, now := now, later := later } opts extra = some fin') :
    o.printed fin <+: o.printed fin' := by
  obtain ⟨t, c, tr, h1, h2, h3⟩ := text_calls ar L m o opts extra h he (.inr (.inl hi)) hr
  obtain ⟨t', c', tr', h1', h2', h3'⟩ := text_calls ar L { m with stdin := m.stdin ++ more, now := now, later := later } o opts extra h he (.inr (.inl hi)) hr'
  rw [tables_longer m, h1] at h1'
  cases h1'
  rw [env_longer m] at h2'
  generalize m.env o t = env at h2 h2'
  rw [hi] at h2 h2'
  dsimp only at h2 h2'
  obtain ⟨gs, g, d, e1, e2, e3, e5⟩ := hexInputGroups_longer m.stdin more
  unfold groupCalls at h2 h2'
  rw [e1, calls_snoc (fun t (g : Group) => .group t g g.dataStream), e5 (.inr ⟨lines, hl⟩)] at h2
  obtain ⟨es, e4⟩ := calls_longer (fun t (g : Group) => ChannelEvent.group t g g.dataStream) m.now now gs (hexInputGroups d)
    fun i hlt => hn i (by omega)
  rw [e2, e4] at h2'
  obtain ⟨cp, tp, tx, ty, hp, hx, -, rfl, rfl⟩ := run_common h2 h2'
  rw [h3, h3', printedLines_append, printedLines_append, empty_lines hx, List.append_nil, List.map_append, ← List.append_assoc]
  exact List.prefix_append _ _

/-- **C96**, for sound: let a recording begin with the samples of another one, whose length is a number of whole chunks. Every
line that is printed for the shorter recording is among the first that are printed for the longer one, except for lines about
groups that were incomplete when it ended: at most one for each of the streams 1 to 3 of each channel. -/
theorem C96_sound (opts : List Opt) (extra : Bool) (o : Options) (h : getOptions m.float opts extra = some o)
    (he : o.earlyExit = false) (hi : o.inputType = .mpxStdin ∨ o.inputType = .mpxSndfile)
    (rate channels : Nat) (hc : 1 ≤ channels) (hc2 : channels ≤ 32) (samples more : List F) (k : Nat)
    (hk : samples.length = k * (8192 / channels * channels))
    (hm : m.sound o = .opened rate channels samples) (sound : Options → Recording F)
    (hm' : sound o = .opened rate channels (samples ++ more)) (now : Nat → Int) (later : Nat → Nat → Int)
    (hn : ∀ i, i < k → now ((samples ++ more).length + 1 - i) = m.now (samples.length + 1 - i))
    {fin fin' : Finished F} (hr : runMain ar L m opts extra = some fin)
    (hr' : runMain ar L { m with sound := sound, now := now, later := later } opts extra = some fin') :
    ∃ common rest, o.printed fin = common ++ rest ∧ rest.length ≤ 3 * channels ∧ common <+: o.printed fin' := by
  rw [runMain_process ar L m opts extra h he] at hr
  rw [runMain_process ar L { m with sound := sound, now := now, later := later } opts extra h he] at hr'
  have e : runMPX ar L m o = some fin ∧ runMPX ar L { m with sound := sound, now := now, later := later } o = some fin' := by
    rcases hi with hi | hi <;> rw [hi] at hr hr' <;> exact ⟨hr, hr'⟩
  obtain ⟨hr, hr'⟩ := e
  unfold runMPX at hr hr'
  rw [hm] at hr
  rw [show ({ m with sound := sound, now := now, later := later } : Machine F).sound o = _ from hm'] at hr'
  dsimp only at hr hr'
  by_cases ha : (!rateAccepted rate o.streams) = true
  · rw [if_pos ha] at hr hr'
    cases hr
    cases hr'
    exact ⟨o.printed _, [], by rw [List.append_nil], Nat.zero_le _, List.prefix_refl _⟩
  · rw [if_neg ha] at hr hr'
    obtain ⟨t, ht, hr⟩ := Option.bind_eq_some_iff.mp hr
    obtain ⟨t', ht', hr'⟩ := Option.bind_eq_some_iff.mp hr'
    rw [tables_longer m, ht] at ht'
    cases ht'
    by_cases hb : (!resamplerAccepts rate) = true
    · rw [if_pos hb] at hr
      cases hr
    · rw [if_neg hb] at hr hr'
      obtain ⟨tr, h1, hr⟩ := Option.bind_eq_some_iff.mp hr
      obtain ⟨ec, -, hr⟩ := Option.bind_eq_some_iff.mp hr
      obtain ⟨tr', h1', hr'⟩ := Option.bind_eq_some_iff.mp hr'
      obtain ⟨ec', -, hr'⟩ := Option.bind_eq_some_iff.mp hr'
      have hp : o.printed fin = tableLines t ++ (printedLines (tr.map (·.2))).map .line := by
        rw [← Option.some.inj hr]
        exact printed_finish _ _ _
      have hp' : o.printed fin' = tableLines t ++ (printedLines (tr'.map (·.2))).map .line := by
        rw [← Option.some.inj hr']
        exact printed_finish _ _ _
      rw [env_longer m] at h1'
      generalize m.env _ t = env at h1 h1'
      unfold processMPXInput at h1 h1'
      obtain ⟨⟨m1, t1⟩, h2, h1⟩ := Option.bind_eq_some_iff.mp h1
      obtain ⟨f1, h3, h1⟩ := Option.bind_eq_some_iff.mp h1
      obtain ⟨⟨m2, t2⟩, h2', h1'⟩ := Option.bind_eq_some_iff.mp h1'
      obtain ⟨f2, h3', h1'⟩ := Option.bind_eq_some_iff.mp h1'
      have hchunk : 0 < 8192 / channels * channels := by
        have : 0 < 8192 / channels := Nat.div_pos (by omega) (by omega)
        exact Nat.mul_pos this hc
      have heof : decide (channels ≥ kBufferSize) = false := by
        rw [decide_eq_false_iff_not]
        have : kBufferSize = 10945 := by decide
        omega
      obtain ⟨ms2, tp, x, y, n, r2, g1, g2, g3, g4, g5, g6, g7⟩ := mpxLoop_common ar L env m.delay _ m.now now more k
        (samples.length + 2) ((samples ++ more).length + 2) (MPXReader.init channels samples)
        (MPXReader.init channels (samples ++ more)) _ rfl rfl heof heof hk rfl hn h2 h2'
      have g8 := mpxLoop_end ar L g3 g4 (by rw [g5]; exact hchunk) g7
      have g9 := flushChannels_count L _ h3
      have hlen : m1.length = channels := by
        rw [g8.2, g6, List.length_map, List.length_range]
      cases h1
      cases h1'
      refine ⟨tableLines t ++ (printedLines (tp.map (·.2))).map .line, (printedLines (f1.map (·.2))).map .line, ?_, ?_, ?_⟩
      · rw [hp]
        show _ ++ (printedLines ((t1 ++ f1).map (·.2))).map _ = _
        rw [show t1 = tp ++ x from g1, List.map_append, List.map_append, printedLines_append, printedLines_append, g8.1,
          List.append_nil, List.map_append, List.append_assoc]
      · rw [List.length_map]
        refine Nat.le_trans (List.length_filterMap_le _ _) ?_
        rw [List.length_map, ← hlen]
        exact g9
      · rw [hp']
        show _ <+: _ ++ (printedLines ((t2 ++ f2).map (·.2))).map _
        rw [show t2 = tp ++ y from g2, List.map_append, List.map_append, printedLines_append, printedLines_append,
          List.map_append, List.map_append, List.append_assoc, ← List.append_assoc]
        exact List.prefix_append _ _

end

/-- A machine that reads one line. -/
def oneLine (F : Type) (lib : FloatLib) : Machine F := { demoMachine F lib with stdin := ascii "6204 0408 2020 4142\n" }

theorem oneLine_groups : hexInputGroups (ascii "6204 0408 2020 4142\n") =
    [parseHexLine (Group.disableOffsets {}) (ascii "6204 0408 2020 4142"), Group.disableOffsets {}] := by
  rw [hexInputGroups_eq, readHexLoop_line_eq (line := ascii "6204 0408 2020 4142") (rest := []) (eof := false) (by decide),
    if_neg (by decide), if_neg (by decide), hexInputGroups_eq,
    readHexLoop_line_eq (line := []) (rest := []) (eof := true) (by decide), if_pos (by decide), if_pos rfl,
    if_pos (by decide)]

theorem oneLine_text : printAsHex (Channel.markStream
      (parseHexLine (Group.disableOffsets {}) (ascii "6204 0408 2020 4142")) 0) none = ascii "6204 0408 2020 4142\n" := by
  decide +kernel

theorem oneLine_prints {F C : Type} (ar : Arith F) (L : Liquid F C) (lib : FloatLib) :
    ∃ fin, runMain ar L (oneLine F lib) [.letter 'h', .letter 'x'] false = some fin ∧
      fin.stdout = [.line (.hex (ascii "6204 0408 2020 4142\n"))] := by
  have h1 : getOptions (oneLine F lib).float [.letter 'h', .letter 'x'] false =
      some { inputType := .hex, outputType := .hex } := rfl
  rw [runMain_process ar L _ _ _ h1 rfl]
  dsimp only
  unfold runHex processHexInput
  rw [show (oneLine F lib).stdin = ascii "6204 0408 2020 4142\n" from rfl, oneLine_groups]
  generalize (oneLine F lib).env = env
  refine ⟨_, rfl, ?_⟩
  show [Item.line (.hex (printAsHex (Channel.markStream
    (parseHexLine (Group.disableOffsets {}) (ascii "6204 0408 2020 4142")) 0) none))] = _
  rw [oneLine_text]

/-- With `-h -x`, one line is printed for one line of input, before and after the input goes on. -/
example {F C : Type} (ar : Arith F) (L : Liquid F C) (lib : FloatLib) (more : Str) :
    getOptions (oneLine F lib).float [.letter 'h', .letter 'x'] false = some { inputType := .hex, outputType := .hex } ∧
    (∃ fin, runMain ar L (oneLine F lib) [.letter 'h', .letter 'x'] false = some fin ∧
      fin.stdout = [.line (.hex (ascii "6204 0408 2020 4142\n"))]) ∧
    (∀ fin, runMain ar L { oneLine F lib with stdin := (oneLine F lib).stdin ++ more } [.letter 'h', .letter 'x'] false = some fin →
      fin.stdout.head? = some (.line (.hex (ascii "6204 0408 2020 4142\n")))) := by
  have h1 : getOptions (oneLine F lib).float [.letter 'h', .letter 'x'] false =
      some { inputType := .hex, outputType := .hex } := rfl
  have h2 := oneLine_prints ar L lib
  refine ⟨h1, h2, fun fin hf => ?_⟩
  obtain ⟨fin0, hr, ho⟩ := h2
  obtain ⟨t, ht⟩ := C96_whole_lines ar L (oneLine F lib) _ _ _ h1 rfl rfl (ascii "6204 0408 2020 4142") more rfl
    (oneLine F lib).now (oneLine F lib).later (fun _ _ => rfl) hr hf
  rw [show Options.printed _ fin0 = fin0.stdout from rfl, show Options.printed _ fin = fin.stdout from rfl, ho] at ht
  rw [← ht]
  rfl

/-- A machine that hears one chunk of silence. -/
def oneChunk (lib : FloatLib) : Machine Int :=
  { demoMachine Int lib with sound := fun _ => .opened 171000 1 (List.replicate 8192 0) }

/-- The hypotheses of `C96_sound`. -/
example (lib : FloatLib) (more : List Int) :
    getOptions (oneChunk lib).float [.arg 'f' (ascii "a.wav")] false =
      some { inputType := .mpxSndfile, sndfilename := ascii "a.wav" } ∧
    (List.replicate 8192 (0 : Int)).length = 1 * (8192 / 1 * 1) ∧
    (oneChunk lib).sound { inputType := .mpxSndfile, sndfilename := ascii "a.wav" } =
      .opened 171000 1 (List.replicate 8192 0) ∧
    (∃ now : Nat → Int, ∀ i, i < 1 →
      now ((List.replicate 8192 (0 : Int) ++ more).length + 1 - i) =
        (oneChunk lib).now ((List.replicate 8192 (0 : Int)).length + 1 - i)) :=
  ⟨by rfl, by rw [List.length_replicate], rfl, fun _ => (oneChunk lib).now _, fun i h => by
    obtain rfl : i = 0 := by omega
    rfl⟩

end Redsea
