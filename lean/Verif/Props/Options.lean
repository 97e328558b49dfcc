import Verif.Model.Options
import Mathlib.Algebra.Order.Ring.Rat

/-! # C57: command line options -/

namespace Redsea

/-- A sample rate in the range of the receiver. -/
def FloatVal.RateInRange (x : FloatVal) : Prop := ∃ r : Rat, x = .num r ∧ 128000 ≤ r ∧ r ≤ 40000000

/-- What holds after each option. -/
structure ParseOk (st : ParseState) : Prop where
  channels : 1 ≤ st.options.numChannels ∧ st.options.numChannels ≤ 32
  rate : st.options.isRateDefined = true →
    st.options.samplerate = .nan ∨ st.options.samplerate.RateInRange
  usage : st.options.initError = true → st.options.printUsage = true

theorem rate_checked {x : FloatVal}
    (h : ¬ (x.lt kMinimumSampleRate || x.gt kMaximumSampleRate) = true) :
    x = .nan ∨ x.RateInRange := by
  cases x with
  | nan => exact .inl rfl
  | negInf => exact absurd rfl h
  | posInf => exact absurd rfl h
  | num r =>
    refine .inr ⟨r, rfl, ?_, ?_⟩
    · by_contra hc
      apply h
      rw [Bool.or_eq_true]
      left
      show decide (r < kMinimumSampleRate) = true
      rw [decide_eq_true_iff]
      exact not_le.mp hc
    · by_contra hc
      apply h
      rw [Bool.or_eq_true]
      right
      show decide (kMaximumSampleRate < r) = true
      rw [decide_eq_true_iff]
      exact not_le.mp hc

theorem parseOption_ok {lib : FloatLib} {st st' : ParseState} {o : Opt} (h : ParseOk st)
    (hp : parseOption lib st o = some st') : ParseOk st' := by
  obtain ⟨hc, hr, hu⟩ := h
  unfold parseOption at hp
  split at hp
  case h_14 =>
    unfold parseChannels at hp
    dsimp only at hp
    split at hp
    · cases hp
    · rename_i hb
      cases hp
      simp only [Bool.or_eq_true, decide_eq_true_eq, not_or] at hb
      exact ⟨⟨by show 1 ≤ _ % _; omega, by show _ % _ ≤ 32; omega⟩, hr, hu⟩
  case h_16 =>
    unfold parseInput at hp
    split at hp
    · cases hp; exact ⟨hc, hr, hu⟩
    split at hp
    · cases hp; exact ⟨hc, hr, hu⟩
    split at hp
    · cases hp; exact ⟨hc, hr, hu⟩
    split at hp
    · cases hp; exact ⟨hc, hr, hu⟩
    · cases hp
  case h_17 =>
    unfold parseOutput at hp
    split at hp
    · cases hp; exact ⟨hc, hr, hu⟩
    split at hp
    · cases hp; exact ⟨hc, hr, hu⟩
    · cases hp
  case h_18 =>
    unfold parseRate at hp
    dsimp only at hp
    split at hp
    · cases hp
    split at hp
    · cases hp
    · rename_i hb
      cases hp
      exact ⟨hc, fun _ => rate_checked hb, hu⟩
  all_goals
    first
    | (cases hp; exact ⟨hc, hr, hu⟩)
    | (cases hp; exact ⟨hc, hr, fun _ => rfl⟩)

theorem parseLoop_ok {lib : FloatLib} {st st' : ParseState} {opts : List Opt} (h : ParseOk st)
    (hp : parseLoop lib st opts = some st') : ParseOk st' := by
  induction opts generalizing st with
  | nil => cases hp; exact h
  | cons o l ih =>
    rw [parseLoop] at hp
    obtain ⟨s1, h1, hp⟩ := Option.bind_eq_some_iff.mp hp
    have ok := parseOption_ok h h1
    split at hp
    · cases hp; exact ok
    · exact ih ok hp

theorem parseStart_ok : ParseOk {} :=
  ⟨⟨by decide, by decide⟩, fun h => absurd h (by decide), fun h => absurd h (by decide)⟩

/-- The combinations that are accepted. -/
structure Options.Consistent (o : Options) : Prop where
  /-- the number of channels -/
  channels : 1 ≤ o.numChannels ∧ o.numChannels ≤ 32
  /-- feed-through is not combined with a sound file -/
  feedThru : o.feedThru = true → o.inputType ≠ .mpxSndfile
  /-- several channels only with MPX -/
  multi : 1 < o.numChannels → o.inputType = .mpxStdin ∨ o.inputType = .mpxSndfile
  /-- RDS2 streams only with MPX or hex input -/
  streams : o.streams = true →
    o.inputType = .mpxStdin ∨ o.inputType = .mpxSndfile ∨ o.inputType = .hex

/-- **C57** (partial): whenever option parsing returns normally, the options are consistent; a defined
sample rate is in range, if it is a number; and if raw MPX input is going to be processed there is a
sample rate. Missing for the full property: not-a-number is accepted as sample rate
(`C57_rate_violated`). -/
theorem C57_accepted_partial (lib : FloatLib) (opts : List Opt) (extra : Bool) (o : Options)
    (h : getOptions lib opts extra = some o) :
    o.Consistent ∧
    (o.isRateDefined = true → o.samplerate = .nan ∨ o.samplerate.RateInRange) ∧
    (o.inputType = .mpxStdin → o.printUsage = false →
      o.samplerate = .nan ∨ o.samplerate.RateInRange) := by
  obtain ⟨st, hs, hf⟩ := Option.bind_eq_some_iff.mp h
  obtain ⟨hc, hr, hu⟩ := parseLoop_ok parseStart_ok hs
  unfold finishOptions at hf
  dsimp only at hf
  generalize ho1 : (if extra = true then
    { st.options with printUsage := true, initError := true, earlyExit := true, useFec := st.fecFlag }
    else { st.options with
      earlyExit := st.options.printUsage || st.options.printVersion, useFec := st.fecFlag }) = o1 at hf
  have hc1 : 1 ≤ o1.numChannels ∧ o1.numChannels ≤ 32 := by
    rw [← ho1]
    split <;> exact hc
  have hr1 : o1.isRateDefined = true → o1.samplerate = .nan ∨ o1.samplerate.RateInRange := by
    rw [← ho1]
    split <;> exact hr
  have hu1 : o1.initError = true → o1.printUsage = true := by
    rw [← ho1]
    split
    · exact fun _ => rfl
    · exact hu
  split at hf
  · cases hf
  rename_i n1
  split at hf
  · cases hf
  rename_i n2
  split at hf
  · cases hf
  rename_i n3
  have hcons : o1.Consistent := by
    refine ⟨hc1, ?_, ?_, ?_⟩
    · intro hft hi
      apply n1
      rw [hft, hi]
      rfl
    · intro hm
      by_contra hi
      apply n2
      rw [decide_eq_true hm]
      revert hi
      unfold InputType.isMpx
      cases o1.inputType <;> simp
    · intro hst
      by_contra hi
      apply n3
      rw [hst]
      revert hi
      unfold InputType.isMpx
      cases o1.inputType <;> simp
  have hf := Option.some.inj hf
  split at hf
  · rename_i hraw
    subst hf
    have hin : FloatVal.RateInRange (.num kTargetSampleRate) :=
      ⟨171000, rfl, by decide +kernel, by decide +kernel⟩
    exact ⟨⟨hcons.channels, hcons.feedThru, hcons.multi, hcons.streams⟩, fun _ => .inr hin,
      fun _ _ => .inr hin⟩
  · rename_i hraw
    subst hf
    refine ⟨hcons, hr1, ?_⟩
    intro hi hp
    apply hr1
    by_contra hd
    apply hraw
    have hie : o1.initError = false := by
      by_contra hc
      have := hu1 (by simpa using hc)
      rw [this] at hp
      cases hp
    rw [hi, hp, hie]
    simpa using hd

/-- What `finishOptions` does to the members that decide about an early exit. -/
theorem finishOptions_exit {st : ParseState} {extra : Bool} {o : Options}
    (h : finishOptions st extra = some o) :
    o.earlyExit = (extra || st.options.printUsage || st.options.printVersion) ∧
    o.printUsage = (extra || st.options.printUsage) ∧
    o.initError = (extra || st.options.initError) := by
  unfold finishOptions at h
  dsimp only at h
  generalize ho1 : (if extra = true then
    { st.options with printUsage := true, initError := true, earlyExit := true, useFec := st.fecFlag }
    else { st.options with
      earlyExit := st.options.printUsage || st.options.printVersion, useFec := st.fecFlag }) = o1 at h
  have h1 : o1.earlyExit = (extra || st.options.printUsage || st.options.printVersion) ∧
      o1.printUsage = (extra || st.options.printUsage) ∧
      o1.initError = (extra || st.options.initError) := by
    rw [← ho1]
    cases extra
    · exact ⟨rfl, rfl, rfl⟩
    · exact ⟨rfl, rfl, rfl⟩
  split at h
  · cases h
  split at h
  · cases h
  split at h
  · cases h
  have h := Option.some.inj h
  split at h <;> (subst h; exact h1)

/-- **C57** (partial): decoding only starts with consistent options and, for raw MPX, a sample rate. -/
theorem C57_processing_partial (lib : FloatLib) (opts : List Opt) (extra : Bool) (o : Options)
    (h : mainStart lib opts extra = .process o) :
    o.Consistent ∧ (o.inputType = .mpxStdin → o.samplerate = .nan ∨ o.samplerate.RateInRange) := by
  unfold mainStart at h
  cases ho : getOptions lib opts extra with
  | none => rw [ho] at h; cases h
  | some o' =>
    rw [ho] at h
    dsimp only at h
    split at h
    · split at h <;> cases h
    · rename_i he
      cases h
      obtain ⟨h1, -, h3⟩ := C57_accepted_partial lib opts extra o ho
      refine ⟨h1, fun hi => h3 hi ?_⟩
      obtain ⟨st, hs, hf⟩ := Option.bind_eq_some_iff.mp ho
      obtain ⟨e1, e2, -⟩ := finishOptions_exit hf
      rw [e1] at he
      rw [e2]
      revert he
      cases extra <;> cases st.options.printUsage <;> simp

/-- **C57** (partial): the exit code is a failure if parsing threw an exception and if there are
arguments that are not options. Missing for the full property: options that `getopt_long` does not
know (`C57_unknown_option_violated`). -/
theorem C57_exit_code_partial (lib : FloatLib) (opts : List Opt) (extra : Bool) :
    (getOptions lib opts extra = none → mainStart lib opts extra = .exitFailure) ∧
    (extra = true → mainStart lib opts extra = .exitFailure) := by
  refine ⟨fun h => by unfold mainStart; rw [h], ?_⟩
  intro he
  subst he
  unfold mainStart
  cases h : getOptions lib opts true with
  | none => rfl
  | some o =>
    obtain ⟨st, -, hf⟩ := Option.bind_eq_some_iff.mp h
    obtain ⟨e1, -, e3⟩ := finishOptions_exit hf
    dsimp only
    rw [e1, e3]
    rfl

/-- **C57, violated**: `--samplerate nan` is accepted, for every C library whose `strtof` knows "nan". -/
theorem C57_rate_violated (lib : FloatLib) (h1 : lib.strtof (ascii "nan") = (.nan, false))
    (h2 : ∀ x, lib.mul .nan x = .nan) : ∃ o,
    mainStart lib [.arg 'r' (ascii "nan")] false = .process o ∧ o.isRateDefined = true ∧
      ¬ o.samplerate.RateInRange := by
  have e : getOptions lib [.arg 'r' (ascii "nan")] false =
      some { samplerate := .nan, isRateDefined := true } := by
    have e1 : parseRate lib {} (ascii "nan") =
        some { options := { samplerate := .nan, isRateDefined := true } } := by
      unfold parseRate
      rw [h1]
      dsimp only
      rw [h2]
      rfl
    have e2 : parseLoop lib {} [.arg 'r' (ascii "nan")] =
        (parseRate lib {} (ascii "nan")).bind fun st =>
          if st.options.initError then some st else parseLoop lib st [] := rfl
    unfold getOptions
    rw [e2, e1]
    rfl
  refine ⟨{ samplerate := .nan, isRateDefined := true }, ?_, rfl, ?_⟩
  · unfold mainStart
    rw [e]
    rfl
  · rintro ⟨r, hr, -⟩
    cases hr

/-- **C57, violated**: an unknown option (for which `getopt_long` returns '?') leads to a successful
exit code. -/
theorem C57_unknown_option_violated (lib : FloatLib) :
    mainStart lib [.question] false = .exitSuccess := rfl

/-- Some accepted and rejected command lines. -/
example (lib : FloatLib) :
    getOptions lib [.arg 'f' (ascii "a.wav"), .arg 'c' (ascii "2"), .letter 's'] false =
      some { sndfilename := ascii "a.wav", inputType := .mpxSndfile, numChannels := 2,
             isNumChannelsDefined := true, streams := true } ∧
    getOptions lib [.letter 'h', .arg 'c' (ascii "2")] false = none ∧
    getOptions lib [.arg 'c' (ascii "33")] false = none ∧
    getOptions lib [.arg 'c' (ascii "99999999999999999999")] false = none ∧
    getOptions lib [.letter 'e', .arg 'f' (ascii "a.wav")] false = none := by
  refine ⟨by rfl, by rfl, by rfl, by rfl, by rfl⟩

/-- A defined sample rate. -/
example : ∃ lib : FloatLib, (getOptions lib [.arg 'r' (ascii "192k")] false).map (·.samplerate) =
    some (.num 192000) :=
  ⟨{ strtof := fun _ => (.num 192, false),
     mul := fun a b => match a, b with
       | .num a, .num b => .num (a * b)
       | _, _ => .nan }, by decide +kernel⟩

end Redsea
