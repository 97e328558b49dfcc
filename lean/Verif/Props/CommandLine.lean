import Verif.Spec.CommandLine
import Verif.Props.Main
import Verif.Props.Options
import Verif.Lemmas.JsonText

/-
Property C88: the options on the command line.
-/

namespace Redsea

open _root_.Redsea.Spec

theorem lastChoice_snoc {α : Type} (choice : Opt → Option α) (d : α) (opts : List Opt) (x : Opt) :
    lastChoice choice d (opts ++ [x]) = (choice x).getD (lastChoice choice d opts) := by
  unfold lastChoice
  rw [List.filterMap_append]
  cases h : choice x with
  | none => simp [h]
  | some v => simp [h]

theorem unitOf_eq (a : Str) : unitOf a = rateFactor a := by
  unfold unitOf rateFactor
  by_cases h : a.length > 1
  · rw [if_pos h]
    have h2 : 2 ≤ a.length := h
    simp only [h2, true_and]
    by_cases h3 : a.getLast? = some 0x6B ∨ a.getLast? = some 0x4B
    · rw [if_pos h3, if_pos h3]
    · rw [if_neg h3, if_neg h3]
      by_cases h4 : a.getLast? = some 0x6D ∨ a.getLast? = some 0x4D
      · rw [if_pos h4, if_pos h4.symm]
      · rw [if_neg h4, if_neg (fun x => h4 x.symm)]
  · rw [if_neg h, if_neg (fun x => h x.1), if_neg (fun x => h x.1)]

/-- A flag is set by one option. -/
def flagChoice (x y : Opt) : Option Bool := if y = x then some true else none

/-- An option with an argument is given. -/
def givenWith (c : Char) (x : Opt) : Option Bool := (argumentOf c x).map fun _ => true

/-- What an option changes. -/
structure Understood (lib : FloatLib) (x : Opt) (st st' : ParseState) : Prop where
  noError : st'.options.initError = st.options.initError
  fec : st'.fecFlag = (if x = .noFec then some false else none).getD st.fecFlag
  usage : st'.options.printUsage = (flagChoice (.question) x).getD st.options.printUsage
  version : st'.options.printVersion = (flagChoice (.letter 'v') x).getD st.options.printVersion
  feedThru : st'.options.feedThru = (flagChoice (.letter 'e') x).getD st.options.feedThru
  bler : st'.options.bler = (flagChoice (.letter 'E') x).getD st.options.bler
  showPartial : st'.options.showPartial = (flagChoice (.letter 'p') x).getD st.options.showPartial
  showRaw : st'.options.showRaw = (flagChoice (.letter 'R') x).getD st.options.showRaw
  streams : st'.options.streams = (flagChoice (.letter 's') x).getD st.options.streams
  rbds : st'.options.rbds = (flagChoice (.letter 'u') x).getD st.options.rbds
  input : st'.options.inputType = (inputChoice x).getD st.options.inputType
  output : st'.options.outputType = (outputChoice x).getD st.options.outputType
  name : st'.options.sndfilename = ((argumentOf 'f') x).getD st.options.sndfilename
  format : st'.options.timeFormat = ((argumentOf 't') x).getD st.options.timeFormat
  timestamp : st'.options.timestamp = ((givenWith 't') x).getD st.options.timestamp
  rateDefined : st'.options.isRateDefined = ((givenWith 'r') x).getD st.options.isRateDefined
  rate : st'.options.samplerate = ((rateChoice lib) x).getD st.options.samplerate
  channels : st'.options.numChannels = (channelChoice x).getD st.options.numChannels
  tables : st'.options.loctableDirs = st.options.loctableDirs ++ (argumentOf 'l' x).toList

theorem understood {lib : FloatLib} {st st' : ParseState} {x : Opt} (hx : KnownOption x) (he : parseOption lib st x = some st') :
    Understood lib x st st' := by
  cases x with
  | noFec => cases he; constructor <;> first | rfl | exact (List.append_nil _).symm
  | question => cases he; constructor <;> first | rfl | exact (List.append_nil _).symm
  | letter c =>
    simp only [KnownOption, List.mem_cons, List.not_mem_nil, or_false] at hx
    rcases hx with rfl | rfl | rfl | rfl | rfl | rfl | rfl | rfl | rfl | rfl <;> cases he <;>
      (constructor <;> first | rfl | exact (List.append_nil _).symm)
  | arg c a =>
    simp only [KnownOption, List.mem_cons, List.not_mem_nil, or_false] at hx
    rcases hx with rfl | rfl | rfl | rfl | rfl | rfl | rfl
    · change parseChannels st a = some st' at he
      unfold parseChannels at he
      dsimp only at he
      split at he
      · cases he
      · cases he
        constructor <;> first | rfl | exact (List.append_nil _).symm
    · cases he
      constructor <;> first | rfl | exact (List.append_nil _).symm
    · change parseInput st a = some st' at he
      unfold parseInput at he
      split at he
      · rename_i h
        subst h
        cases he
        constructor <;> first | rfl | exact (List.append_nil _).symm
      split at he
      · rename_i h
        subst h
        cases he
        constructor <;> first | rfl | exact (List.append_nil _).symm
      split at he
      · rename_i h
        subst h
        cases he
        constructor <;> first | rfl | exact (List.append_nil _).symm
      split at he
      · rename_i h
        subst h
        cases he
        constructor <;> first | rfl | exact (List.append_nil _).symm
      · cases he
    · change parseOutput st a = some st' at he
      unfold parseOutput at he
      split at he
      · rename_i h
        subst h
        cases he
        constructor <;> first | rfl | exact (List.append_nil _).symm
      split at he
      · rename_i h
        subst h
        cases he
        constructor <;> first | rfl | exact (List.append_nil _).symm
      · cases he
    · change parseRate lib st a = some st' at he
      unfold parseRate at he
      dsimp only at he
      split at he
      · cases he
      split at he
      · cases he
      cases he
      constructor
      case rate => exact congrArg (lib.mul (lib.strtof a).1) (unitOf_eq a).symm
      all_goals first | rfl | exact (List.append_nil _).symm
    · cases he
      constructor <;> first | rfl | exact (List.append_nil _).symm
    · cases he
      constructor <;> rfl

/-- The loop reads all options, and what an option changes adds up. -/
theorem loop_choice {lib : FloatLib} {α : Type} (g : ParseState → α) (choice : Opt → Option α)
    (hg : ∀ x st st', Understood lib x st st' → g st' = (choice x).getD (g st)) :
    ∀ (opts : List Opt) (st st' : ParseState), (∀ x ∈ opts, KnownOption x) → st.options.initError = false →
      parseLoop lib st opts = some st' → g st' = lastChoice choice (g st) opts := by
  intro opts
  induction opts with
  | nil => intro st st' _ _ h; cases h; rfl
  | cons x l ih =>
    intro st st' hk hi h
    obtain ⟨st1, h1, h2⟩ := Option.bind_eq_some_iff.mp h
    have u := understood (hk x List.mem_cons_self) h1
    have hi1 : st1.options.initError = false := u.noError.trans hi
    rw [if_neg (by rw [hi1]; exact Bool.false_ne_true)] at h2
    have := ih st1 st' (fun y hy => hk y (List.mem_cons_of_mem _ hy)) hi1 h2
    rw [this, hg x st st1 u]
    unfold lastChoice
    rw [List.filterMap_cons]
    cases hc : choice x with
    | none => rfl
    | some v =>
      simp only [Option.getD_some]
      rw [List.getLast?_cons]
      cases (List.filterMap choice l).getLast? <;> rfl

theorem loop_tables {lib : FloatLib} :
    ∀ (opts : List Opt) (st st' : ParseState), (∀ x ∈ opts, KnownOption x) → st.options.initError = false →
      parseLoop lib st opts = some st' →
      st'.options.loctableDirs = st.options.loctableDirs ++ opts.filterMap (argumentOf 'l') ∧
      st'.options.initError = false := by
  intro opts
  induction opts with
  | nil => intro st st' _ hi h; cases h; exact ⟨(List.append_nil _).symm, hi⟩
  | cons x l ih =>
    intro st st' hk hi h
    obtain ⟨st1, h1, h2⟩ := Option.bind_eq_some_iff.mp h
    have u := understood (hk x List.mem_cons_self) h1
    have hi1 : st1.options.initError = false := u.noError.trans hi
    rw [if_neg (by rw [hi1]; exact Bool.false_ne_true)] at h2
    obtain ⟨t1, t2⟩ := ih st1 st' (fun y hy => hk y (List.mem_cons_of_mem _ hy)) hi1 h2
    refine ⟨?_, t2⟩
    rw [t1, u.tables, List.filterMap_cons]
    cases argumentOf 'l' x with
    | none => simp
    | some v => simp

theorem lastChoice_const {α β : Type} (choice : Opt → Option β) (v d : α) (opts : List Opt) :
    lastChoice (fun x => (choice x).map fun _ => v) d opts = if opts.filterMap choice = [] then d else v := by
  unfold lastChoice
  have : opts.filterMap (fun x => (choice x).map fun _ => v) = (opts.filterMap choice).map fun _ => v := by
    rw [List.map_filterMap]
  rw [this, List.getLast?_map]
  cases h : opts.filterMap choice with
  | nil => rfl
  | cons b l =>
    rw [if_neg (by intro h; cases h), List.getLast?_cons]
    rfl

theorem filterMap_nil {β : Type} (choice : Opt → Option β) (opts : List Opt) :
    opts.filterMap choice = [] ↔ ∀ x ∈ opts, choice x = none := by
  exact List.filterMap_eq_nil_iff

theorem lastChoice_flag (x : Opt) (opts : List Opt) : lastChoice (flagChoice x) false opts = decide (x ∈ opts) := by
  have h : flagChoice x = fun y => (if y = x then some () else none).map fun _ => true := by
    funext y
    unfold flagChoice
    by_cases hy : y = x
    · rw [if_pos hy, if_pos hy]; rfl
    · rw [if_neg hy, if_neg hy]; rfl
  rw [h, lastChoice_const (fun y => if y = x then some () else none)]
  by_cases hx : x ∈ opts
  · rw [if_neg, decide_eq_true hx]
    rw [filterMap_nil]
    intro hn
    have := hn x hx
    rw [if_pos rfl] at this
    cases this
  · rw [if_pos, decide_eq_false hx]
    rw [filterMap_nil]
    intro y hy
    rw [if_neg (by rintro rfl; exact hx hy)]

theorem lastChoice_fec (opts : List Opt) :
    lastChoice (fun x => if x = Opt.noFec then some false else none) true opts = !decide (Opt.noFec ∈ opts) := by
  have h : (fun x => if x = Opt.noFec then some false else none)
      = fun y => (if y = Opt.noFec then some () else none).map fun _ => false := by
    funext y
    by_cases hy : y = Opt.noFec
    · rw [if_pos hy, if_pos hy]; rfl
    · rw [if_neg hy, if_neg hy]; rfl
  rw [h, lastChoice_const (fun y => if y = Opt.noFec then some () else none)]
  by_cases hx : Opt.noFec ∈ opts
  · rw [if_neg, decide_eq_true hx]
    · rfl
    rw [filterMap_nil]
    intro hn
    have := hn _ hx
    rw [if_pos rfl] at this
    cases this
  · rw [if_pos, decide_eq_false hx]
    · rfl
    rw [filterMap_nil]
    intro y hy
    rw [if_neg (by rintro rfl; exact hx hy)]

/-- What is left of the options after the loop. -/
theorem finishOptions_same {st : ParseState} {extra : Bool} {o : Options} (h : finishOptions st extra = some o) :
    o.useFec = st.fecFlag ∧ o.printVersion = st.options.printVersion ∧ o.feedThru = st.options.feedThru ∧
    o.bler = st.options.bler ∧ o.showPartial = st.options.showPartial ∧ o.showRaw = st.options.showRaw ∧
    o.streams = st.options.streams ∧ o.rbds = st.options.rbds ∧ o.inputType = st.options.inputType ∧
    o.outputType = st.options.outputType ∧ o.sndfilename = st.options.sndfilename ∧
    o.timestamp = st.options.timestamp ∧ o.timeFormat = st.options.timeFormat ∧
    o.loctableDirs = st.options.loctableDirs ∧ o.numChannels = st.options.numChannels ∧
    o.isRateDefined = st.options.isRateDefined ∧
    (st.options.isRateDefined = true → o.samplerate = st.options.samplerate) ∧
    (st.options.isRateDefined = false → st.options.inputType = .mpxStdin → o.printUsage = false → st.options.initError = false →
      o.samplerate = .num 171000) := by
  unfold finishOptions at h
  dsimp only at h
  cases extra
  · simp only [Bool.false_eq_true, if_false] at h
    split at h
    · cases h
    split at h
    · cases h
    split at h
    · cases h
    have h := Option.some.inj h
    subst h
    split
    · rename_i hc
      refine ⟨rfl, rfl, rfl, rfl, rfl, rfl, rfl, rfl, rfl, rfl, rfl, rfl, rfl, rfl, rfl, rfl, ?_, ?_⟩
      · intro hr
        rw [hr] at hc
        simp at hc
      · intros
        rfl
    · rename_i hc
      refine ⟨rfl, rfl, rfl, rfl, rfl, rfl, rfl, rfl, rfl, rfl, rfl, rfl, rfl, rfl, rfl, rfl, fun _ => rfl, ?_⟩
      intro h1 h2 h3 h4
      exfalso
      have h3 : st.options.printUsage = false := h3
      apply hc
      rw [h1, h2, h3, h4]
      rfl
  · simp only [if_true] at h
    split at h
    · cases h
    split at h
    · cases h
    split at h
    · cases h
    have h := Option.some.inj h
    rw [if_neg (by simp)] at h
    subst h
    refine ⟨rfl, rfl, rfl, rfl, rfl, rfl, rfl, rfl, rfl, rfl, rfl, rfl, rfl, rfl, rfl, rfl, fun _ => rfl, ?_⟩
    intro _ _ h3
    cases h3

theorem given_iff (c : Char) (opts : List Opt) :
    lastChoice (givenWith c) false opts = true ↔ ∃ a, Opt.arg c a ∈ opts := by
  unfold givenWith
  rw [lastChoice_const (argumentOf c)]
  constructor
  · intro h
    by_cases he : opts.filterMap (argumentOf c) = []
    · rw [if_pos he] at h; cases h
    · rw [filterMap_nil] at he
      simp only [not_forall] at he
      obtain ⟨x, hx, hn⟩ := he
      cases x with
      | arg c' a =>
        change ¬(if c' = c then some a else none) = none at hn
        by_cases hc : c' = c
        · exact ⟨a, hc ▸ hx⟩
        · rw [if_neg hc] at hn; exact absurd rfl hn
      | _ => exact absurd rfl hn
  · rintro ⟨a, ha⟩
    rw [if_neg]
    rw [filterMap_nil]
    intro hn
    have := hn _ ha
    change (if c = c then some a else none) = none at this
    rw [if_pos rfl] at this
    cases this

/-- **C88**: every option has the effect that the usage of the program describes, and no other; of several choices, the
last one counts. -/
theorem C88_effects (lib : FloatLib) (opts : List Opt) (extra : Bool) (o : Options) (hk : ∀ x ∈ opts, KnownOption x)
    (h : getOptions lib opts extra = some o) :
    (o.feedThru = true ↔ .letter 'e' ∈ opts) ∧ (o.bler = true ↔ .letter 'E' ∈ opts) ∧
    (o.showPartial = true ↔ .letter 'p' ∈ opts) ∧ (o.showRaw = true ↔ .letter 'R' ∈ opts) ∧
    (o.streams = true ↔ .letter 's' ∈ opts) ∧ (o.rbds = true ↔ .letter 'u' ∈ opts) ∧
    (o.useFec = false ↔ .noFec ∈ opts) ∧ (o.timestamp = true ↔ ∃ a, .arg 't' a ∈ opts) ∧
    o.timeFormat = lastChoice (argumentOf 't') [] opts ∧
    o.inputType = lastChoice inputChoice .mpxStdin opts ∧
    o.outputType = lastChoice outputChoice .json opts ∧
    o.sndfilename = lastChoice (argumentOf 'f') [] opts ∧
    o.numChannels = lastChoice channelChoice 1 opts ∧
    o.loctableDirs = opts.filterMap (argumentOf 'l') ∧
    ((∃ a, .arg 'r' a ∈ opts) → o.samplerate = lastChoice (rateChoice lib) (.num 0) opts) ∧
    ((¬∃ a, .arg 'r' a ∈ opts) → o.inputType = .mpxStdin → o.printUsage = false → o.samplerate = .num 171000) ∧
    (o.printUsage = true ↔ extra = true ∨ .question ∈ opts) ∧ (o.printVersion = true ↔ .letter 'v' ∈ opts) ∧
    (o.earlyExit = true ↔ extra = true ∨ .question ∈ opts ∨ .letter 'v' ∈ opts) ∧
    (o.initError = true ↔ extra = true) := by
  obtain ⟨st, hs, hf⟩ := Option.bind_eq_some_iff.mp h
  have c {α : Type} (g : ParseState → α) (choice : Opt → Option α)
      (hg : ∀ x st st', Understood lib x st st' → g st' = (choice x).getD (g st)) : g st = lastChoice choice (g {}) opts :=
    loop_choice g choice hg opts {} st hk rfl hs
  obtain ⟨ht, hi⟩ := loop_tables opts {} st hk rfl hs
  obtain ⟨e1, e2, e3, e4, e5, e6, e7, e8, e9, e10, e11, e12, e13, e14, e15, e16, e17, e18⟩ := finishOptions_same hf
  obtain ⟨x1, x2, x3⟩ := finishOptions_exit hf
  have fl (g : ParseState → Bool) (x : Opt) (h0 : g {} = false)
      (hg : ∀ y st st', Understood lib y st st' → g st' = (flagChoice x y).getD (g st)) : g st = true ↔ x ∈ opts := by
    rw [c g (flagChoice x) hg, h0, lastChoice_flag, decide_eq_true_iff]
  have hr : st.options.isRateDefined = true ↔ ∃ a, Opt.arg 'r' a ∈ opts := by
    rw [c (fun st => st.options.isRateDefined) (givenWith 'r') (fun _ _ _ u => u.rateDefined)]
    exact given_iff 'r' opts
  have hu := fl (fun st => st.options.printUsage) .question rfl (fun _ _ _ u => u.usage)
  have hv := fl (fun st => st.options.printVersion) (.letter 'v') rfl (fun _ _ _ u => u.version)
  refine ⟨?_, ?_, ?_, ?_, ?_, ?_, ?_, ?_, ?_, ?_, ?_, ?_, ?_, ?_, ?_, ?_, ?_, ?_, ?_, ?_⟩
  · rw [e3]; exact fl (fun st => st.options.feedThru) _ rfl (fun _ _ _ u => u.feedThru)
  · rw [e4]; exact fl (fun st => st.options.bler) _ rfl (fun _ _ _ u => u.bler)
  · rw [e5]; exact fl (fun st => st.options.showPartial) _ rfl (fun _ _ _ u => u.showPartial)
  · rw [e6]; exact fl (fun st => st.options.showRaw) _ rfl (fun _ _ _ u => u.showRaw)
  · rw [e7]; exact fl (fun st => st.options.streams) _ rfl (fun _ _ _ u => u.streams)
  · rw [e8]; exact fl (fun st => st.options.rbds) _ rfl (fun _ _ _ u => u.rbds)
  · rw [e1, c (fun st => st.fecFlag) (fun x => if x = Opt.noFec then some false else none) (fun _ _ _ u => u.fec)]
    change lastChoice _ true opts = false ↔ _
    rw [lastChoice_fec]
    simp
  · rw [e12, c (fun st => st.options.timestamp) (givenWith 't') (fun _ _ _ u => u.timestamp)]
    exact given_iff 't' opts
  · rw [e13]; exact c (fun st => st.options.timeFormat) _ (fun _ _ _ u => u.format)
  · rw [e9]; exact c (fun st => st.options.inputType) _ (fun _ _ _ u => u.input)
  · rw [e10]; exact c (fun st => st.options.outputType) _ (fun _ _ _ u => u.output)
  · rw [e11]; exact c (fun st => st.options.sndfilename) _ (fun _ _ _ u => u.name)
  · rw [e15]; exact c (fun st => st.options.numChannels) _ (fun _ _ _ u => u.channels)
  · rw [e14]; exact ht
  · intro hg
    rw [e17 (hr.mpr hg)]
    exact c (fun st => st.options.samplerate) _ (fun _ _ _ u => u.rate)
  · intro hg hin hpu
    exact e18 (by rw [← Bool.not_eq_true, hr]; exact hg) (e9 ▸ hin) hpu hi
  · rw [x2, Bool.or_eq_true, hu]
  · rw [e2]; exact hv
  · rw [x1, Bool.or_eq_true, Bool.or_eq_true, hu, hv, or_assoc]
  · rw [x3, hi, Bool.or_false]

theorem parseOption_some {lib : FloatLib} {st : ParseState} (hst : st.erange = false) {x : Opt} (hx : KnownOption x) :
    ((∃ st', parseOption lib st x = some st') ↔ ArgumentOk lib x) ∧
    ∀ st', parseOption lib st x = some st' → st'.erange = false := by
  cases x with
  | noFec => exact ⟨⟨fun _ => trivial, fun _ => ⟨_, rfl⟩⟩, fun st' h => by cases h; exact hst⟩
  | question => exact ⟨⟨fun _ => trivial, fun _ => ⟨_, rfl⟩⟩, fun st' h => by cases h; exact hst⟩
  | letter c =>
    simp only [KnownOption, List.mem_cons, List.not_mem_nil, or_false] at hx
    rcases hx with rfl | rfl | rfl | rfl | rfl | rfl | rfl | rfl | rfl | rfl <;>
      exact ⟨⟨fun _ => trivial, fun _ => ⟨_, rfl⟩⟩, fun st' h => by cases h; exact hst⟩
  | arg c a =>
    simp only [KnownOption, List.mem_cons, List.not_mem_nil, or_false] at hx
    rcases hx with rfl | rfl | rfl | rfl | rfl | rfl | rfl
    · change ((∃ st', parseChannels st a = some st') ↔ _) ∧ ∀ st', parseChannels st a = some st' → _
      unfold parseChannels
      dsimp only
      rw [hst, Bool.false_or]
      by_cases hc : ((strtoul10 a).2 || decide ((strtoul10 a).1 % 2 ^ 32 < 1) || decide ((strtoul10 a).1 % 2 ^ 32 > 32)) = true
      · rw [if_pos hc]
        refine ⟨⟨fun ⟨_, h⟩ => (by cases h), ?_⟩, fun _ h => (by cases h)⟩
        rintro ⟨h1, h2, h3⟩
        rw [h1, decide_eq_false (by omega), decide_eq_false (by omega)] at hc
        cases hc
      · rw [if_neg hc]
        simp only [Bool.or_eq_true, decide_eq_true_eq, not_or, Bool.not_eq_true] at hc
        refine ⟨⟨fun _ => ⟨hc.1.1, by omega, by omega⟩, fun _ => ⟨_, rfl⟩⟩, ?_⟩
        intro st' h
        cases h
        exact hc.1.1
    · exact ⟨⟨fun _ => trivial, fun _ => ⟨_, rfl⟩⟩, fun st' h => by cases h; exact hst⟩
    · change ((∃ st', parseInput st a = some st') ↔ a ∈ [ascii "hex", ascii "mpx", ascii "tef", ascii "bits"]) ∧
        ∀ st', parseInput st a = some st' → _
      unfold parseInput
      simp only [List.mem_cons, List.not_mem_nil, or_false]
      by_cases h1 : a = ascii "hex"
      · rw [if_pos h1]
        exact ⟨⟨fun _ => .inl h1, fun _ => ⟨_, rfl⟩⟩, fun st' h => by cases h; exact hst⟩
      rw [if_neg h1]
      by_cases h2 : a = ascii "mpx"
      · rw [if_pos h2]
        exact ⟨⟨fun _ => .inr (.inl h2), fun _ => ⟨_, rfl⟩⟩, fun st' h => by cases h; exact hst⟩
      rw [if_neg h2]
      by_cases h3 : a = ascii "tef"
      · rw [if_pos h3]
        exact ⟨⟨fun _ => .inr (.inr (.inl h3)), fun _ => ⟨_, rfl⟩⟩, fun st' h => by cases h; exact hst⟩
      rw [if_neg h3]
      by_cases h4 : a = ascii "bits"
      · rw [if_pos h4]
        exact ⟨⟨fun _ => .inr (.inr (.inr h4)), fun _ => ⟨_, rfl⟩⟩, fun st' h => by cases h; exact hst⟩
      rw [if_neg h4]
      refine ⟨⟨fun ⟨_, h⟩ => (by cases h), ?_⟩, fun _ h => (by cases h)⟩
      rintro (h | h | h | h)
      · exact absurd h h1
      · exact absurd h h2
      · exact absurd h h3
      · exact absurd h h4
    · change ((∃ st', parseOutput st a = some st') ↔ a ∈ [ascii "hex", ascii "json"]) ∧
        ∀ st', parseOutput st a = some st' → _
      unfold parseOutput
      simp only [List.mem_cons, List.not_mem_nil, or_false]
      by_cases h1 : a = ascii "hex"
      · rw [if_pos h1]
        exact ⟨⟨fun _ => .inl h1, fun _ => ⟨_, rfl⟩⟩, fun st' h => by cases h; exact hst⟩
      rw [if_neg h1]
      by_cases h2 : a = ascii "json"
      · rw [if_pos h2]
        exact ⟨⟨fun _ => .inr h2, fun _ => ⟨_, rfl⟩⟩, fun st' h => by cases h; exact hst⟩
      rw [if_neg h2]
      refine ⟨⟨fun ⟨_, h⟩ => (by cases h), ?_⟩, fun _ h => (by cases h)⟩
      rintro (h | h)
      · exact absurd h h1
      · exact absurd h h2
    · change ((∃ st', parseRate lib st a = some st') ↔ (lib.strtof a).2 = false ∧
          (lib.mul (lib.strtof a).1 (unitOf a)).lt 128000 = false ∧ (lib.mul (lib.strtof a).1 (unitOf a)).gt 40000000 = false) ∧
        ∀ st', parseRate lib st a = some st' → _
      unfold parseRate
      dsimp only
      rw [hst, Bool.false_or, unitOf_eq]
      cases hr : (lib.strtof a).2 with
      | true =>
        rw [if_pos rfl]
        exact ⟨⟨fun ⟨_, h⟩ => (by cases h), fun h => (by cases h.1)⟩, fun _ h => (by cases h)⟩
      | false =>
        rw [if_neg Bool.false_ne_true]
        change ((∃ st', (if ((lib.mul (lib.strtof a).1 (rateFactor a)).lt 128000 ||
          (lib.mul (lib.strtof a).1 (rateFactor a)).gt 40000000) = true then none else some _) = some st') ↔ _) ∧
          ∀ st', (if ((lib.mul (lib.strtof a).1 (rateFactor a)).lt 128000 ||
          (lib.mul (lib.strtof a).1 (rateFactor a)).gt 40000000) = true then none else some _) = some st' → _
        generalize (lib.mul (lib.strtof a).1 (rateFactor a)).lt 128000 = b1
        generalize (lib.mul (lib.strtof a).1 (rateFactor a)).gt 40000000 = b2
        cases b1 <;> cases b2
        · exact ⟨⟨fun _ => ⟨rfl, rfl, rfl⟩, fun _ => ⟨_, rfl⟩⟩, fun st' h => by cases h; rfl⟩
        · exact ⟨⟨fun ⟨_, h⟩ => (by cases h), fun h => (by cases h.2.2)⟩, fun _ h => (by cases h)⟩
        · exact ⟨⟨fun ⟨_, h⟩ => (by cases h), fun h => (by cases h.2.1)⟩, fun _ h => (by cases h)⟩
        · exact ⟨⟨fun ⟨_, h⟩ => (by cases h), fun h => (by cases h.2.1)⟩, fun _ h => (by cases h)⟩
    · exact ⟨⟨fun _ => trivial, fun _ => ⟨_, rfl⟩⟩, fun st' h => by cases h; exact hst⟩
    · exact ⟨⟨fun _ => trivial, fun _ => ⟨_, rfl⟩⟩, fun st' h => by cases h; exact hst⟩

theorem parseLoop_some {lib : FloatLib} : ∀ (opts : List Opt) (st : ParseState), (∀ x ∈ opts, KnownOption x) →
    st.erange = false → st.options.initError = false →
    ((∃ st', parseLoop lib st opts = some st') ↔ ∀ x ∈ opts, ArgumentOk lib x) := by
  intro opts
  induction opts with
  | nil => intro st _ _ _; exact ⟨fun _ x hx => (by cases hx), fun _ => ⟨st, rfl⟩⟩
  | cons x l ih =>
    intro st hk he hi
    obtain ⟨p1, p2⟩ := parseOption_some (lib := lib) he (hk x List.mem_cons_self)
    have hkl : ∀ y ∈ l, KnownOption y := fun y hy => hk y (List.mem_cons_of_mem _ hy)
    constructor
    · rintro ⟨st', h⟩
      obtain ⟨st1, h1, h2⟩ := Option.bind_eq_some_iff.mp h
      have hi1 : st1.options.initError = false := (understood (hk x List.mem_cons_self) h1).noError.trans hi
      rw [if_neg (by rw [hi1]; exact Bool.false_ne_true)] at h2
      have := (ih st1 hkl (p2 st1 h1) hi1).mp ⟨st', h2⟩
      intro y hy
      rcases List.mem_cons.mp hy with rfl | hy
      · exact p1.mp ⟨st1, h1⟩
      · exact this y hy
    · intro h
      obtain ⟨st1, h1⟩ := p1.mpr (h x List.mem_cons_self)
      have hi1 : st1.options.initError = false := (understood (hk x List.mem_cons_self) h1).noError.trans hi
      obtain ⟨st', h2⟩ := (ih st1 hkl (p2 st1 h1) hi1).mpr (fun y hy => h y (List.mem_cons_of_mem _ hy))
      refine ⟨st', ?_⟩
      unfold parseLoop
      rw [h1]
      change (if st1.options.initError = true then pure st1 else parseLoop lib st1 l) = some st'
      rw [if_neg (by rw [hi1]; exact Bool.false_ne_true)]
      exact h2

theorem finishOptions_some (st : ParseState) (extra : Bool) : (∃ o, finishOptions st extra = some o) ↔
    ¬(st.options.feedThru = true ∧ st.options.inputType = .mpxSndfile) ∧
    (1 < st.options.numChannels → st.options.inputType = .mpxStdin ∨ st.options.inputType = .mpxSndfile) ∧
    (st.options.streams = true → st.options.inputType = .mpxStdin ∨ st.options.inputType = .mpxSndfile ∨
      st.options.inputType = .hex) := by
  unfold finishOptions
  dsimp only
  have e1 : (if extra = true then { st.options with printUsage := true, initError := true, earlyExit := true, useFec := st.fecFlag }
      else { st.options with earlyExit := st.options.printUsage || st.options.printVersion, useFec := st.fecFlag }).feedThru
      = st.options.feedThru := by cases extra <;> rfl
  have e2 : (if extra = true then { st.options with printUsage := true, initError := true, earlyExit := true, useFec := st.fecFlag }
      else { st.options with earlyExit := st.options.printUsage || st.options.printVersion, useFec := st.fecFlag }).inputType
      = st.options.inputType := by cases extra <;> rfl
  have e3 : (if extra = true then { st.options with printUsage := true, initError := true, earlyExit := true, useFec := st.fecFlag }
      else { st.options with earlyExit := st.options.printUsage || st.options.printVersion, useFec := st.fecFlag }).numChannels
      = st.options.numChannels := by cases extra <;> rfl
  have e4 : (if extra = true then { st.options with printUsage := true, initError := true, earlyExit := true, useFec := st.fecFlag }
      else { st.options with earlyExit := st.options.printUsage || st.options.printVersion, useFec := st.fecFlag }).streams
      = st.options.streams := by cases extra <;> rfl
  rw [e1, e2, e3, e4]
  unfold InputType.isMpx
  by_cases hn : 1 < st.options.numChannels
  · rw [decide_eq_true hn]
    cases st.options.feedThru <;> cases st.options.streams <;> cases st.options.inputType <;> simp [hn]
  · rw [decide_eq_false hn]
    cases st.options.feedThru <;> cases st.options.streams <;> cases st.options.inputType <;> simp [hn]

/-- **C88**: exactly the command lines with acceptable arguments that do not contradict each other are accepted. -/
theorem C88_accepted (lib : FloatLib) (opts : List Opt) (extra : Bool) (hk : ∀ x ∈ opts, KnownOption x) :
    (∃ o, getOptions lib opts extra = some o) ↔
      (∀ x ∈ opts, ArgumentOk lib x) ∧
      ¬(.letter 'e' ∈ opts ∧ lastChoice inputChoice .mpxStdin opts = .mpxSndfile) ∧
      (1 < lastChoice channelChoice 1 opts →
        lastChoice inputChoice .mpxStdin opts ∈ [InputType.mpxStdin, .mpxSndfile]) ∧
      (.letter 's' ∈ opts → lastChoice inputChoice .mpxStdin opts ∈ [InputType.mpxStdin, .mpxSndfile, .hex]) := by
  have key : ∀ st, parseLoop lib {} opts = some st → st.options.inputType = lastChoice inputChoice .mpxStdin opts ∧
      st.options.numChannels = lastChoice channelChoice 1 opts ∧ (st.options.feedThru = true ↔ .letter 'e' ∈ opts) ∧
      (st.options.streams = true ↔ .letter 's' ∈ opts) := by
    intro st hs
    refine ⟨loop_choice (fun st => st.options.inputType) _ (fun _ _ _ u => u.input) opts {} st hk rfl hs,
      loop_choice (fun st => st.options.numChannels) _ (fun _ _ _ u => u.channels) opts {} st hk rfl hs, ?_, ?_⟩
    · have := loop_choice (fun st => st.options.feedThru) _ (fun _ _ _ u => u.feedThru) opts {} st hk rfl hs
      dsimp only at this
      rw [this, lastChoice_flag, decide_eq_true_iff]
    · have := loop_choice (fun st => st.options.streams) _ (fun _ _ _ u => u.streams) opts {} st hk rfl hs
      dsimp only at this
      rw [this, lastChoice_flag, decide_eq_true_iff]
  have pl := parseLoop_some (lib := lib) opts {} hk rfl rfl
  simp only [List.mem_cons, List.not_mem_nil, or_false]
  constructor
  · rintro ⟨o, h⟩
    obtain ⟨st, hs, hf⟩ := Option.bind_eq_some_iff.mp h
    obtain ⟨k1, k2, k3, k4⟩ := key st hs
    have := (finishOptions_some st extra).mp ⟨o, hf⟩
    rw [k1, k2, k3, k4] at this
    exact ⟨pl.mp ⟨st, hs⟩, this⟩
  · rintro ⟨ha, hb⟩
    obtain ⟨st, hs⟩ := pl.mpr ha
    obtain ⟨k1, k2, k3, k4⟩ := key st hs
    rw [← k1, ← k2, ← k3, ← k4] at hb
    obtain ⟨o, hf⟩ := (finishOptions_some st extra).mpr hb
    exact ⟨o, Option.bind_eq_some_iff.mpr ⟨st, hs, hf⟩⟩

theorem strtoul_decimal (n : Nat) (h : n < 2 ^ 64) : strtoul10 (decimal n) = (n, false) := by
  obtain ⟨h1, h2, h3, -, -⟩ := decimal_facts n
  have hd : ∀ c ∈ decimal n, isDigit c = true := fun c hc => h1 c hc
  have hne : ∀ c : Byte, isDigit c = false → (decimal n).head? ≠ some c := by
    intro c hc he
    rw [hd c (List.mem_of_head? he)] at hc
    cases hc
  have hs : (decimal n).dropWhile isSpace = decimal n := by
    cases hl : decimal n with
    | nil => rfl
    | cons c l =>
      have hc := hd c (hl ▸ List.mem_cons_self)
      have : isSpace c = false := by
        revert hc
        unfold isDigit isSpace
        simp only [Bool.and_eq_true, decide_eq_true_eq]
        intro hc
        have h20 : c ≠ 0x20 := by
          rintro rfl
          exact absurd hc.1 (by decide)
        rw [Bool.or_eq_false_iff, beq_eq_false_iff_ne, Bool.and_eq_false_iff, decide_eq_false_iff_not, decide_eq_false_iff_not]
        exact ⟨h20, .inr (by omega)⟩
      rw [List.dropWhile_cons_of_neg (by rw [this]; exact Bool.false_ne_true)]
  unfold strtoul10
  dsimp only
  rw [hs]
  have n1 : ((decimal n).head? == some 0x2D) = false := by
    rw [beq_eq_false_iff_ne]
    exact hne _ (by decide)
  have n2 : ((decimal n).head? == some 0x2B) = false := by
    rw [beq_eq_false_iff_ne]
    exact hne _ (by decide)
  rw [n1, n2]
  have hv : digitsValue ((decimal n).takeWhile isDigit) = n := by
    rw [(takeWhile_whole _ hd).1]
    exact h2
  simp only [Bool.or_false, Bool.false_eq_true, if_false, hv]
  rw [if_neg (by omega)]

/-- **C88**: `-c` followed by a number chooses so many channels, and is accepted for 1 up to 32. -/
theorem C88_channels (lib : FloatLib) (n : Nat) (h : n < 2 ^ 32) :
    channelChoice (.arg 'c' (decimal n)) = some n ∧ (ArgumentOk lib (.arg 'c' (decimal n)) ↔ 1 ≤ n ∧ n ≤ 32) := by
  have e := strtoul_decimal n (by omega)
  constructor
  · change some ((strtoul10 (decimal n)).1 % 2 ^ 32) = some n
    rw [e, Nat.mod_eq_of_lt h]
  · change ((strtoul10 (decimal n)).2 = false ∧ 1 ≤ (strtoul10 (decimal n)).1 % 2 ^ 32 ∧
      (strtoul10 (decimal n)).1 % 2 ^ 32 ≤ 32) ↔ _
    rw [e, Nat.mod_eq_of_lt h]
    exact ⟨fun x => x.2, fun x => ⟨rfl, x⟩⟩

section
variable {F C : Type} (ar : Arith F) (L : Liquid F C)

/-- **C88**: the program that is asked for its usage or version prints this and nothing else, and the exit code tells
about arguments that are not options; a rejected command line is an error and prints nothing. -/
theorem C88_early_exit (m : Machine F) (opts : List Opt) (extra : Bool) (hk : ∀ x ∈ opts, KnownOption x) :
    ((¬∃ o, getOptions m.float opts extra = some o) →
      runMain ar L m opts extra = some { success := false, stdout := [], stderr := [.error] }) ∧
    ((∃ o, getOptions m.float opts extra = some o) → (extra = true ∨ .question ∈ opts ∨ .letter 'v' ∈ opts) →
      ∃ f, runMain ar L m opts extra = some f ∧ (f.success = true ↔ extra = false) ∧ f.stderr = [] ∧
        ((extra = true ∨ .question ∈ opts) → .letter 'v' ∈ opts → f.stdout = [.usage, .version]) ∧
        ((extra = true ∨ .question ∈ opts) → .letter 'v' ∉ opts → f.stdout = [.usage]) ∧
        (¬(extra = true ∨ .question ∈ opts) → f.stdout = [.version])) := by
  constructor
  · intro h
    unfold runMain
    cases ho : getOptions m.float opts extra with
    | none => rfl
    | some o => exact absurd ⟨o, ho⟩ h
  · rintro ⟨o, ho⟩ he
    obtain ⟨-, -, -, -, -, -, -, -, -, -, -, -, -, -, -, -, u, v, x, i⟩ := C88_effects m.float opts extra o hk ho
    unfold runMain
    rw [ho]
    dsimp only
    rw [if_pos (x.mpr he)]
    refine ⟨_, rfl, ?_, rfl, ?_, ?_, ?_⟩
    · change (!o.initError) = true ↔ _
      rw [Bool.not_eq_true', ← Bool.not_eq_true, i, Bool.not_eq_true]
    · intro h1 h2
      dsimp only
      rw [if_pos (u.mpr h1), if_pos (v.mpr h2)]
      rfl
    · intro h1 h2
      dsimp only
      rw [if_pos (u.mpr h1), if_neg (fun e => h2 (v.mp e))]
      rfl
    · intro h1
      dsimp only
      rw [if_neg (fun e => h1 (u.mp e)), if_pos (v.mpr ?_)]
      · rfl
      · rcases he with h | h | h
        · exact absurd (.inl h) h1
        · exact absurd (.inr h) h1
        · exact h

end

/-- Some command line: `-h -p -l a -i tef -l b -o hex -t x --no-fec`. -/
def demoOptions : List Opt :=
  [.letter 'h', .letter 'p', .arg 'l' (ascii "a"), .arg 'i' (ascii "tef"), .arg 'l' (ascii "b"), .arg 'o' (ascii "hex"),
   .arg 't' (ascii "x"), .noFec]

example : ∀ x ∈ demoOptions, KnownOption x := by
  intro x hx
  simp only [demoOptions, List.mem_cons, List.not_mem_nil, or_false] at hx
  rcases hx with rfl | rfl | rfl | rfl | rfl | rfl | rfl | rfl <;> simp [KnownOption]

example (lib : FloatLib) : ∃ o, getOptions lib demoOptions false = some o ∧ o.inputType = .tef6686 ∧
    o.outputType = .hex ∧ o.loctableDirs = [ascii "a", ascii "b"] ∧ o.useFec = false := ⟨_, rfl, rfl, rfl, rfl, rfl⟩

example (lib : FloatLib) : getOptions lib [.letter 'h', .arg 'c' (ascii "2")] false = none := rfl

example : KnownOption (.letter 'v') ∧ ¬KnownOption (.letter 'q') := by simp [KnownOption]

example (lib : FloatLib) : ∃ o, getOptions lib [.letter 'v'] false = some o := ⟨_, rfl⟩

end Redsea
