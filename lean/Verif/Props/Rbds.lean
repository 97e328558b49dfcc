import Verif.Lemmas.Rbds
import Verif.Props.WallClock

/-
Property C98: what `-u` changes.
-/

namespace Redsea
open _root_.Spec _root_.Redsea.Spec

/-! ### One channel -/

/-- **C98**, for the calls of one channel: with `-u`, as many lines are printed as without it. They are the same, except that
programme types have their North American names, and that the callsign follows the PI code. -/
theorem C98_lines (env : Env) (hk : env.tmc.KeysOk) (delay : Nat → Int) (o : Options) (h : o.rbds = false) (w : Nat)
    (es : List ChannelEvent) {q r : Channel × List Trace} (h1 : Channel.run env delay (Channel.new o w) es = some q)
    (h2 : Channel.run env delay (Channel.new { o with rbds := true } w) es = some r) :
    List.Forall₂ AmericanLine (printedLines q.2) (printedLines r.2) :=
  (region_run hk es (region_new o h w)).1 q r h1 h2

/-! ### The command line -/

/-- The state of the parser when `-u` was given. -/
def ParseState.american (s : ParseState) : ParseState := { s with options := { s.options with rbds := true } }

theorem american_option (lib : FloatLib) (s : ParseState) (x : Opt) :
    parseOption lib s.american x = (parseOption lib s x).map ParseState.american := by
  unfold parseOption
  split
  all_goals try rfl
  · unfold parseChannels
    dsimp only
    rw [show s.american.erange = s.erange from rfl]
    split <;> rfl
  · unfold parseInput
    repeat' split
    all_goals rfl
  · unfold parseOutput
    repeat' split
    all_goals rfl
  · unfold parseRate
    dsimp only
    rw [show s.american.erange = s.erange from rfl]
    split
    · rfl
    · split <;> rfl

theorem american_loop (lib : FloatLib) (l : List Opt) (s : ParseState) :
    parseLoop lib s.american l = (parseLoop lib s l).map ParseState.american := by
  induction l generalizing s with
  | nil => rfl
  | cons x l ih =>
    rw [parseLoop, parseLoop, american_option]
    cases parseOption lib s x with
    | none => rfl
    | some t =>
      show (if t.options.initError = true then _ else _) = Option.map _ (if t.options.initError = true then _ else _)
      split
      · rfl
      · exact ih t

/-- Parsing ends early only when the usage is going to be printed. -/
theorem option_usage (lib : FloatLib) {s t : ParseState} {x : Opt} (h : parseOption lib s x = some t)
    (hs : s.options.initError = false) (ht : t.options.initError = true) : t.options.printUsage = true := by
  have key : t.options.initError = s.options.initError → t.options.printUsage = true := by
    intro e
    rw [ht, hs] at e
    cases e
  unfold parseOption at h
  split at h
  all_goals try (cases h; exact key rfl)
  all_goals try (cases h; rfl)
  · unfold parseChannels at h
    dsimp only at h
    split at h
    · cases h
    · cases h
      exact key rfl
  · unfold parseInput at h
    repeat' split at h
    all_goals
      cases h
      try exact key rfl
  · unfold parseOutput at h
    repeat' split at h
    all_goals
      cases h
      try exact key rfl
  · unfold parseRate at h
    dsimp only at h
    split at h
    · cases h
    · split at h
      · cases h
      · cases h
        exact key rfl

/-- `-u` is seen, or parsing has ended before. -/
theorem american_parse (lib : FloatLib) (pre post : List Opt) (s : ParseState) (hs : s.options.initError = false) :
    parseLoop lib s (pre ++ .letter 'u' :: post) = (parseLoop lib s (pre ++ post)).map ParseState.american ∨
      (parseLoop lib s (pre ++ .letter 'u' :: post) = parseLoop lib s (pre ++ post) ∧
        ∀ t, parseLoop lib s (pre ++ post) = some t → t.options.printUsage = true) := by
  induction pre generalizing s with
  | nil =>
    refine .inl ?_
    rw [List.nil_append, List.nil_append, ← american_loop, parseLoop]
    show (if s.options.initError = true then _ else _) = _
    rw [hs]
    rfl
  | cons x l ih =>
    rw [List.cons_append, List.cons_append, parseLoop, parseLoop]
    cases hx : parseOption lib s x with
    | none => exact .inl rfl
    | some t =>
      show (if t.options.initError = true then _ else _) = Option.map _ (if t.options.initError = true then _ else _) ∨
        (if t.options.initError = true then _ else _) = (if t.options.initError = true then _ else _) ∧
          ∀ t', (if t.options.initError = true then _ else _) = _ → _
      by_cases hi : t.options.initError = true
      · rw [if_pos hi, if_pos hi]
        exact .inr ⟨rfl, fun t' ht => by rw [← Option.some.inj ht]; exact option_usage lib hx hs hi⟩
      · rw [if_neg hi, if_neg hi]
        exact ih t (by simpa using hi)

theorem american_finish (s : ParseState) (extra : Bool) :
    finishOptions s.american extra = (finishOptions s extra).map fun o => { o with rbds := true } := by
  unfold finishOptions
  cases extra
  · simp only [Bool.false_eq_true, if_false]
    rw [show s.american.options = { s.options with rbds := true } from rfl, show s.american.fecFlag = s.fecFlag from rfl]
    dsimp only
    split
    · rfl
    split
    · rfl
    split
    · rfl
    · simp only [Option.map_some]
      congr 1
      split <;> rfl
  · simp only [if_true]
    rw [show s.american.options = { s.options with rbds := true } from rfl, show s.american.fecFlag = s.fecFlag from rfl]
    dsimp only
    split
    · rfl
    split
    · rfl
    split
    · rfl
    · simp only [Option.map_some]
      congr 1
      split <;> rfl

theorem usage_exits {s : ParseState} (h : s.options.printUsage = true) {extra : Bool} {o : Options}
    (ho : finishOptions s extra = some o) : o.earlyExit = true := by
  unfold finishOptions at ho
  cases extra
  · simp only [Bool.false_eq_true, if_false] at ho
    by_cases h1 : (s.options.feedThru && s.options.inputType == .mpxSndfile) = true
    · rw [if_pos h1] at ho
      cases ho
    rw [if_neg h1] at ho
    by_cases h2 : (decide (s.options.numChannels > 1) && !s.options.inputType.isMpx) = true
    · rw [if_pos h2] at ho
      cases ho
    rw [if_neg h2] at ho
    by_cases h3 : (s.options.streams && !s.options.inputType.isMpx && s.options.inputType != .hex) = true
    · rw [if_pos h3] at ho
      cases ho
    rw [if_neg h3] at ho
    rw [← Option.some.inj ho]
    split
    · show (s.options.printUsage || _) = true
      rw [h]
      rfl
    · show (s.options.printUsage || _) = true
      rw [h]
      rfl
  · simp only [if_true] at ho
    by_cases h1 : (s.options.feedThru && s.options.inputType == .mpxSndfile) = true
    · rw [if_pos h1] at ho
      cases ho
    rw [if_neg h1] at ho
    by_cases h2 : (decide (s.options.numChannels > 1) && !s.options.inputType.isMpx) = true
    · rw [if_pos h2] at ho
      cases ho
    rw [if_neg h2] at ho
    by_cases h3 : (s.options.streams && !s.options.inputType.isMpx && s.options.inputType != .hex) = true
    · rw [if_pos h3] at ho
      cases ho
    rw [if_neg h3] at ho
    rw [← Option.some.inj ho]
    split <;> rfl

/-- The options with `-u` on the command line. -/
theorem american_options (lib : FloatLib) (pre post : List Opt) (extra : Bool) :
    getOptions lib (pre ++ .letter 'u' :: post) extra = (getOptions lib (pre ++ post) extra).map (fun o => { o with rbds := true }) ∨
      (getOptions lib (pre ++ .letter 'u' :: post) extra = getOptions lib (pre ++ post) extra ∧
        ∀ o, getOptions lib (pre ++ post) extra = some o → o.earlyExit = true) := by
  unfold getOptions
  rcases american_parse lib pre post {} rfl with h | ⟨h, hu⟩
  · refine .inl ?_
    rw [h]
    cases parseLoop lib {} (pre ++ post) with
    | none => rfl
    | some s => exact american_finish s extra
  · refine .inr ⟨by rw [h], fun o ho => ?_⟩
    obtain ⟨s, hs, ho⟩ := Option.bind_eq_some_iff.mp ho
    exact usage_exits (hu s hs) ho

/-! ### The program -/

section
variable {F C : Type}

theorem american_tables (t : List (Word × LocationDatabase)) :
    List.Forall₂ AmericanItem (tableLines t : List (Item F)) (tableLines t) := by
  unfold tableLines
  generalize t.reverse = l
  induction l with
  | nil => exact .nil
  | cons x l ih => exact .cons (.tableInfo _) ih

theorem american_end {o : Options} (t : List (Word × LocationDatabase)) {a b : List Trace}
    (h : List.Forall₂ AmericanLine (printedLines a) (printedLines b)) (e : Item F) (he : AmericanItem e e) :
    AmericanEnd (finish o t a e) (finish { o with rbds := true } t b e) := by
  have hl : List.Forall₂ AmericanItem ((tableLines t : List (Item F)) ++ (printedLines a).map .line)
      (tableLines t ++ (printedLines b).map .line) := by
    refine List.rel_append (american_tables t) ?_
    generalize printedLines a = x at h
    generalize printedLines b = y at h
    induction h with
    | nil => exact .nil
    | cons h _ ih => exact .cons (.line h) ih
  unfold finish
  dsimp only
  split
  · exact ⟨rfl, .cons he .nil, hl⟩
  · exact ⟨rfl, hl, .nil⟩

theorem american_calls (env : Env) (hk : env.tmc.KeysOk) (delay : Nat → Int) (o : Options) (h : o.rbds = false)
    (es : List ChannelEvent) (t : List (Word × LocationDatabase)) (e : Item F) (he : AmericanItem e e) :
    Pairs True AmericanEnd (Channel.run env delay (Channel.new o 0) es >>= fun r => pure (finish o t r.2 e))
      (Channel.run env delay (Channel.new { o with rbds := true } 0) es >>= fun r =>
        pure (finish { o with rbds := true } t r.2 e)) :=
  pairs_bind (region_run hk es (region_new o h 0)) fun _ _ hqr => pairs_some (american_end t hqr e he)

variable (ar : Arith F) (L : Liquid F C)

theorem american_sound (env : Env) (hk : env.tmc.KeysOk) (delay : Nat → Int) (o : Options) (h : o.rbds = false)
    (x : Bool) (now : Nat → Int) (later : Nat → Nat → Int) (fuel channels : Nat) (samples : List F)
    (t : List (Word × LocationDatabase)) (e : Option (List F)) :
    Pairs True AmericanEnd (do
      let tr ← processMPXInput ar L env delay o x now later fuel channels samples
      let echo ← e
      pure (finish o t (tr.map (·.2)) (.echoSamples echo))) (do
      let tr ← processMPXInput ar L env delay { o with rbds := true } x now later fuel channels samples
      let echo ← e
      pure (finish { o with rbds := true } t (tr.map (·.2)) (.echoSamples echo))) := by
  refine pairs_bind (alike_sound (ar := ar) (L := L) (alike_regions hk delay) (o := o) (o' := { o with rbds := true }) rfl
    (fun ch => region_new o h ch) (fun _ => rfl) (fun _ _ => rfl) x fuel channels samples) fun q r hqr => ?_
  exact pairs_bind_same _ fun echo _ => pairs_some (american_end t hqr _ (.echoSamples _))

variable (m : Machine F)

theorem american_run (o : Options) (h : o.rbds = false) (hm : m.sound { o with rbds := true } = m.sound o)
    (hk : ∀ o t, (m.env o t).tmc.KeysOk) : Pairs True AmericanEnd (runMPX ar L m o) (runMPX ar L m { o with rbds := true }) ∧
      Pairs True AmericanEnd (runBits m o) (runBits m { o with rbds := true }) ∧
      Pairs True AmericanEnd (runHex m o) (runHex m { o with rbds := true }) ∧
      Pairs True AmericanEnd (runTEF m o) (runTEF m { o with rbds := true }) := by
  refine ⟨?_, ?_, ?_, ?_⟩
  · unfold runMPX
    rw [hm]
    cases m.sound o with
    | nothing => exact pairs_some ⟨rfl, .cons .usage .nil, .nil⟩
    | error => exact pairs_some ⟨rfl, .nil, .cons .error .nil⟩
    | opened rate channels samples =>
      dsimp only
      split
      · exact pairs_some ⟨rfl, .nil, .cons .error .nil⟩
      refine pairs_bind_same _ fun t _ => ?_
      split
      · exact pairs_none
      have e := env_format m (o.forSound rate channels) (({ o with rbds := true } : Options).forSound rate channels) rfl t
      have hk := hk (o.forSound rate channels) t
      unfold Options.forSound at e hk
      dsimp only at e hk
      rw [e]
      clear e
      revert hk
      generalize m.env _ t = env
      intro hk
      exact american_sound ar L env hk m.delay { o with samplerate := .num rate, numChannels := channels } h _ _ _ _ _ _ t _
  · unfold runBits
    refine pairs_bind_same _ fun t _ => ?_
    rw [env_format m o { o with rbds := true } rfl]
    have hk := hk o t
    generalize m.env o t = env at *
    exact american_calls env hk m.delay o h _ t _ (.echo _)
  · unfold runHex
    refine pairs_bind_same _ fun t _ => ?_
    rw [env_format m o { o with rbds := true } rfl]
    have hk := hk o t
    generalize m.env o t = env at *
    exact american_calls env hk m.delay o h _ t _ (.echo _)
  · unfold runTEF
    refine pairs_bind_same _ fun t _ => ?_
    rw [env_format m o { o with rbds := true } rfl]
    have hk := hk o t
    generalize m.env o t = env at *
    exact american_calls env hk m.delay o h _ t _ (.echo _)

/-- **C98**, for the program: when `-u` is added to a command line, at any place, the program ends in the same way, and prints
the same, except that programme types have their North American names, and that the callsign follows the PI code. -/
theorem C98_program (pre post : List Opt) (extra : Bool) (h : ∀ o, getOptions m.float (pre ++ post) extra = some o → o.rbds = false)
    (hm : ∀ o, m.sound { o with rbds := true } = m.sound o) (rows : List KeyRow)
    (hv : ∀ r ∈ rows, r.Valid ∧ r.xorstart ≤ 24) (hf : m.keyFile = rows.map KeyRow.line) :
    ((runMain ar L m (pre ++ .letter 'u' :: post) extra).isSome ↔ (runMain ar L m (pre ++ post) extra).isSome) ∧
    ∀ a b, runMain ar L m (pre ++ post) extra = some a → runMain ar L m (pre ++ .letter 'u' :: post) extra = some b →
      AmericanEnd a b := by
  have hk : ∀ o t, (m.env o t).tmc.KeysOk := fun o t => keysOk_of_rows m (o := o) t rows hv hf
  have exits : ∀ x y : Bool, List.Forall₂ AmericanItem ((if x then [.usage] else []) ++ (if y then [.version] else []) : List (Item F))
      ((if x then [.usage] else []) ++ (if y then [.version] else [])) := by
    intro x y
    cases x <;> cases y
    · exact .nil
    · exact .cons .version .nil
    · exact .cons .usage .nil
    · exact .cons .usage (.cons .version .nil)
  have key : Pairs True AmericanEnd (runMain ar L m (pre ++ post) extra) (runMain ar L m (pre ++ .letter 'u' :: post) extra) := by
    unfold runMain
    rcases american_options m.float pre post extra with e | ⟨e, hx⟩
    · rw [e]
      cases ho : getOptions m.float (pre ++ post) extra with
      | none => exact pairs_some ⟨rfl, .nil, .cons .error .nil⟩
      | some o =>
        obtain ⟨h1, h2, h3, h4⟩ := american_run ar L m o (h o ho) (hm o) hk
        simp only [Option.map_some]
        split
        · exact pairs_some ⟨rfl, exits _ _, .nil⟩
        · cases hi : o.inputType <;> rw [hi] at h1 h2 h3 h4
          · exact h1
          · exact h1
          · exact h2
          · exact h3
          · exact h4
    · rw [e]
      cases ho : getOptions m.float (pre ++ post) extra with
      | none => exact pairs_some ⟨rfl, .nil, .cons .error .nil⟩
      | some o =>
        simp only
        rw [if_pos (hx o ho)]
        exact pairs_some ⟨rfl, exits _ _, .nil⟩
  exact ⟨key.2 trivial, key.1⟩

end

/-! ### Cases -/

/-- Text that a member of a line has. -/
def Line.text? (k : String) : Line → Option String
  | .json j => match j.get? k with
    | some (.str s) => some (String.ofList (s.map fun b => Char.ofNat b.toNat))
    | _ => none
  | _ => none

/-- The names of the members of the line for a group that is received three times, the programme type, and the callsign. -/
def demoRegion (u : Bool) (g : Group) : Option (List (List String × Option String × Option String)) :=
  (Channel.run demoEnv (fun _ => 0) (Channel.new { rbds := u } 0) (demoCalls (List.replicate 3 g))).map fun r =>
    (printedLines r.2).map fun l => ((match l with | .json (.obj m) => m.map Prod.fst | _ => []), l.text? "prog_type",
      l.text? "callsign")

/-- With `-u`, programme type 10 is not pop but country music, and the callsign is printed. -/
example : demoRegion false (demoGroup 0x54A8 0x0548 0xE0CD 0x594C) =
      some [(["pi", "group", "tp", "prog_type", "di", "ta", "is_music"], some "Pop music", none)] ∧
    demoRegion true (demoGroup 0x54A8 0x0548 0xE0CD 0x594C) =
      some [(["pi", "callsign", "group", "tp", "prog_type", "di", "ta", "is_music"], some "Country", some "WAAA")] := by
  decide +kernel

/-- The programme type of another network, in a 14A group of variant 13. -/
def demoNetworkType (u : Bool) : Option (List (Option String)) :=
  (Channel.run demoEnv (fun _ => 0) (Channel.new { rbds := u } 0)
    (demoCalls (List.replicate 3 (demoGroup 0x6204 0xE00D 0x5000 0x6205)))).map fun r =>
    (printedLines r.2).map fun l => match l with
    | .json j => (j.get? "other_network").bind fun o => (Line.json o).text? "prog_type"
    | _ => none

example : demoNetworkType false = some [some "Pop music"] ∧ demoNetworkType true = some [some "Country"] := by decide +kernel

/-- `redsea -b -l /tables` and `redsea -b -u -l /tables`, on the machine of property C83. -/
example {F C : Type} (ar : Arith F) (L : Liquid F C) (lib : FloatLib) :
    ∀ a b, runMain ar L (demoMachine F lib) ([.letter 'b'] ++ [.arg 'l' (ascii "/tables")]) false = some a →
      runMain ar L (demoMachine F lib) ([.letter 'b'] ++ .letter 'u' :: [.arg 'l' (ascii "/tables")]) false = some b →
      AmericanEnd a b := by
  refine (C98_program ar L (demoMachine F lib) [.letter 'b'] [.arg 'l' (ascii "/tables")] false ?_ (fun _ => rfl)
    [{ encid := 1, xorval := 92, xorstart := 4, nrot := 11 }] ?_ (by rw [List.map_singleton, demoRow_line]; rfl)).2
  · intro o ho
    rw [show getOptions (demoMachine F lib).float ([.letter 'b'] ++ [.arg 'l' (ascii "/tables")]) false =
      some { inputType := .asciiBits, loctableDirs := [ascii "/tables"] } from rfl] at ho
    rw [← Option.some.inj ho]
  · intro r hr
    rw [List.mem_singleton.mp hr]
    exact ⟨⟨by decide, by decide, by decide, by decide⟩, by decide⟩

end Redsea
