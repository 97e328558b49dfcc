import Verif.Lemmas.OutputOptionsRun
import Verif.Props.Main

/-
Property C89: options for the output add members, and change nothing else.
-/

namespace Redsea
open _root_.Spec _root_.Redsea.Spec

theorem print_pair {names : List String} {j j' : J} (h : SameOthers names j j') (hu : j'.utf8 = j.utf8) :
    SameLine names (printJson j) (printJson j') := by
  unfold printJson
  rw [hu]
  split
  · exact .json h
  · exact .error

/-- Two objects that are to differ in no member are the same. -/
theorem sameOthers_nil {j j' : J} (h : SameOthers [] j j') : j' = j := by
  obtain ⟨l, l', rfl, rfl, h⟩ := h
  simp only [List.not_mem_nil, not_false_eq_true, decide_true, List.filter_true] at h
  rw [h]

section
variable (env : Env) (hk : env.tmc.KeysOk) (f : Int → Str) (delay : Nat → Int) (o o' : Options) (hs : SameReception o o')
  (hf : o.timeFormat = o'.timeFormat → f = env.formatTime)
  (w : Nat) (es : List ChannelEvent) {c d : Channel} {tr tr' : List Trace}
  (h : Channel.run env delay (Channel.new o w) es = some (c, tr))
  (h' : Channel.run { env with formatTime := f } delay (Channel.new o' w) es = some (d, tr'))
include hk hs hf h h'

/-- **C89**: when the same is received with other options for raw data, times, error rates, streams and channels, the same
lines are printed, one for one, except for the members that these options are about. -/
theorem C89_same_lines (ht : ∀ n, ∃ s : String, env.formatTime n = unicodeBytes s) (ht' : ∀ n, ∃ s : String, f n = unicodeBytes s)
    (hp : o.showPartial = o'.showPartial) :
    List.Forall₂ (SameLine (optionMembers o o')) (printedLines tr) (printedLines tr') := by
  have := pair_run hs hk hf es (pair_new o o' w) h h'
  unfold LinesPair at this
  refine this.imp ?_
  rintro x y (⟨hx, -⟩ | ⟨j, j', hx, hy, same, hu, -⟩)
  · cases hx
  · have e1 : x = printJson j := Option.some.inj hx
    have e2 : y = printJson j' := Option.some.inj hy
    rw [e1, e2]
    exact print_pair same (hu ⟨fun n => (validUtf8_iff _).mpr (ht n), fun n => (validUtf8_iff _).mpr (ht' n)⟩ hp)

/-- **C89**, for `-p`: with it, a line has the same members and those for partial data, or it is replaced by an error report.
(That it is never replaced is false, see below.) A line that is an error report without `-p` is one with it. -/
theorem C89_partial_data_partial (ht : ∀ n, ∃ s : String, env.formatTime n = unicodeBytes s)
    (ht' : ∀ n, ∃ s : String, f n = unicodeBytes s) (hp : o.showPartial = false) :
    List.Forall₂ (fun x y => SameLine (optionMembers o o') x y ∨ y = .error) (printedLines tr) (printedLines tr') := by
  have := pair_run hs hk hf es (pair_new o o' w) h h'
  unfold LinesPair at this
  refine this.imp ?_
  rintro x y (⟨hx, -⟩ | ⟨j, j', hx, hy, same, -, hu, -⟩)
  · cases hx
  · have e1 : x = printJson j := Option.some.inj hx
    have e2 : y = printJson j' := Option.some.inj hy
    rw [e1, e2]
    by_cases hj : j'.utf8 = true
    · have := hu ⟨fun n => (validUtf8_iff _).mpr (ht n), fun n => (validUtf8_iff _).mpr (ht' n)⟩ hp hj
      exact .inl (print_pair same (by rw [hj, this]))
    · exact .inr (by unfold printJson; rw [if_neg hj])

/-- **C89**: options that are not about the output make no difference at all. -/
theorem C89_equal_lines (hn : optionMembers o o' = []) : printedLines tr' = printedLines tr := by
  have := pair_run hs hk hf es (pair_new o o' w) h h'
  unfold LinesPair at this
  generalize printedLines tr = a at this
  generalize printedLines tr' = b at this
  induction this with
  | nil => rfl
  | cons hx _ ih =>
    rw [ih]
    congr 1
    obtain ⟨hx, -⟩ | ⟨j, j', hx, hy, same, -⟩ := hx
    · cases hx
    · rw [hn] at same
      rw [show _ = printJson j from Option.some.inj hx, show _ = printJson j' from Option.some.inj hy, sameOthers_nil same]

end

theorem forall2_left {α β : Type} {R : α → β → Prop} {a : List α} {b : List β} (h : List.Forall₂ R a b) {x : α} (hx : x ∈ a) :
    ∃ y, R x y := by
  induction h with
  | nil => cases hx
  | cons h1 _ ih =>
    rcases List.mem_cons.mp hx with rfl | hx
    · exact ⟨_, h1⟩
    · exact ih hx

/-- **C89**: without `-p`, no line has a member for partial data. -/
theorem C89_no_partial_data (env : Env) (hk : env.tmc.KeysOk) (delay : Nat → Int) (o : Options) (ho : o.outputType ≠ .hex)
    (hp : o.showPartial = false) (w : Nat) (es : List ChannelEvent) (c : Channel) (tr : List Trace)
    (h : Channel.run env delay (Channel.new o w) es = some (c, tr)) :
    ∀ j, .json j ∈ printedLines tr → ∀ k ∈ partialMembers, j.get? k = none := by
  have := pair_run ⟨rfl, rfl, ho, ho⟩ hk (f := env.formatTime) (fun _ => rfl) es (pair_new o o w) h h
  unfold LinesPair at this
  intro j hj k hk
  obtain ⟨y, hxy⟩ := forall2_left this hj
  obtain ⟨hx, -⟩ | ⟨j1, j', hx, hy, ⟨l, l', hl, -⟩, -, -, hn⟩ := hxy
  · cases hx
  have e : j = j1 := by
    have hx : Line.json j = printJson j1 := Option.some.inj hx
    rcases printJson_cases j1 with h | h
    · rw [h] at hx; cases hx
    · rw [h] at hx; cases hx; rfl
  have := hn hp k hk
  rw [← e] at this
  rw [← e] at hl
  subst hl
  show l.lookup k = none
  rw [List.lookup_eq_none_iff]
  intro m hm
  by_cases he : k = m.1
  · exact absurd (List.mem_map.mpr ⟨m, hm, he.symm⟩) this
  · simpa using he

/-- What is printed, as texts. -/
def demoPrinted (o : Options) (gs : List Group) : Option (List (Option (List String))) :=
  (Channel.run demoEnv (fun _ => 0) (Channel.new o 0) (demoCalls gs)).map fun r => (printedLines r.2).map fun l => match l with
    | .json (.obj m) => some (m.map Prod.fst)
    | _ => none

/-- A group with a part of a programme service name, three times. (The first two confirm the PI code.) -/
def demoNames : List Group := List.replicate 3 (demoGroup 0x6204 0x0408 0xE0CD 0x594C)

example : SameReception {} { showRaw := true, streams := true, bler := true } ∧
    optionMembers {} { showRaw := true, streams := true, bler := true } = ["raw_data", "bler", "stream"] ∧
    demoPrinted {} demoNames = some [some ["pi", "group", "tp", "prog_type", "di", "ta", "is_music"]] ∧
    demoPrinted { showRaw := true, streams := true, bler := true } demoNames =
      some [some ["stream", "pi", "bler", "raw_data", "group", "tp", "prog_type", "di", "ta", "is_music"]] :=
  ⟨⟨rfl, rfl, by decide, by decide⟩, by decide, by decide +kernel, by decide +kernel⟩

example : demoPrinted { showPartial := true } demoNames =
    some [some ["pi", "group", "tp", "prog_type", "di", "ta", "is_music", "partial_ps"]] := by
  decide +kernel

example : optionMembers {} { inputType := .hex, feedThru := true, loctableDirs := [ascii "/tables"] } = [] := by decide

/-- **C89** is violated by `-p`: while a long name with a letter of two bytes is received ("abcé…"), the first byte of the
letter alone is not UTF-8, and instead of the whole line an error is reported. Without `-p`, the line is printed. -/
theorem C89_partial_data_violated : demoEnv.Utf8 ∧
    demoPrinted {} (List.replicate 3 (demoGroup 0x6204 0xF000 0x6162 0x63C3)) =
      some [some ["pi", "group", "tp", "prog_type"]] ∧
    demoPrinted { showPartial := true } (List.replicate 3 (demoGroup 0x6204 0xF000 0x6162 0x63C3)) =
      some [none] :=
  ⟨demoEnv_utf8, by decide +kernel, by decide +kernel⟩

/-! ### The program -/

section
variable {F C : Type} (ar : Arith F) (L : Liquid F C) (m : Machine F)

theorem env_clock (o o' : Options) (tables : List (Word × LocationDatabase)) : m.env o' tables =
    { m.env o tables with formatTime := fun t => getTimePointString m.conv t o'.timeFormat } := by
  unfold Machine.env
  rfl

/-- What the program does with an input that is text: one sequence of calls. -/
theorem text_calls (o : Options) (opts : List Opt) (extra : Bool) (h : getOptions m.float opts extra = some o)
    (he : o.earlyExit = false) (hi : o.inputType = .asciiBits ∨ o.inputType = .hex ∨ o.inputType = .tef6686) {fin : Finished F}
    (hr : runMain ar L m opts extra = some fin) :
    ∃ tables c tr, loadTables m o.loctableDirs = some tables ∧
      Channel.run (m.env o tables) m.delay (Channel.new o 0) (match o.inputType with
        | .asciiBits => bitCalls m.now (m.later 0) (asciiBitsFed m.stdin)
        | .hex => groupCalls m.now (hexInputGroups m.stdin)
        | _ => (tefInputGroups m.stdin).zipIdx.map fun q => .group (m.now q.2) q.1 0) = some (c, tr) ∧
      o.printed fin = tableLines tables ++ (printedLines tr).map .line := by
  rw [runMain_process ar L m opts extra h he] at hr
  rcases hi with hi | hi | hi <;> rw [hi] at hr ⊢ <;> dsimp only at hr ⊢
  · unfold runBits at hr
    obtain ⟨t, ht, hr⟩ := Option.bind_eq_some_iff.mp hr
    obtain ⟨r, h1, hr⟩ := Option.bind_eq_some_iff.mp hr
    cases hr
    exact ⟨t, r.1, r.2, ht, h1, printed_finish _ _ _⟩
  · unfold runHex at hr
    obtain ⟨t, ht, hr⟩ := Option.bind_eq_some_iff.mp hr
    obtain ⟨r, h1, hr⟩ := Option.bind_eq_some_iff.mp hr
    cases hr
    exact ⟨t, r.1, r.2, ht, h1, printed_finish _ _ _⟩
  · unfold runTEF at hr
    obtain ⟨t, ht, hr⟩ := Option.bind_eq_some_iff.mp hr
    obtain ⟨r, h1, hr⟩ := Option.bind_eq_some_iff.mp hr
    cases hr
    exact ⟨t, r.1, r.2, ht, h1, printed_finish _ _ _⟩

/-- **C89**, for the program: two command lines for the same kind of input (text) and the same location tables that differ in
options for the output, or in `-e`, print the same lines about location tables, and then the same lines about groups, one for
one, except for the members that the options are about. -/
theorem C89_program (opts opts' : List Opt) (extra extra' : Bool) (o o' : Options)
    (h : getOptions m.float opts extra = some o) (h' : getOptions m.float opts' extra' = some o')
    (he : o.earlyExit = false) (he' : o'.earlyExit = false)
    (hi : o.inputType = .asciiBits ∨ o.inputType = .hex ∨ o.inputType = .tef6686) (hi' : o'.inputType = o.inputType)
    (hd : o'.loctableDirs = o.loctableDirs) (hs : SameReception o o') (hp : o.showPartial = o'.showPartial)
    (htime : ∀ t, ∃ s : String, getTimePointString m.conv t o.timeFormat = unicodeBytes s)
    (htime' : ∀ t, ∃ s : String, getTimePointString m.conv t o'.timeFormat = unicodeBytes s)
    (rows : List KeyRow) (hv : ∀ r ∈ rows, r.Valid ∧ r.xorstart ≤ 24) (hf : m.keyFile = rows.map KeyRow.line)
    {fin fin' : Finished F} (hr : runMain ar L m opts extra = some fin) (hr' : runMain ar L m opts' extra' = some fin') :
    ∃ infos ls ls', o.printed fin = infos ++ ls.map .line ∧ o'.printed fin' = infos ++ ls'.map .line ∧
      List.Forall₂ (SameLine (optionMembers o o')) ls ls' := by
  obtain ⟨t, c, tr, h1, h2, h3⟩ := text_calls ar L m o opts extra h he hi hr
  obtain ⟨t', c', tr', h1', h2', h3'⟩ := text_calls ar L m o' opts' extra' h' he' (by rw [hi']; exact hi) hr'
  rw [hd, h1] at h1'
  cases h1'
  rw [hi', env_clock m o o'] at h2'
  have hk := keysOk_of_rows m (o := o) t rows hv hf
  refine ⟨tableLines t, printedLines tr, printedLines tr', h3, h3', ?_⟩
  refine C89_same_lines (m.env o t) hk _ m.delay o o' hs ?_ 0 _ h2 h2' htime htime' hp
  intro e
  rw [← e]
  unfold Machine.env
  rfl

end

/-- With `-h -l /tables` and with `-h -l /tables -R -e`. -/
example {F : Type} (lib : FloatLib) :
    getOptions (demoMachine F lib).float [.letter 'h', .arg 'l' (ascii "/tables")] false =
      some { inputType := .hex, loctableDirs := [ascii "/tables"] } ∧
    getOptions (demoMachine F lib).float [.letter 'h', .arg 'l' (ascii "/tables"), .letter 'R', .letter 'e'] false =
      some { inputType := .hex, loctableDirs := [ascii "/tables"], showRaw := true, feedThru := true } ∧
    SameReception { inputType := .hex, loctableDirs := [ascii "/tables"] }
      { inputType := .hex, loctableDirs := [ascii "/tables"], showRaw := true, feedThru := true } ∧
    optionMembers { inputType := .hex, loctableDirs := [ascii "/tables"] }
      { inputType := .hex, loctableDirs := [ascii "/tables"], showRaw := true, feedThru := true } = ["raw_data"] :=
  ⟨by rfl, by rfl, ⟨rfl, rfl, by decide, by decide⟩, by decide⟩

end Redsea
