import Verif.Lemmas.PlaceAbsent
import Verif.Props.PlaceMembers

/-
Property C104, with no tables on one side: location tables add members to traffic messages, and do nothing else.
-/

namespace Redsea
open _root_.Spec _root_.Redsea.Spec

/-- **C104**: without location tables (all of them empty), no line says anything about a place beyond the location code. -/
theorem C104_nothing_to_drop (env : Env) (he : ∀ n, (env.tmc.locations n).ltn = 0) (delay : Nat → Int) (c : Channel)
    (es : List ChannelEvent) {c' : Channel} {tr : List Trace} (h : Channel.run env delay c es = some (c', tr)) :
    (printedLines tr).map Line.withoutPlace = printedLines tr :=
  ((free_run he es c).1 _ _ h h).2

/-- **C104**: with location tables, the lines are those without tables after the five members about the place are taken
away. -/
theorem C104_only_added (env : Env) (he : ∀ n, (env.tmc.locations n).ltn = 0) (hk : env.tmc.KeysOk)
    (ht : ∀ n, ∃ s : String, env.formatTime n = unicodeBytes s) (hu : env.tmc.Utf8) (f : Nat → LocationDatabase)
    (hf : TablesUtf8 f) (delay : Nat → Int) (o : Options) (w : Nat) (es : List ChannelEvent) (hv : ∀ e ∈ es, e.Valid) :
    ∃ c tr tr', Channel.run env delay (Channel.new o w) es = some (c, tr) ∧
      Channel.run (env.withTables f) delay (Channel.new o w) es = some (c, tr') ∧
      (printedLines tr').map Line.withoutPlace = printedLines tr := by
  obtain ⟨c, tr, tr', h1, h2, h3⟩ := C104_same_lines env hk ht hu f hf delay o w es hv
  exact ⟨c, tr, tr', h1, h2, h3.trans (C104_nothing_to_drop env he delay _ es h1)⟩

section
variable {F C : Type} (ar : Arith F) (L : Liquid F C)

/-- **C104**, for sound: with tables and without. -/
theorem C104_only_added_sound (env : Env) (he : ∀ n, (env.tmc.locations n).ltn = 0)
    (ht : ∀ n, ∃ s : String, env.formatTime n = unicodeBytes s)
    (hu : env.tmc.Utf8) (f : Nat → LocationDatabase) (hf : TablesUtf8 f) (delay : Nat → Int) (o : Options) (resampling : Bool)
    (clock : Nat → Int) (now : Nat → Nat → Int) (fuel channels : Nat) (file : List F) {tr tr' : List (Nat × Trace)}
    (h : processMPXInput ar L env delay o resampling clock now fuel channels file = some tr)
    (h' : processMPXInput ar L (env.withTables f) delay o resampling clock now fuel channels file = some tr') :
    (soundLines tr').map Line.withoutPlace = soundLines tr :=
  (C104_sound ar L env ht hu f hf delay o resampling clock now fuel channels file h h').trans
    ((alike_sound (ar := ar) (L := L) (alike_free he delay) (o := o) (o' := o) rfl (fun _ => rfl) (fun _ => rfl)
      (fun _ _ => rfl) resampling fuel channels file).1 tr tr h h)

variable (m : Machine F)

theorem env_no_tables (o : Options) (n : Nat) : ((m.env o []).tmc.locations n).ltn = 0 := by
  unfold Machine.env
  rfl

omit m in
theorem no_tables_texts : TablesUtf8 (numberedTables []) := ⟨fun _ _ _ h => (nomatch h), fun _ _ _ h => (nomatch h)⟩

variable (opts opts' : List Opt) (extra extra' : Bool) (o : Options) (dirs : List Str)
  (h : getOptions m.float opts extra = some o) (h' : getOptions m.float opts' extra' = some (o.withDirs dirs))
  (hd : o.loctableDirs = []) (he : o.earlyExit = false) (hj : o.outputType ≠ .hex)
  (htime : ∀ t, ∃ s : String, getTimePointString m.conv t o.timeFormat = unicodeBytes s)
  (hu' : ∀ t, loadTables m dirs = some t → TablesUtf8 (numberedTables t))
  (rows : List KeyRow) (hv : ∀ r ∈ rows, r.Valid ∧ r.xorstart ≤ 24) (hf : m.keyFile = rows.map KeyRow.line)
include h h' hd he hj htime hu' hv hf

/-- **C104**, for the program (text): with `-l` the program prints lines about the tables, and then the lines of the program
without `-l`, with nothing but members about places added to traffic messages. -/
theorem C104_only_added_program (hi : o.inputType = .asciiBits ∨ o.inputType = .hex ∨ o.inputType = .tef6686)
    {fin fin' : Finished F} (hr : runMain ar L m opts extra = some fin) (hr' : runMain ar L m opts' extra' = some fin') :
    ∃ t', ∃ ls ls' : List Line, loadTables m dirs = some t' ∧ o.printed fin = ls.map .line ∧
      o.printed fin' = tableLines t' ++ ls'.map .line ∧ ls'.map Line.withoutPlace = ls := by
  have hl : ∀ t, loadTables m o.loctableDirs = some t → t = [] := by
    intro t e
    rw [hd] at e
    cases e
    rfl
  obtain ⟨t, t', ls, ls', h1, h1', h3, h3', h4⟩ := C104_program ar L m opts opts' extra extra' o dirs h h' he hj htime
    (fun t e => hl t e ▸ no_tables_texts) hu' rows hv hf hi hr hr'
  obtain ⟨u, c, tr, k1, k2, k3⟩ := text_calls ar L m o opts extra h he hi hr
  obtain rfl := hl t h1
  obtain rfl := hl u k1
  have hfree := C104_nothing_to_drop _ (env_no_tables m o) _ _ _ k2
  have e : ls = printedLines tr := by
    have := h3.symm.trans k3
    exact List.map_injective_iff.mpr (fun a b hab => by cases hab; rfl) (List.append_cancel_left this)
  refine ⟨t', ls, ls', h1', ?_, h3', ?_⟩
  · rw [h3]; rfl
  · rw [h4, e, hfree]

/-- **C104**, for the program with sound as the input. -/
theorem C104_only_added_program_sound (hi : o.inputType = .mpxStdin ∨ o.inputType = .mpxSndfile)
    (hm : m.sound (o.withDirs dirs) = m.sound o)
    {fin fin' : Finished F} (hr : runMain ar L m opts extra = some fin) (hok : fin.success = true)
    (hr' : runMain ar L m opts' extra' = some fin') (hok' : fin'.success = true) :
    ∃ t', ∃ ls ls' : List Line, loadTables m dirs = some t' ∧ o.printed fin = ls.map .line ∧
      o.printed fin' = tableLines t' ++ ls'.map .line ∧ ls'.map Line.withoutPlace = ls := by
  have hl : ∀ t, loadTables m o.loctableDirs = some t → t = [] := by
    intro t e
    rw [hd] at e
    cases e
    rfl
  obtain ⟨t, t', ls, ls', h1, h1', h3, h3', h4⟩ := C104_program_sound ar L m opts opts' extra extra' o dirs h h' he hj htime
    (fun t e => hl t e ▸ no_tables_texts) hu' rows hv hf hi hm hr hok hr' hok'
  obtain ⟨rate, channels, samples, u, tr, k0, k1, k2, k3⟩ := sound_calls ar L m o opts extra h he hi hr hok
  obtain rfl := hl t h1
  obtain rfl := hl u k1
  have hfree := (alike_sound (ar := ar) (L := L) (alike_free (env_no_tables m o) m.delay) (o := o.forSound rate channels)
    (o' := o.forSound rate channels) rfl (fun _ => rfl) (clock := m.now) (clock' := m.now) (fun _ => rfl)
    (now := m.later) (now' := m.later) (fun _ _ => rfl) (decide (rate ≠ 171000)) (samples.length + 2) channels samples).1 tr tr k2 k2
  have e : ls = soundLines tr := by
    have := h3.symm.trans k3
    exact List.map_injective_iff.mpr (fun a b hab => by cases hab; rfl) (List.append_cancel_left this)
  refine ⟨t', ls, ls', h1', ?_, h3', ?_⟩
  · rw [h3]; rfl
  · rw [h4, e]; exact hfree

end

/-! ### Examples -/

/-- With the table for the bridge and without tables: the line without it is not empty, and the line with it has more. -/
example : ∃ c tr tr', Channel.run demoEnv (fun _ => 0) (Channel.new {} 0) placeCalls = some (c, tr) ∧
    Channel.run (demoEnv.withTables fun _ => bridgeTable) (fun _ => 0) (Channel.new {} 0) placeCalls = some (c, tr') ∧
    (printedLines tr').map Line.withoutPlace = printedLines tr :=
  C104_only_added demoEnv (fun _ => rfl) demoEnv_keys (fun _ => ⟨"", show ([] : Str) = unicodeBytes "" by decide +kernel⟩)
    ⟨fun c e h => (nomatch h), fun c e h => (nomatch h), fun t l p h => (nomatch h), fun t l p h => (nomatch h)⟩ _ bridge_texts
    (fun _ => 0) {} 0 placeCalls (by intro e he; obtain ⟨q, -, rfl⟩ := List.mem_map.mp he; trivial)

/-- The hypothesis about the tables matters: with the table for the bridge there is something to drop. -/
example : ((Channel.run (demoEnv.withTables fun _ => bridgeTable) (fun _ => 0) (Channel.new {} 0) placeCalls).map fun q =>
    decide (placeNames ((printedLines q.2).map Line.withoutPlace) = placeNames (printedLines q.2))) = some false := by
  decide +kernel

end Redsea
