import Verif.Lemmas.HexLines
import Verif.Props.WallClock

/-
Property C99: hexadecimal output shows the received blocks and nothing else.
-/

namespace Redsea
open _root_.Spec _root_.Redsea.Spec

/-- **C99**, for the calls of one channel: two channels for hexadecimal output receive the same, at any times, with any options
(but both with, or both without, the correction of errors), any tables and any format for times. Both print the same lines,
except for what is after the blocks; and that is the time or nothing, as the options say. -/
theorem C99_calls (env env' : Env) (delay delay' : Nat → Int) (o o' : Options) (ho : o.outputType = .hex)
    (ho' : o'.outputType = .hex) (hf : o'.useFec = o.useFec) (w w' : Nat) (es es' : List ChannelEvent)
    (he : List.Forall₂ SameCall es es') {q r : Channel × List Trace}
    (h : Channel.run env delay (Channel.new o w) es = some q)
    (h' : Channel.run env' delay' (Channel.new o' w') es' = some r) :
    List.Forall₂ (SameHexLine o o' env.formatTime env'.formatTime) (printedLines q.2) (printedLines r.2) := by
  have start : HexTwin o o' (Channel.new o w) (Channel.new o' w') := ⟨rfl, rfl, rfl⟩
  exact (hexs_run ho ho' hf he start).1 q r h h'

section
variable {F C : Type} (ar : Arith F) (L : Liquid F C) (m m' : Machine F)

/-- The text of a time on a machine. -/
def Machine.timeText (m : Machine F) (o : Options) (t : Int) : Str := getTimePointString m.conv t o.timeFormat

theorem formatTime_env (o : Options) (tables : List (Word × LocationDatabase)) : (m.env o tables).formatTime = m.timeText o := by
  unfold Machine.env Machine.timeText
  rfl

theorem tableLines_texts (tables : List (Word × LocationDatabase)) :
    (tableLines tables : List (Item F)) = (tables.reverse.map fun t => t.2.text).map .tableInfo := by
  unfold tableLines
  rw [List.map_map]
  rfl

/-- **C99**, for the program: the same input on two machines that have nothing else in common, for two command lines with `-x`
and the same kind of input, number of streams, and correction of errors. After the lines about location tables, the same lines
are printed, except for what is after the blocks; and that is the time or nothing, as the options say. -/
theorem C99_program (opts opts' : List Opt) (extra extra' : Bool) (o o' : Options)
    (h : getOptions m.float opts extra = some o) (h' : getOptions m'.float opts' extra' = some o')
    (he : o.earlyExit = false) (he' : o'.earlyExit = false) (ho : o.outputType = .hex) (ho' : o'.outputType = .hex)
    (hf : o'.useFec = o.useFec) (hst : o'.streams = o.streams) (hi : o'.inputType = o.inputType) (hin : m'.stdin = m.stdin)
    (hm : m'.sound o' = m.sound o) {fin fin' : Finished F} (hr : runMain ar L m opts extra = some fin) (hok : fin.success = true)
    (hr' : runMain ar L m' opts' extra' = some fin') (hok' : fin'.success = true) :
    ∃ texts texts' ls ls', o.printed fin = texts.map .tableInfo ++ ls.map .line ∧
      o'.printed fin' = texts'.map .tableInfo ++ ls'.map .line ∧
      (o.loctableDirs = [] → texts = []) ∧ (o'.loctableDirs = [] → texts' = []) ∧
      List.Forall₂ (SameHexLine o o' (fun t => getTimePointString m.conv t o.timeFormat)
        (fun t => getTimePointString m'.conv t o'.timeFormat)) ls ls' := by
  have none_loaded : ∀ (k : Machine F) (p : Options) (t : List (Word × LocationDatabase)), loadTables k p.loctableDirs = some t →
      p.loctableDirs = [] → (t.reverse.map fun t => t.2.text) = [] := by
    intro k p t ht hd
    rw [hd] at ht
    cases ht
    rfl
  by_cases hs : o.inputType = .mpxStdin ∨ o.inputType = .mpxSndfile
  · obtain ⟨rate, channels, samples, t, tr, h1, h2, h3, h4⟩ := sound_calls ar L m o opts extra h he hs hr hok
    obtain ⟨rate', channels', samples', t', tr', h1', h2', h3', h4'⟩ :=
      sound_calls ar L m' o' opts' extra' h' he' (by rw [hi]; exact hs) hr' hok'
    rw [hm, h1] at h1'
    cases h1'
    have e := formatTime_env m o t
    have e' := formatTime_env m' o' t'
    generalize m.env o t = env at *
    generalize m'.env o' t' = env' at *
    refine ⟨_, _, soundLines tr, soundLines tr', h4.trans (by rw [tableLines_texts]), h4'.trans (by rw [tableLines_texts]),
      none_loaded m o t h2, none_loaded m' o' t' h2', ?_⟩
    have key := (alike_sound (ar := ar) (L := L) (alike_hex (env := env) (env' := env') (o := o.forSound rate channels)
      (o' := o'.forSound rate channels) ho ho' hf m.delay m'.delay) (o := o.forSound rate channels)
      (o' := o'.forSound rate channels) hst (fun ch => ⟨rfl, rfl, rfl⟩) (fun i => trivial) (fun i j => trivial)
      _ _ _ _).1 tr tr' h3 h3'
    rw [e, e'] at key
    exact key
  · have ht : o.inputType = .asciiBits ∨ o.inputType = .hex ∨ o.inputType = .tef6686 := by
      revert hs
      cases o.inputType <;> simp
    obtain ⟨t, c, tr, h1, h2, h3⟩ := text_calls ar L m o opts extra h he ht hr
    obtain ⟨t', c', tr', h1', h2', h3'⟩ := text_calls ar L m' o' opts' extra' h' he' (by rw [hi]; exact ht) hr'
    have e := formatTime_env m o t
    have e' := formatTime_env m' o' t'
    generalize m.env o t = env at *
    generalize m'.env o' t' = env' at *
    refine ⟨_, _, printedLines tr, printedLines tr', h3.trans (by rw [tableLines_texts]), h3'.trans (by rw [tableLines_texts]),
      none_loaded m o t h1, none_loaded m' o' t' h1', ?_⟩
    have key := C99_calls env env' m.delay m'.delay o o' ho ho' hf 0 0 _ _ ?_ h2 h2'
    · rw [e, e'] at key
      exact key
    · rw [hi, hin]
      rcases ht with ht | ht | ht <;> rw [ht] <;> dsimp only
      · unfold bitCalls
        exact List.rel_append (sameCalls_map (fun _ => .bit _ _ _ _) _) (.cons (.flush _ _) .nil)
      · exact sameCalls_map (fun _ => .group _ _ _ _) _
      · exact sameCalls_map (fun _ => .group _ _ _ _) _

theorem equal_untimed {o o' : Options} {f f' : Int → Str} (ht : o.timestamp = false) (ht' : o'.timestamp = false) {a b : List Line}
    (h : List.Forall₂ (SameHexLine o o' f f') a b) : a = b := by
  induction h with
  | nil => rfl
  | cons hx _ ih =>
    obtain ⟨bl, s, s', rfl, rfl, -, h1, h2⟩ := hx
    unfold HexLineEnd at h1 h2
    rw [ht, if_neg Bool.false_ne_true] at h1
    rw [ht', if_neg Bool.false_ne_true] at h2
    rw [h1, h2, ih]

/-- **C99**, without times and without location tables: exactly the same is printed. -/
theorem C99_identical (opts opts' : List Opt) (extra extra' : Bool) (o o' : Options)
    (h : getOptions m.float opts extra = some o) (h' : getOptions m'.float opts' extra' = some o')
    (he : o.earlyExit = false) (he' : o'.earlyExit = false) (ho : o.outputType = .hex) (ho' : o'.outputType = .hex)
    (hf : o'.useFec = o.useFec) (hst : o'.streams = o.streams) (hi : o'.inputType = o.inputType) (hin : m'.stdin = m.stdin)
    (hm : m'.sound o' = m.sound o) (ht : o.timestamp = false) (ht' : o'.timestamp = false) (hd : o.loctableDirs = [])
    (hd' : o'.loctableDirs = []) {fin fin' : Finished F} (hr : runMain ar L m opts extra = some fin) (hok : fin.success = true)
    (hr' : runMain ar L m' opts' extra' = some fin') (hok' : fin'.success = true) : o'.printed fin' = o.printed fin := by
  obtain ⟨texts, texts', ls, ls', e1, e2, k1, k2, key⟩ := C99_program ar L m m' opts opts' extra extra' o o' h h' he he' ho ho' hf
    hst hi hin hm hr hok hr' hok'
  rw [e1, e2, k1 hd, k2 hd', equal_untimed ht ht' key]

end

/-- The lines for three groups that are received at the time `t`. -/
def demoHexLines (o : Options) (t : Int) : Option (List Str) :=
  (Channel.run timesEnv (fun _ => 0) (Channel.new { o with outputType := .hex } 0) (demoNames.map fun g => .group t g 0)).map fun r =>
    (printedLines r.2).map fun l => match l with
    | .hex s => s
    | _ => []

/-- Without times, and with other options and times. -/
example : demoHexLines {} 5 = some (List.replicate 3 (ascii "6204 0408 E0CD 594C\n")) ∧
    demoHexLines { timestamp := true, rbds := true, bler := true, showRaw := true } 5 =
      some (List.replicate 3 (ascii "6204 0408 E0CD 594C early\n")) ∧
    demoHexLines { timestamp := true, showPartial := true } 500 = some (List.replicate 3 (ascii "6204 0408 E0CD 594C late\n")) :=
  ⟨by decide +kernel, by decide +kernel, by decide +kernel⟩

/-- With `-h -x` and `-h -x -R -E -p -u`, on machines with different clocks, the line of `oneLine_prints` is printed. -/
example {F C : Type} (ar : Arith F) (L : Liquid F C) (lib : FloatLib) (now : Nat → Int) {fin : Finished F}
    (hr : runMain ar L { oneLine F lib with now := now }
      [.letter 'h', .letter 'x', .letter 'R', .letter 'E', .letter 'p', .letter 'u'] false = some fin) (hok : fin.success = true) :
    fin.stdout = [.line (.hex (ascii "6204 0408 2020 4142\n"))] := by
  obtain ⟨fin0, h1, h2⟩ := oneLine_prints ar L lib
  rw [← h2]
  refine C99_identical ar L (oneLine F lib) { oneLine F lib with now := now } _ _ _ _ { inputType := .hex, outputType := .hex }
    { inputType := .hex, outputType := .hex, showRaw := true, bler := true, showPartial := true, rbds := true }
    (by rfl) (by rfl) rfl rfl rfl rfl rfl rfl rfl rfl rfl rfl rfl rfl rfl h1 ?_ hr hok
  rw [runMain_process ar L (oneLine F lib) [.letter 'h', .letter 'x'] false (o := { inputType := .hex, outputType := .hex }) rfl rfl] at h1
  dsimp only at h1
  unfold runHex at h1
  obtain ⟨t, -, h1⟩ := Option.bind_eq_some_iff.mp h1
  obtain ⟨r, -, h1⟩ := Option.bind_eq_some_iff.mp h1
  cases h1
  rfl

end Redsea
