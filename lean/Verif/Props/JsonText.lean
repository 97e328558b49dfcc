import Verif.Lemmas.OutputLines
import Verif.Props.Main
import Verif.Props.TableInfo
import Verif.Props.Channel

/-
Property C85: the output is newline-delimited JSON.
-/

namespace Redsea

open _root_.Redsea.Spec

/-- What the text of a line of JSON output should say, if `report` is the message of an exception. -/
def LineSays (F : BitVec 32 → Str) (report : Str) : Line → Value → Prop
  | .json j, v => v = valueOf (finiteText F) j
  | .error, v => v = .object [(ascii "debug", .string report)]
  | .hex _, _ => False

/-- What the text of an item should say: a line, or the line about a location table. -/
def ItemSays {S : Type} (F : BitVec 32 → Str) (report : Str) : Item S → Value → Prop
  | .line l, v => LineSays F report l v
  | .tableInfo t, v => ∃ db : LocationDatabase, t = db.text ∧ v = tableInfo db
  | _, _ => False

/-- A JSON text on a line of its own: without control characters, in Unicode, an object without repeated names. -/
def JsonLine (text : Str) (v : Value) : Prop :=
  ∃ s, text = s ++ [0x0A] ∧ (∀ b ∈ s, 0x20 ≤ b.toNat) ∧ (∃ t : String, s = unicodeBytes t) ∧ readText s = some v ∧
    (∃ l, v = .object l) ∧ NoRepeats v

section
variable {F : BitVec 32 → Str} (hF : NumberTexts F)
include hF

theorem jsonLine_dump (j : J) (hu : j.utf8 = true) (hd : j.Distinct) (ho : j.isObject) :
    JsonLine (j.dump F ++ [0x0A]) (valueOf (finiteText F) j) := by
  refine ⟨_, rfl, dump_bytes hF j, dump_unicode hF j hu, ?_, ?_, noRepeats_of_distinct _ j hd⟩
  · rw [readText_dump hF, knownTexts_eq]
  · cases j with
    | obj l => exact ⟨_, rfl⟩
    | _ => exact ho.elim

theorem line_says (l : Line) (h : l.Fine) (report : Str) (hr : ∃ t : String, report = unicodeBytes t) :
    ∃ v, LineSays F report l v ∧ JsonLine (l.text F report) v := by
  rcases h with rfl | ⟨j, rfl, hu, hd, ho, -⟩
  · refine ⟨_, rfl, ?_⟩
    have hn : unicodeBytes "debug" = ascii "debug" := by
      rw [unicodeBytes_eq]
      decide +kernel
    have := jsonLine_dump hF (.obj [("debug", .str report)])
      (by
        show (validUtf8 report && true) = true
        rw [(validUtf8_iff report).mpr hr]
        rfl)
      ⟨by simp, trivial, trivial⟩ trivial
    simp only [valueOf, membersOf] at this
    rw [hn] at this
    exact this
  · exact ⟨_, rfl, jsonLine_dump hF j hu hd ho⟩

theorem table_says (db : LocationDatabase) : JsonLine db.text (tableInfo db) := by
  rw [tableText_dump F]
  have hn : ∀ s ∈ ["location_table_info", "ltn", "num_points", "num_roads", "num_names"], unicodeBytes s = ascii s := by
    intro s hs
    rw [unicodeBytes_eq]
    revert s
    decide +kernel
  have := jsonLine_dump hF (tableJson db) rfl
    ⟨by simp, ⟨by simp [List.nodup_cons], trivial, trivial, trivial, trivial, trivial⟩, trivial⟩ trivial
  have e : valueOf (finiteText F) (tableJson db) = tableInfo db := by
    simp only [tableJson, valueOf, membersOf]
    rw [hn _ (by simp), hn _ (by simp), hn _ (by simp), hn _ (by simp), hn _ (by simp)]
    rfl
  rw [e] at this
  exact this

end

/-- Texts that are lines of JSON, one after the other, can be read again. -/
theorem readLines_all (l : List (Str × Value)) (h : ∀ x ∈ l, JsonLine x.1 x.2) :
    readLines (l.flatMap Prod.fst) = some (l.map Prod.snd) ∧ ∃ t : String, l.flatMap Prod.fst = unicodeBytes t := by
  induction l with
  | nil => exact ⟨rfl, "", rfl⟩
  | cons x l ih =>
    obtain ⟨i1, i2⟩ := ih fun y hy => h y (List.mem_cons_of_mem _ hy)
    obtain ⟨s, h1, h2, h3, h4, -⟩ := h x List.mem_cons_self
    rw [List.flatMap_cons, h1]
    refine ⟨?_, (Unicode.append h3 (unicode_one 0x0A (by decide))).append i2⟩
    unfold readLines at i1 ⊢
    obtain ⟨ls, j1, j2⟩ := Option.bind_eq_some_iff.mp i1
    rw [List.append_assoc, List.singleton_append, textLines_append s _ (fun hm => by have := h2 _ hm; simp at this), j1]
    dsimp only [Option.map_some, Option.bind_eq_bind, Option.bind_some]
    rw [List.mapM_cons, h4, j2]
    rfl

/-- **C85**: whatever a channel receives, each line of its JSON output is a JSON text on a line of its own: an object
without repeated names, in Unicode and without control characters, that says what the members of the line are. -/
theorem C85_line {F : BitVec 32 → Str} (hF : NumberTexts F) (env : Env) (hk : env.tmc.KeysOk) (delay : Nat → Int)
    (o : Options) (ho : o.outputType ≠ .hex) (w : Nat) (es : List ChannelEvent) (c : Channel) (tr : List Trace)
    (h : Channel.run env delay (Channel.new o w) es = some (c, tr)) (l : Line) (hl : l ∈ printedLines tr)
    (report : Str) (hr : ∃ t : String, report = unicodeBytes t) :
    ∃ v, LineSays F report l v ∧ JsonLine (l.text F report) v :=
  line_says hF l (run_fine env hk delay o w es c tr h ho l hl) report hr

/-- An item of JSON output. -/
def Item.Fine {S : Type} (i : Item S) : Prop := (∃ db : LocationDatabase, i = .tableInfo db.text) ∨ ∃ l : Line, i = .line l ∧ l.Fine

theorem items_read {S : Type} {F : BitVec 32 → Str} (hF : NumberTexts F) (items : List (Item S × Str))
    (h : ∀ i ∈ items, i.1.Fine) (hr : ∀ i ∈ items, ∃ t : String, i.2 = unicodeBytes t) :
    ∃ vs, readLines (outputText F items) = some vs ∧ List.Forall₂ (fun i v => ItemSays F i.2 i.1 v) items vs ∧
      (∀ v ∈ vs, (∃ l, v = .object l) ∧ NoRepeats v) ∧ ∃ t : String, outputText F items = unicodeBytes t := by
  have key : ∃ l : List (Str × Value), outputText F items = l.flatMap Prod.fst ∧ (∀ x ∈ l, JsonLine x.1 x.2) ∧
      List.Forall₂ (fun i v => ItemSays F i.2 i.1 v) items (l.map Prod.snd) := by
    induction items with
    | nil => exact ⟨[], rfl, (by intro x hx; cases hx), .nil⟩
    | cons i items ih =>
      obtain ⟨l, h1, h2, h3⟩ := ih (fun x hx => h x (List.mem_cons_of_mem _ hx)) fun x hx => hr x (List.mem_cons_of_mem _ hx)
      have one : ∃ v, ItemSays F i.2 i.1 v ∧ JsonLine (i.1.text F i.2) v := by
        rcases h i List.mem_cons_self with ⟨db, he⟩ | ⟨x, he, hx⟩
        · rw [he]
          exact ⟨_, ⟨db, rfl, rfl⟩, table_says hF db⟩
        · rw [he]
          exact line_says hF x hx i.2 (hr i List.mem_cons_self)
      obtain ⟨v, hv, hj⟩ := one
      refine ⟨(i.1.text F i.2, v) :: l, ?_, ?_, .cons hv h3⟩
      · rw [outputText, h1, List.flatMap_cons]
      · intro x hx
        rcases List.mem_cons.mp hx with rfl | hx
        · exact hj
        · exact h2 x hx
  obtain ⟨l, h1, h2, h3⟩ := key
  obtain ⟨r1, r2⟩ := readLines_all l h2
  rw [h1]
  refine ⟨_, r1, h3, ?_, r2⟩
  intro v hv
  obtain ⟨x, hx, rfl⟩ := List.mem_map.mp hv
  obtain ⟨s, -, -, -, -, a, b⟩ := h2 x hx
  exact ⟨a, b⟩

section
variable {S C : Type} (ar : Arith S) (L : Liquid S C) (m : Machine S) (opts : List Opt) (extra : Bool) {o : Options}

theorem finish_fine (o' : Options) (ho : o'.feedThru = o.feedThru) (tables : List (Word × LocationDatabase))
    (tr : List Trace) (echo : Item S) (h : ∀ l ∈ printedLines tr, l.Fine) :
    ∀ i ∈ o.printed (finish o' tables tr echo), i.Fine := by
  have e : o.printed (finish o' tables tr echo) = tableLines tables ++ (printedLines tr).map .line := by
    rw [← printed_finish (o := o') tables tr echo]
    unfold Options.printed
    rw [ho]
  rw [e]
  intro i hi
  rcases List.mem_append.mp hi with hi | hi
  · obtain ⟨t, -, rfl⟩ := List.mem_map.mp hi
    exact .inl ⟨t.2, rfl⟩
  · obtain ⟨l, hl, rfl⟩ := List.mem_map.mp hi
    exact .inr ⟨l, rfl, h l hl⟩

theorem runMPX_fine (hk : ∀ o tables, (m.env o tables).tmc.KeysOk) (ho : o.outputType ≠ .hex) (f : Finished S)
    (hrun : runMPX ar L m o = some f) (hs : f.success = true) : ∀ i ∈ o.printed f, i.Fine := by
  unfold runMPX at hrun
  split at hrun
  · cases hrun; cases hs
  · cases hrun; cases hs
  · split at hrun
    · cases hrun; cases hs
    · rename_i rate channels samples _ _
      dsimp only at hrun
      obtain ⟨tables, -, hrun⟩ := Option.bind_eq_some_iff.mp hrun
      split at hrun
      · cases hrun
      · obtain ⟨tr, htr, hrun⟩ := Option.bind_eq_some_iff.mp hrun
        obtain ⟨echo, -, hrun⟩ := Option.bind_eq_some_iff.mp hrun
        have := Option.some.inj hrun
        rw [← this]
        exact finish_fine _ rfl tables _ _ (processMPX_fine (hk _ _) (by exact ho) ar L htr)

/-- Every item that the program prints in JSON output is one of these. -/
theorem program_fine (h : getOptions m.float opts extra = some o)
    (he : o.earlyExit = false) (ho : o.outputType ≠ .hex)
    (rows : List KeyRow) (hv : ∀ r ∈ rows, r.Valid ∧ r.xorstart ≤ 24) (hf : m.keyFile = rows.map KeyRow.line)
    (f : Finished S) (hrun : runMain ar L m opts extra = some f) (hs : f.success = true) :
    ∀ i ∈ o.printed f, i.Fine := by
  have hk : ∀ o tables, (m.env o tables).tmc.KeysOk := fun o tables => keysOk_of_rows m (o := o) tables rows hv hf
  rw [runMain_process ar L m opts extra h he] at hrun
  have text : ∀ (es : List ChannelEvent) (tables : List (Word × LocationDatabase)) (r : Channel × List Trace) (echo : Item S),
      Channel.run (m.env o tables) m.delay (Channel.new o 0) es = some r →
      ∀ i ∈ o.printed (finish o tables r.2 echo), i.Fine := by
    intro es tables r echo hr
    exact finish_fine o rfl tables _ _ (run_fine _ (hk _ _) m.delay o 0 es r.1 r.2 hr ho)
  split at hrun
  · exact runMPX_fine ar L m hk ho f hrun hs
  · exact runMPX_fine ar L m hk ho f hrun hs
  · unfold runBits at hrun
    obtain ⟨tables, -, hrun⟩ := Option.bind_eq_some_iff.mp hrun
    obtain ⟨r, hr, hrun⟩ := Option.bind_eq_some_iff.mp hrun
    rw [← Option.some.inj hrun]
    exact text _ tables r _ hr
  · unfold runHex at hrun
    obtain ⟨tables, -, hrun⟩ := Option.bind_eq_some_iff.mp hrun
    obtain ⟨r, hr, hrun⟩ := Option.bind_eq_some_iff.mp hrun
    rw [← Option.some.inj hrun]
    exact text _ tables r _ hr
  · unfold runTEF at hrun
    obtain ⟨tables, -, hrun⟩ := Option.bind_eq_some_iff.mp hrun
    obtain ⟨r, hr, hrun⟩ := Option.bind_eq_some_iff.mp hrun
    rw [← Option.some.inj hrun]
    exact text _ tables r _ hr

/-- **C85**: what the program prints in JSON output, whatever its input is and if it comes to a successful end, is
newline-delimited JSON: one object per item, without repeated names and in Unicode, and every object says what it should.
(`items` are the items that are printed, with the message of the exception for those that report one.) -/
theorem C85_program {F : BitVec 32 → Str} (hF : NumberTexts F) (h : getOptions m.float opts extra = some o)
    (he : o.earlyExit = false) (ho : o.outputType ≠ .hex)
    (rows : List KeyRow) (hv : ∀ r ∈ rows, r.Valid ∧ r.xorstart ≤ 24) (hf : m.keyFile = rows.map KeyRow.line)
    (f : Finished S) (hrun : runMain ar L m opts extra = some f) (hs : f.success = true)
    (items : List (Item S × Str)) (hitems : items.map Prod.fst = o.printed f)
    (hr : ∀ i ∈ items, ∃ t : String, i.2 = unicodeBytes t) :
    ∃ vs, readLines (outputText F items) = some vs ∧ List.Forall₂ (fun i v => ItemSays F i.2 i.1 v) items vs ∧
      (∀ v ∈ vs, (∃ l, v = .object l) ∧ NoRepeats v) ∧ ∃ t : String, outputText F items = unicodeBytes t := by
  refine items_read hF items ?_ hr
  intro i hi
  refine program_fine ar L m opts extra h he ho rows hv hf f hrun hs i.1 ?_
  rw [← hitems]
  exact List.mem_map_of_mem hi

end

/-! Cases that meet the hypotheses. -/

/-- A text for every number. -/
def demoTexts (_ : BitVec 32) : Str := ascii "60.25"

theorem demoTexts_numbers : NumberTexts demoTexts := fun _ => by
  show numberValue (ascii "60.25") = some (.real (ascii "60.25"))
  have : (match numberValue (ascii "60.25") with | some (.real t) => decide (t = ascii "60.25") | _ => false) = true := by decide +kernel
  revert this
  cases numberValue (ascii "60.25") with
  | none => intro h; cases h
  | some v => cases v <;> intro h <;> first | cases h | exact congrArg some (congrArg Value.real (of_decide_eq_true h))

/-- The text of an object with quotes, a line break, a letter outside of ASCII and nested values. -/
example : (J.obj [("ps", .str (ascii "A\"\n" ++ [0xC3, 0xA1])), ("n", .arr [.int (-3), .bool true, .obj []]), ("lat", .float 0x42710000)]).dump
    demoTexts = ascii "{\"ps\":\"A\\\"\\n" ++ [0xC3, 0xA1] ++ ascii "\",\"n\":[-3,true,{}],\"lat\":60.25}" := by decide +kernel

/-- Texts that are not JSON are not read. -/
example : (readText (ascii "{\"a\":1,}")).isNone = true ∧ (readText (ascii "{\"a\":01}")).isNone = true ∧
    (readText (ascii "{\"a\":1")).isNone = true ∧ (readText (ascii "{\"a\":\"\\x\"}")).isNone = true ∧
    (readText (ascii "{\"a\" : [ 1 , 2.5e3 ] }")).isSome = true := by decide +kernel

/-- The lines of a channel that has received some groups. -/
example : ∃ c tr, Channel.run demoEnv (fun _ => 0) (Channel.new {} 0) (demoCalls (List.replicate 3 (demoGroup 0x6204 0x0408 0xE0CD 0x2020))) = some (c, tr) ∧ printedLines tr ≠ [] ∧
    ∀ l ∈ printedLines tr, ∃ v, LineSays demoTexts (ascii "?") l v ∧ JsonLine (l.text demoTexts (ascii "?")) v := by
  have hs : ((Channel.run demoEnv (fun _ => 0) (Channel.new {} 0) (demoCalls (List.replicate 3 (demoGroup 0x6204 0x0408 0xE0CD 0x2020)))).map fun r => (printedLines r.2).isEmpty) = some false := by
    decide +kernel
  obtain ⟨r, hr, hp⟩ := Option.map_eq_some_iff.mp hs
  refine ⟨r.1, r.2, hr, ?_, ?_⟩
  · intro he
    rw [he] at hp
    cases hp
  · intro l hl
    exact C85_line demoTexts_numbers demoEnv demoEnv_keys (fun _ => 0) {} (by decide) 0 (demoCalls (List.replicate 3 (demoGroup 0x6204 0x0408 0xE0CD 0x2020))) r.1 r.2 hr l hl _
      ⟨"?", by rw [unicodeBytes_eq]; decide +kernel⟩

/-- The whole output of `redsea -b -l /tables -e`. -/
example {S C : Type} (ar : Arith S) (L : Liquid S C) (lib : FloatLib) :
    ∃ (f : Finished S) (infos : List (Item S)) (ls : List Line) (vs : List Value),
      runMain ar L (demoMachine S lib) [.letter 'b', .arg 'l' (ascii "/tables"), .letter 'e'] false = some f ∧
      f.stderr = infos ++ ls.map .line ∧ infos.length = 1 ∧
      readLines (outputText demoTexts (f.stderr.map fun i => (i, ascii "?"))) = some vs ∧ vs.length = 1 + ls.length := by
  have hrows : ∀ r ∈ [({ encid := 1, xorval := 92, xorstart := 4, nrot := 11 } : KeyRow)], r.Valid ∧ r.xorstart ≤ 24 := by
    intro r hr
    rw [List.mem_singleton.mp hr]
    exact ⟨⟨by decide, by decide, by decide, by decide⟩, by decide⟩
  obtain ⟨f, infos, ls, h1, h2, h3, h4, -⟩ := C83_text_input_partial ar L (demoMachine S lib)
    [.letter 'b', .arg 'l' (ascii "/tables"), .letter 'e'] false
    (o := { inputType := .asciiBits, feedThru := true, loctableDirs := [ascii "/tables"] })
    (by rfl) rfl (.inl rfl)
    (by
      intro d hd h
      rw [List.mem_singleton.mp hd] at h
      revert h
      show ¬(if locationEncoding (tableFiles demoFiles (ascii "/tables")) = ascii "UTF-8" then some some else none) = none
      rw [demoFiles_table, if_pos (by decide +kernel)]
      nofun)
    [{ encid := 1, xorval := 92, xorstart := 4, nrot := 11 }] hrows (by rw [List.map_singleton, demoRow_line]; rfl)
  obtain ⟨vs, r1, r2, -⟩ := C85_program ar L (demoMachine S lib) [.letter 'b', .arg 'l' (ascii "/tables"), .letter 'e'] false
    (o := { inputType := .asciiBits, feedThru := true, loctableDirs := [ascii "/tables"] })
    demoTexts_numbers (by rfl) rfl (by decide)
    [{ encid := 1, xorval := 92, xorstart := 4, nrot := 11 }] hrows (by rw [List.map_singleton, demoRow_line]; rfl)
    f h1 h2 (f.stderr.map fun i => (i, ascii "?"))
    (by
      rw [List.map_map]
      exact List.map_id _)
    (by
      intro i hi
      obtain ⟨x, -, rfl⟩ := List.mem_map.mp hi
      exact ⟨"?", by rw [unicodeBytes_eq]; rfl⟩)
  have e : f.stderr = infos ++ ls.map .line := h3
  refine ⟨f, infos, ls, vs, h1, e, h4.length_eq.symm, r1, ?_⟩
  rw [← r2.length_eq, List.length_map, e, List.length_append, List.length_map, ← h4.length_eq]
  rfl

end Redsea
