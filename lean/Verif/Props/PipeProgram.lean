import Verif.Props.OutputOptions
import Verif.Model.Output

/-
C74 for the whole program: `redsea -b` and `redsea -b -x | redsea -h`.
-/

namespace Redsea
open _root_.Spec _root_.Redsea.Spec BlockStream

/-- Every line of hexadecimal output is hexadecimal. -/
theorem hex_lines {env : Env} (hk : env.tmc.KeysOk) (delay : Nat → Int) (o : Options) (w : Nat) (es : List ChannelEvent)
    (c : Channel) (tr : List Trace) (h : Channel.run env delay (Channel.new o w) es = some (c, tr)) (ho : o.outputType = .hex)
    (ht : o.timestamp = false) : ∀ l ∈ printedLines tr, ∃ s, l = .hex s := by
  intro l hl
  obtain ⟨t, htr, hl⟩ := List.mem_filterMap.mp hl
  cases t with
  | reset => cases hl
  | handled x =>
    obtain ⟨pre, post, hp⟩ := List.append_of_mem htr
    have := run_hexFacts env hk delay o w es c tr h ho ht pre x post hp
    dsimp only at hl
    rw [this] at hl
    split at hl
    · cases hl
    · exact ⟨_, (Option.some.inj hl).symm⟩

/-- The text of hexadecimal output. -/
theorem hex_text {F : Type} (N : BitVec 32 → Str) (ls : List Line) (h : ∀ l ∈ ls, ∃ s, l = .hex s) (reports : List Str)
    (hl : reports.length = ls.length) :
    outputText N ((ls.map (Item.line (F := F))).zip reports) = (ls.map Line.hexText).flatten := by
  induction ls generalizing reports with
  | nil => rfl
  | cons l ls ih =>
    cases reports with
    | nil => cases hl
    | cons r reports =>
      obtain ⟨s, rfl⟩ := h l List.mem_cons_self
      rw [List.map_cons, List.zip_cons_cons, outputText, ih (fun x hx => h x (List.mem_cons_of_mem _ hx)) reports (by simpa using hl)]
      rfl

section
variable {F C : Type} (ar : Arith F) (L : Liquid F C) (m : Machine F)

/-- The same machine with something else on the standard input, and at other times. -/
def Machine.next (m : Machine F) (input : Str) (now : Nat → Int) : Machine F := { m with stdin := input, now := now }

theorem next_tables (input : Str) (now : Nat → Int) (dirs : List Str) : loadTables (m.next input now) dirs = loadTables m dirs := by
  induction dirs with
  | nil => rfl
  | cons d dirs ih =>
    rw [loadTables, loadTables, ih]
    rfl

theorem next_env (input : Str) (now : Nat → Int) (o : Options) (tables : List (Word × LocationDatabase)) :
    (m.next input now).env o tables = m.env o tables := by
  unfold Machine.env Machine.keyFile
  rfl

theorem bitCalls_air (now later : Nat → Int) (bits : List Bool) : ∀ e ∈ bitCalls now later bits, e.FromAir := by
  intro e he
  rcases List.mem_append.mp he with he | he
  · obtain ⟨q, -, rfl⟩ := List.mem_map.mp he
    show 0 < 4
    omega
  · rw [List.mem_singleton.mp he]
    trivial

/-- **C74 (partial)** for the program. The input is read by `redsea -b`, which prints JSON; and it is read by `redsea -b -x`,
whose output is read by `redsea -h`. If what hexadecimal lines do not tell does not matter, then both print the same, also the
lines about location tables. (The program in between has no location tables, whose line would be in its output, see
`C83_hex_output_violated`. Missing for the full property: the condition `Pipeable`.) -/
theorem C74_program_partial (optsJ optsX optsH : List Opt) (e1 e2 e3 : Bool) (o x p : Options)
    (hJ : getOptions m.float optsJ e1 = some o) (hX : getOptions m.float optsX e2 = some x)
    (hH : getOptions m.float optsH e3 = some p)
    (hJe : o.earlyExit = false) (hXe : x.earlyExit = false) (hHe : p.earlyExit = false)
    (hJi : o.inputType = .asciiBits) (hXi : x.inputType = .asciiBits) (hHi : p.inputType = .hex)
    (hb : o.bler = false) (ht : o.timestamp = false)
    (hx : x.outputType = .hex) (hxb : x.bler = false) (hxt : x.timestamp = false) (hxf : x.useFec = o.useFec)
    (hxe : x.feedThru = false) (hxd : x.loctableDirs = [])
    (hs : SameReception o p) (hsame : optionMembers o p = []) (hd : p.loctableDirs = o.loctableDirs)
    (rows : List KeyRow) (hv : ∀ r ∈ rows, r.Valid ∧ r.xorstart ≤ 24) (hf : m.keyFile = rows.map KeyRow.line)
    (hp : ∀ tables c tr, processASCIIBitsInput (m.env o tables) m.delay m.now (m.later 0) o m.stdin = some (c, tr) →
      ∀ pre g post, groupsOf tr = pre ++ g :: post → Pipeable pre g)
    {finJ finX finH : Finished F} (hrJ : runMain ar L m optsJ e1 = some finJ) (hrX : runMain ar L m optsX e2 = some finX)
    (N : BitVec 32 → Str) (reports : List Str) (hreports : reports.length = finX.stdout.length) (now : Nat → Int)
    (hrH : runMain ar L (m.next (outputText N (finX.stdout.zip reports)) now) optsH e3 = some finH) :
    p.printed finH = o.printed finJ := by
  obtain ⟨t, c, tr, t1, r1, p1⟩ := text_calls ar L m o optsJ e1 hJ hJe (.inl hJi) hrJ
  obtain ⟨tx, cx, trx, t2, r2, p2⟩ := text_calls ar L m x optsX e2 hX hXe (.inl hXi) hrX
  obtain ⟨th, ch, trh, t3, r3, p3⟩ := text_calls ar L (m.next (outputText N (finX.stdout.zip reports)) now) p optsH e3 hH hHe (.inr (.inl hHi)) hrH
  rw [next_tables, hd, t1] at t3
  cases t3
  rw [hxd] at t2
  cases t2
  rw [hJi] at r1
  rw [hXi] at r2
  rw [hHi, next_env, env_clock m o p] at r3
  dsimp only at r1 r2 r3
  have hkJ := keysOk_of_rows m (o := o) t rows hv hf
  have hkX := keysOk_of_rows m (o := x) [] rows hv hf
  have hout : finX.stdout = (printedLines trx).map .line := by
    have := p2
    unfold Options.printed at this
    rw [hxe] at this
    exact this
  have htext : outputText N (finX.stdout.zip reports) = hexOutput trx := by
    rw [hout] at hreports ⊢
    exact hex_text N _ (hex_lines hkX m.delay x 0 _ cx trx r2 hx hxt) reports (by simpa using hreports)
  obtain ⟨c4, tr4, h4, l4⟩ := C74_pipe_partial (m.env o t) (m.env x []) hkJ hkX m.delay now o x hs.json hb ht hx hxb hxt hxf
    (bitCalls m.now (m.later 0) (asciiBitsFed m.stdin)) (bitCalls_air _ _ _) c cx tr trx r1 r2 (hp t c tr r1)
  rw [← htext] at h4
  have := C89_equal_lines (m.env o t) hkJ _ m.delay o p hs (by
    intro e
    rw [← e]
    unfold Machine.env
    rfl) 0 _ h4 r3 hsame
  rw [p3, p1, this, l4]

end

/-- `redsea -b -l /tables`, `redsea -b -x`, and `redsea -h -l /tables`. (An input whose groups are all `Pipeable`, with lost blocks
and with a group without any block, is in `Props/HexPipe.lean`.) -/
example {F : Type} (lib : FloatLib) :
    getOptions (demoMachine F lib).float [.letter 'b', .arg 'l' (ascii "/tables")] false =
      some { inputType := .asciiBits, loctableDirs := [ascii "/tables"] } ∧
    getOptions (demoMachine F lib).float [.letter 'b', .letter 'x'] false =
      some { inputType := .asciiBits, outputType := .hex } ∧
    getOptions (demoMachine F lib).float [.letter 'h', .arg 'l' (ascii "/tables")] false =
      some { inputType := .hex, loctableDirs := [ascii "/tables"] } ∧
    SameReception { inputType := .asciiBits, loctableDirs := [ascii "/tables"] }
      { inputType := .hex, loctableDirs := [ascii "/tables"] } ∧
    optionMembers { inputType := .asciiBits, loctableDirs := [ascii "/tables"] }
      { inputType := .hex, loctableDirs := [ascii "/tables"] } = [] :=
  ⟨by rfl, by rfl, by rfl, ⟨rfl, rfl, by decide, by decide⟩, by decide⟩

/-- The text between the two programs. -/
example (N : BitVec 32 → Str) : outputText (S := Nat) N ([Item.line (.hex (ascii "6204 0549 E0CD 4C45\n"))].zip [[]]) =
    ascii "6204 0549 E0CD 4C45\n" := by
  refine (hex_text (F := Nat) N [.hex (ascii "6204 0549 E0CD 4C45\n")] (fun l hl => ⟨_, List.mem_singleton.mp hl⟩) [[]] rfl).trans ?_
  decide +kernel

end Redsea
