import Verif.Lemmas.HexPipe
import Verif.Props.OtherInput

/-
C74: hexadecimal output that is read again (`redsea -x | redsea -h`) is decoded to the same lines as
the original input.
-/

namespace Redsea

open _root_.Spec _root_.Redsea.Spec BlockStream

/-! ### Specification -/

/-- The third block was received with offset word C'. -/
def HasCprime (g : Group) : Prop := g.has .b3 = true ∧ (g.block .b3).offset = .Cprime

/-- The last of some groups on stream 0 had no block. -/
def PreviousEmpty (gs : List Group) : Prop :=
  ((gs.filter fun g => g.dataStream == 0).getLast?.map Group.isEmpty) = some true

/-- What a line of hexadecimal output does not tell must not matter. `pre` are the groups received
before `g`. -/
structure Pipeable (pre : List Group) (g : Group) : Prop where
  /-- A group of the streams 1 to 3 has a block (else there is no line). -/
  data : g.dataStream ≠ 0 → g.isEmpty = false
  /-- The PI code was not received in block 3 alone (the line does not tell the offset word). -/
  pi : g.dataStream = 0 → HasCprime g → g.has .b1 = true
  /-- Block 2 says version B only with offset word C' in block 3. -/
  version : g.dataStream = 0 → g.has .b2 = true → versionBit (g.get .b2) = true → HasCprime g
  /-- After a group without any block, for which there is no line, comes one with a first block. -/
  lost : g.dataStream = 0 → g.isEmpty = false → PreviousEmpty pre → g.has .b1 = true

/-! ### Proof -/

theorem previousEmpty_iff (gs : List Group) (h : ∀ g ∈ gs, FromAirGroup g) :
    lastWasEmpty gs = true ↔ PreviousEmpty gs := by
  have e : gs.filter Group.isAB = gs.filter fun g => g.dataStream == 0 := by
    refine List.filter_congr ?_
    intro g hg
    rcases (h g hg).2 with ⟨h0, a⟩ | ⟨h0, -, hv, -⟩
    · have := air_AB a
      simp [Group.isAB, this, h0]
    · simp [Group.isAB, hv, h0]
  unfold lastWasEmpty PreviousEmpty
  rw [e]
  cases (gs.filter fun g => g.dataStream == 0).getLast? with
  | none => simp
  | some g => simp

theorem nothingLost_of {pre : List Group} {g : Group} (hp : ∀ g ∈ pre, FromAirGroup g) (ha : FromAirGroup g)
    (h : Pipeable pre g) : NothingLost pre g := by
  refine ⟨?_, ?_⟩
  · intro he
    rcases ha.2 with ⟨-, a⟩ | ⟨h0, -, -, -⟩
    · exact air_AB a
    · rw [h.data h0] at he
      cases he
  · intro he hv
    rcases ha.2 with ⟨h0, a⟩ | ⟨-, -, hc, -⟩
    · cases hl : lastWasEmpty pre with
      | false => exact .inl rfl
      | true =>
        right
        have := h.lost h0 he ((previousEmpty_iff pre hp).mp hl)
        have this : g.block1.isReceived = true := this
        unfold Group.hasPI
        rw [this, Bool.true_or, Bool.and_true]
        simpa using hv
    · exact absurd hc hv

/-- **C74 (partial).** Let the same bits be decoded twice: once to JSON lines, and once to
hexadecimal lines which are read by a second program that prints JSON lines. If what the hexadecimal
lines do not tell does not matter (`Pipeable`), the second program prints the same lines, in the same
order, and nothing else. (The first of the two programs may have other options and other tables. Without time stamps and block error rates, which have to be different.)
Missing for the full property: the condition `Pipeable`, without which it is false, see the
theorems `C74_…_violated`. -/
theorem C74_pipe_partial (env env' : Env) (hk : env.tmc.KeysOk) (hk' : env'.tmc.KeysOk) (delay : Nat → Int) (now : Nat → Int)
    (o x : Options) (ho : o.outputType ≠ .hex) (hb : o.bler = false) (ht : o.timestamp = false)
    (hx : x.outputType = .hex) (hxb : x.bler = false) (hxt : x.timestamp = false) (hxf : x.useFec = o.useFec)
    (es : List ChannelEvent) (hv : ∀ e ∈ es, e.FromAir) (c ch : Channel) (tr trh : List Trace)
    (h : Channel.run env delay (Channel.new o 0) es = some (c, tr))
    (hh : Channel.run env' delay (Channel.new x 0) es = some (ch, trh))
    (hp : ∀ pre g post, groupsOf tr = pre ++ g :: post → Pipeable pre g) :
    ∃ p trp, processHexInput env delay now o (hexOutput trh) = some (p, trp) ∧
      printedLines trp = printedLines tr := by
  obtain ⟨ha, hr⟩ := air_run es hv (air_new o 0 hb) h
  have htw : groupsOf trh = groupsOf tr :=
    twin_run es (c := Channel.new o 0) (d := Channel.new x 0)
      ⟨hxf, by rw [show (Channel.new x 0).options.timestamp = x.timestamp from rfl, hxt]; exact ht.symm, hb, hxb, rfl, rfl⟩ h hh
  rw [hexOutput_groups hk' delay _ 0 es ch trh hh hx hxt, htw]
  have hs : ∀ g ∈ groupsOf tr, g.dataStream ≤ 3 := by
    intro g hg
    rcases (ha g hg).2 with ⟨h0, -⟩ | ⟨-, h3, -, -⟩ <;> omega
  obtain ⟨gs', last, hread0, hsame, hl, hl0⟩ :=
    C38_hex_file_round_trip ((groupsOf tr).map fun g => (g, none))
      (by
        intro p hp
        obtain ⟨g, hg, rfl⟩ := List.mem_map.mp hp
        exact hs g hg)
      (by
        intro p hp t ht
        obtain ⟨g, hg, rfl⟩ := List.mem_map.mp hp
        cases ht)
  rw [List.map_map] at hread0
  rw [List.map_map, show (Prod.fst ∘ fun g : Group => (g, (none : Option Str))) = id from rfl, List.map_id] at hsame
  have hread := hexInput_all ReadShape readShape_empty read_line
    ((groupsOf tr).map ((fun p : Group × Option Str => printAsHex p.1 p.2) ∘ fun g => (g, none))).flatten
  rw [hread0] at hread
  have hall := pipedAll_of hsame (fun g' hg => hread g' (List.mem_append_left _ hg)) (by
    intro g hg
    have hg := (List.mem_filter.mp hg).1
    obtain ⟨pre, post, hsplit⟩ := List.append_of_mem hg
    have q := hp pre g post hsplit
    exact ⟨ha g hg, fun h1 h2 h3 => q.pi h1 ⟨h2, h3⟩, q.version⟩)
  have hlost : ∀ pre g post, groupsOf tr = pre ++ g :: post → NothingLost pre g := by
    intro pre g post hsplit
    refine nothingLost_of ?_ ?_ (hp pre g post hsplit)
    · intro y hy
      exact ha y (by rw [hsplit]; exact List.mem_append_left _ hy)
    · exact ha g (by rw [hsplit]; simp)
  have I := pipeInv hk delay ho hb ht 0 now
  have hfin := inv_calls I es (tr := []) ⟨⟨channel_new_good o 0, rfl, rfl, rfl, rfl, (by intro p hp; cases hp),
      (by intro _ hh; cases hh), rfl, rfl⟩, fun _ _ gs' hgs => by
    cases hgs' : gs' with
    | nil =>
      refine ⟨Channel.new o 0, [], rfl, rfl, rfl, rfl, rfl, rfl, ?_⟩
      exact ⟨_, rfl, fun _ => rfl⟩
    | cons x xs =>
      have hgs : PipedAll [] gs' := hgs
      generalize hy : ([] : List Group) = ys at hgs
      cases hgs with
      | nil => cases hgs'
      | snoc _ _ => simp at hy⟩ h
  obtain ⟨p, trp, k1, k2, k3⟩ := hfin.2 hr hlost gs' hall
  have hlast : last.type.version ≠ .C := by
    have r := hread last (by simp)
    rw [r.type]
    split
    · exact ofCode_AB _
    · simp
  obtain ⟨p', hp'⟩ := empty_handle (env := env) ho hb k3.options' last hl hlast
  have hstep : p.step env delay (.group (now gs'.length) last last.dataStream) =
      some (p', [.handled { group := last.setDataStream 0, line := none }]) := by
    simp only [Channel.step]
    rw [processGroup_noStamp (by rw [k3.options']; exact ht), hl0, hp']
    rfl
  refine ⟨p', trp ++ [.handled { group := last.setDataStream 0, line := none }], ?_, ?_⟩
  · unfold processHexInput
    have hx'' : hexInputGroups ((groupsOf tr).map fun g => printAsHex g none).flatten = gs' ++ [last] := hread0
    rw [hx'', groupCalls_snoc]
    exact run_snoc k1 hstep
  · rw [printedLines_append, k2]
    show printedLines tr ++ [] = _
    rw [List.append_nil]

/-- The same for the program that reads bits: `redsea -b`, and `redsea -b -x | redsea -h`. -/
theorem C74_ascii_bits_partial (env : Env) (hk : env.tmc.KeysOk) (delay : Nat → Int) (now later now' : Nat → Int)
    (o : Options) (ho : o.outputType ≠ .hex) (hb : o.bler = false) (ht : o.timestamp = false) (input : Str) :
    ∃ c tr ch trh, processASCIIBitsInput env delay now later o input = some (c, tr) ∧
      processASCIIBitsInput env delay now later { o with outputType := .hex } input = some (ch, trh) ∧
      ((∀ pre g post, groupsOf tr = pre ++ g :: post → Pipeable pre g) →
        ∃ p trp, processHexInput env delay now' o (hexOutput trh) = some (p, trp) ∧
          printedLines trp = printedLines tr) := by
  have hair : ∀ e ∈ bitCalls now later (asciiBitsFed input), e.FromAir := by
    intro e he
    rcases List.mem_append.mp he with he | he
    · obtain ⟨q, -, rfl⟩ := List.mem_map.mp he
      show 0 < 4
      omega
    · rw [List.mem_singleton.mp he]
      trivial
  have hval : ∀ e ∈ bitCalls now later (asciiBitsFed input), e.Valid := by
    intro e he
    have := hair e he
    cases e with
    | bit _ _ _ => exact this
    | bits _ _ _ => exact this
    | group _ _ _ => exact this.elim
    | flush _ => trivial
    | resetPI => exact this.elim
  obtain ⟨c, tr, h⟩ := C60_never_fails env hk delay o 0 _ hval
  obtain ⟨ch, trh, hh⟩ := C60_never_fails env hk delay { o with outputType := .hex } 0 _ hval
  exact ⟨c, tr, ch, trh, h, hh, fun hp => C74_pipe_partial env env hk hk delay now' o { o with outputType := .hex } ho hb ht rfl hb ht rfl _ hair c ch tr trh h hh hp⟩

/-- Nothing is lost when all four blocks of every group were received and every third block has the
offset word for the version in the second block. -/
theorem C74_all_blocks (env : Env) (hk : env.tmc.KeysOk) (delay : Nat → Int) (now : Nat → Int) (o : Options)
    (ho : o.outputType ≠ .hex) (hb : o.bler = false) (ht : o.timestamp = false)
    (es : List ChannelEvent) (hv : ∀ e ∈ es, e.FromAir) (c ch : Channel) (tr trh : List Trace)
    (h : Channel.run env delay (Channel.new o 0) es = some (c, tr))
    (hh : Channel.run env delay (Channel.new { o with outputType := .hex } 0) es = some (ch, trh))
    (hall : ∀ g ∈ groupsOf tr, ∀ n, g.has n = true)
    (hoff : ∀ g ∈ groupsOf tr, g.dataStream = 0 → versionBit (g.get .b2) = true → (g.block .b3).offset = .Cprime) :
    ∃ p trp, processHexInput env delay now o (hexOutput trh) = some (p, trp) ∧
      printedLines trp = printedLines tr := by
  refine C74_pipe_partial env env hk hk delay now o { o with outputType := .hex } ho hb ht rfl hb ht rfl es hv c ch tr trh h hh ?_
  intro pre g post hs
  have hg : g ∈ groupsOf tr := by rw [hs]; simp
  refine ⟨?_, fun _ _ => hall g hg .b1, fun h0 _ hb => ⟨hall g hg .b3, hoff g hg h0 hb⟩, fun _ _ _ => hall g hg .b1⟩
  intro _
  unfold Group.isEmpty
  rw [hall g hg .b1]
  rfl

/-! ### Demonstrations -/

/-- What the line says about the type of the group; empty if nothing. -/
def Line.groupText : Line → Str
  | .json j => match j.at? ["group"] with
    | some (.str t) => t
    | _ => []
  | _ => []

/-- The types of the groups printed directly. -/
def directTypes (es : List ChannelEvent) : Option (List Str) :=
  (Channel.run demoEnv (fun _ => 0) (Channel.new {} 0) es).map fun r => (printedLines r.2).map Line.groupText

/-- The types of the groups printed by the second program. -/
def pipedTypes (es : List ChannelEvent) : Option (List Str) := do
  let r ← Channel.run demoEnv (fun _ => 0) (Channel.new { outputType := .hex } 0) es
  (processHexInput demoEnv (fun _ => 0) (fun _ => 0) {} (hexOutput r.2)).map fun r =>
    (printedLines r.2).map Line.groupText

/-- Five groups; the PI code is known from the fourth on. -/
def pipeDemo : List Bool := demoBits ++ demoBits ++ demoA.bits

/-- Errors that cannot be corrected. -/
def pipeNoise : BitVec 26 := 0x2AD4B65

/-- The hypotheses of `C74_pipe_partial` can be met: groups with and without all of their blocks,
and one without any; two of them are printed, and by the second program too. -/
example :
    let es : List ChannelEvent := [.bits 0 (pipeDemo ++ demoA.damagedBits { e2 := pipeNoise } ++
      demoA.damagedBits { e1 := pipeNoise, e2 := pipeNoise, e3 := pipeNoise, e4 := pipeNoise } ++ demoB.bits) 0]
    (∀ e ∈ es, e.FromAir) ∧
    ((Channel.run demoEnv (fun _ => 0) (Channel.new {} 0) es).map fun r => (groupsOf r.2).map fun g =>
      (g.dataStream, [BlockNum.b1, .b2, .b3, .b4].map g.has, versionBit (g.get .b2),
        decide ((g.block .b3).offset = .Cprime))) =
      some [(0, [false, false, true, true], false, false), (0, [true, true, true, true], true, true),
        (0, [true, true, true, true], false, false), (0, [true, true, true, true], true, true),
        (0, [true, true, true, true], false, false), (0, [true, false, true, true], false, false),
        (0, [false, false, false, false], false, false), (0, [true, true, true, true], true, true)] ∧
    directTypes es = some [ascii "15B", ascii "0A", [], ascii "15B"] ∧
    pipedTypes es = some [ascii "15B", ascii "0A", [], ascii "15B"] := by
  refine ⟨?_, ?_, ?_, ?_⟩
  · intro e he
    rw [List.mem_singleton.mp he]
    show 0 < 4
    omega
  · decide +kernel
  · decide +kernel
  · decide +kernel

/-- **C74 is violated**: a group of version B of which block 3 was lost has no type when it is decoded
directly, for offset word C' was not seen; the second program believes in version B all the same. -/
theorem C74_version_violated :
    let es : List ChannelEvent := [.bits 0 (pipeDemo ++ demoB.damagedBits { e3 := pipeNoise }) 0]
    directTypes es = some [ascii "15B", ascii "0A", []] ∧
      pipedTypes es = some [ascii "15B", ascii "0A", ascii "15B"] := by
  exact ⟨by decide +kernel, by decide +kernel⟩

/-- **C74 is violated**: the PI code in block 3 of version B is not used by the second program, for the
line does not tell the offset word. Of two groups without block 1 it prints one, not both. -/
theorem C74_second_pi_violated :
    let es : List ChannelEvent := [.bits 0 (pipeDemo ++ demoB.damagedBits { e1 := pipeNoise } ++
      demoB.damagedBits { e1 := pipeNoise }) 0]
    directTypes es = some [ascii "15B", ascii "0A", ascii "15B", ascii "15B"] ∧
      pipedTypes es = some [ascii "15B", ascii "0A", ascii "15B"] := by
  exact ⟨by decide +kernel, by decide +kernel⟩

/-- **C74 is violated**: there is no line for a group without any block. A group without block 1 that
comes after it is not printed directly (no two groups in a row without PI code), but by the second
program. -/
theorem C74_empty_group_violated :
    let es : List ChannelEvent := [.bits 0 (pipeDemo ++
      demoA.damagedBits { e1 := pipeNoise, e2 := pipeNoise, e3 := pipeNoise, e4 := pipeNoise } ++
      demoA.damagedBits { e1 := pipeNoise }) 0]
    directTypes es = some [ascii "15B", ascii "0A"] ∧
      pipedTypes es = some [ascii "15B", ascii "0A", ascii "0A"] := by
  exact ⟨by decide +kernel, by decide +kernel⟩

/-- **C74 is violated**: a group without any block on one of the streams 1 to 3 is printed directly, but
there is no line of hexadecimal output for it. -/
theorem C74_empty_data_violated :
    let es : List ChannelEvent := [.bits 0 pipeDemo 0, .bits 0 (demoBits ++
      demoA.damagedBits { e1 := pipeNoise, e2 := pipeNoise, e3 := pipeNoise, e4 := pipeNoise }) 1]
    directTypes es = some [ascii "15B", ascii "0A", ascii "C", ascii "C", ascii "C"] ∧
      pipedTypes es = some [ascii "15B", ascii "0A", ascii "C", ascii "C"] := by
  exact ⟨by decide +kernel, by decide +kernel⟩

end Redsea
