import Verif.Lemmas.ChannelParts
import Verif.Props.Stream
import Mathlib.Tactic.Ring
import Mathlib.Tactic.Linarith

/-
Properties C18 to C23 and C60: a channel, from received bits or groups to printed lines.

The theorems speak about `Channel.run`: any sequence of calls (single bits, buffers of bits, groups,
end of input, reset of the PI cache), with any clock readings. Its result is the list of groups that
were handled, each with the line that was printed, and of the resets.
-/

namespace Redsea

/-! ### A demonstration -/

/-- An environment without tables. -/
def demoEnv : Env :=
  { tmc := { ucs2 := fun _ => none, events := fun _ => none, supplementary := fun _ => none
             serviceKey := fun _ => none, locations := fun _ => {} }
    formatTime := fun _ => [], what := [] }

theorem demoEnv_keys : demoEnv.tmc.KeysOk := by intro i k h; cases h

/-- A group whose four blocks were received. -/
def demoGroup (b1 b2 b3 b4 : Word) : Group :=
  let blk (d : Word) (o : Offset) : Block := { data := d, isReceived := true, offset := o }
  (((({} : Group).setBlock .b1 (blk b1 .A)).setBlock .b2 (blk b2 .B)).setBlock .b3
    (blk b3 .C)).setBlock .b4 (blk b4 .D)

/-- Groups given to a channel. -/
def demoCalls (gs : List Group) : List ChannelEvent := gs.map fun g => .group 0 g 0

/-- The member "pi" of a line. -/
def Line.piText? : Line → Option Str
  | .json j => match j.get? "pi" with
    | some (.str s) => some s
    | _ => none
  | _ => none

/-- The groups of a history with their lines. -/
def handledOf (tr : List Trace) : List Handled :=
  tr.filterMap fun t => match t with
    | .handled h => some h
    | .reset => none

/-! ### C60 -/

/-- **C60.** Whatever is received, decoding never throws and never accesses anything out of range:
every sequence of calls with stream numbers below 4 succeeds. (Assumed of the decryption keys, which
come from a file: shifting them does not overflow.) -/
theorem C60_never_fails (env : Env) (hk : env.tmc.KeysOk) (delay : Nat → Int) (o : Options) (w : Nat)
    (es : List ChannelEvent) (hv : ∀ e ∈ es, e.Valid) :
    ∃ c tr, Channel.run env delay (Channel.new o w) es = some (c, tr) := by
  obtain ⟨c, tr, h, -⟩ := run_good env hk delay es hv _ (channel_new_good o w)
  exact ⟨c, tr, h⟩

example : ∀ e ∈ [ChannelEvent.bits 0 demoBits 0, .bit 5 true 3, .group 0 {} 0, .resetPI,
    .flush fun _ => 0], e.Valid := by
  simp [ChannelEvent.Valid]

/-! ### C18, C23 -/

/-- What holds at every group of a run. -/
theorem run_lineFacts (env : Env) (hk : env.tmc.KeysOk) (delay : Nat → Int) (o : Options) (w : Nat)
    (es : List ChannelEvent) (c : Channel) (tr : List Trace)
    (h : Channel.run env delay (Channel.new o w) es = some (c, tr)) (ho : o.outputType ≠ .hex)
    (pre : List Trace) (x : Handled) (post : List Trace) (ht : tr = pre ++ .handled x :: post) :
    LineFacts o pre x := by
  have I := inv_facts (idInv hk o w) (LineFacts o)
    (fun tr c g s c' h i he => (handle_facts hk i he).2 ho)
  have := inv_calls I es (tr := []) (c := Channel.new o w)
    ⟨⟨channel_new_good o w, rfl, rfl, rfl, rfl, (by intro p hp; cases hp),
      (by intro _ hh; cases hh), rfl, rfl⟩, by intro pre h post hh; simp at hh⟩ h
  rw [List.nil_append] at this
  exact this.2 pre x post ht

theorem hexDigit_eq (n : Nat) : hexDigit n = hexDigitChar n := by
  unfold hexDigit hexDigitChar
  split
  · rfl
  · rename_i hn
    rw [show 65 + (n - 10) = 55 + n by omega]

theorem prefixedHex4_eq (p : Word) : prefixedHex4 p.toNat = piText p := by
  have hp : p.toNat < 65536 := p.isLt
  have h4 : p.toNat / 16 / 16 / 16 % 16 = p.toNat / 4096 := by omega
  have h3 : p.toNat / 16 / 16 % 16 = p.toNat / 256 % 16 := by omega
  simp only [prefixedHex4, hexPadded, hexDigit_eq, piText, h3, h4, List.nil_append,
    List.cons_append]
  rfl

/-- **C18**, except for lines that are replaced by an error report. With JSON output, for every
sequence of calls: a group produces a line only if a PI code was announced, at this group at the
latest; and if the group is of version A or B the member "pi" of the line is the PI code that was
announced last.
Missing for the full property: a line with a text that is not UTF-8 is replaced by an error report,
see `C18_error_report_violated`. -/
theorem C18_json_has_confirmed_pi_partial (env : Env) (hk : env.tmc.KeysOk) (delay : Nat → Int)
    (o : Options) (w : Nat) (es : List ChannelEvent) (c : Channel) (tr : List Trace)
    (h : Channel.run env delay (Channel.new o w) es = some (c, tr)) (ho : o.outputType ≠ .hex)
    (pre : List Trace) (x : Handled) (post : List Trace) (ht : tr = pre ++ .handled x :: post)
    (l : Line) (hl : x.line = some l) :
    ∃ p, announcedPI (pre ++ [.handled x]) = some p ∧
      (l = .error ∨ ∃ j, l = .json j ∧
        (x.group.isAB = true → j.get? "pi" = some (.str (piText p)))) := by
  have f := run_lineFacts env hk delay o w es c tr h ho pre x post ht
  have hp := (f.printed.1 (by rw [hl]; rfl)).1
  obtain ⟨p, hp⟩ := Option.isSome_iff_exists.1 hp
  refine ⟨p, hp, ?_⟩
  rcases f.json l hl with he | ⟨j, hj, hpi, -⟩
  · exact .inl he
  · refine .inr ⟨j, hj, fun hab => ?_⟩
    obtain ⟨q, hq, hm⟩ := hpi hab
    rw [hp] at hq
    rw [hm, ← Option.some.inj hq, prefixedHex4_eq]

/-- An announced PI code was received three times in a row (groups without a PI code apart). -/
theorem C18_announced_three_times (tr : List Trace) (p : Word) (h : announcedPI tr = some p) :
    ∃ a b, piEvents tr = a ++ [.recv p, .recv p, .recv p] ++ b := by
  suffices H : ∀ es : List PIEvent, lastAnnounced es {} none = some p →
      ∃ a b, es = a ++ [.recv p, .recv p, .recv p] ++ b from H _ h
  intro es
  induction es using snocInduction with
  | nil => intro h; cases h
  | snoc es e ih =>
    intro h
    rw [lastAnnounced_append] at h
    have key : lastAnnounced es {} none = some p →
        ∃ a b, es ++ [e] = a ++ [.recv p, .recv p, .recv p] ++ b := by
      intro h
      obtain ⟨a, b, rfl⟩ := ih h
      exact ⟨a, b ++ [e], by simp⟩
    cases e with
    | reset => exact key h
    | recv q =>
      simp only [lastAnnounced] at h
      split at h
      · rename_i hc
        have hq := Option.some.inj h
        subst hq
        obtain ⟨es', rfl⟩ := C15_three_consecutive es q hc
        exact ⟨es', [], by simp⟩
      · exact key h

/-- Lines appear with the third group, and carry the PI code. -/
example : ((Channel.run demoEnv (fun _ => 0) (Channel.new {} 0) (demoCalls
      (List.replicate 4 (demoGroup 0x6204 0x0408 0xE0CD 0x2020)))).map fun r =>
    (handledOf r.2).map fun h => h.line.bind Line.piText?) =
    some [none, none, some (ascii "0x6204"), some (ascii "0x6204")] := by decide +kernel

/-- The full C18 is violated: a long station name that is not valid UTF-8 replaces the line by an
error report without "pi". (PI 0x6204 is confirmed at the third group; the groups are of type 15A.) -/
theorem C18_error_report_violated :
    ∃ es c tr, Channel.run demoEnv (fun _ => 0) (Channel.new {} 0) es = some (c, tr) ∧
      ∃ x, (handledOf tr).getLast? = some x ∧ x.group.isAB = true ∧ x.line = some .error ∧
        announcedPI tr = some 0x6204 := by
  have H : ((Channel.run demoEnv (fun _ => 0) (Channel.new {} 0) (demoCalls
      ([0, 0, 0, 1, 2, 3, 4, 5, 6, 7].map fun i => demoGroup 0x6204 (0xF000 + i) 0xC3C3 0xC3C3))).bind
      fun r => (handledOf r.2).getLast?.map fun x => (x.group.isAB && (match x.line with
        | some .error => true
        | _ => false) && (announcedPI r.2 == some 0x6204))) = some true := by decide +kernel
  simp only [Option.bind_eq_some_iff, Option.map_eq_some_iff, Bool.and_eq_true, beq_iff_eq] at H
  obtain ⟨⟨c, tr⟩, h1, x, h2, ⟨h3, h4⟩, h5⟩ := H
  refine ⟨_, c, tr, h1, x, h2, h3, ?_, h5⟩
  cases hl : x.line with
  | none => rw [hl] at h4; cases h4
  | some l =>
    cases l with
    | error => rfl
    | json j => rw [hl] at h4; cases h4
    | hex s => rw [hl] at h4; cases h4

/-- **C23.** With JSON output, for every sequence of calls: a group produces a line if and only if a
station is known (a PI code was announced, at this group at the latest) and, for version A and B,
a block of the group was received and the group has a PI code or the version A or B group before it
had one. -/
theorem C23_printed_iff (env : Env) (hk : env.tmc.KeysOk) (delay : Nat → Int) (o : Options) (w : Nat)
    (es : List ChannelEvent) (c : Channel) (tr : List Trace)
    (h : Channel.run env delay (Channel.new o w) es = some (c, tr)) (ho : o.outputType ≠ .hex)
    (pre : List Trace) (x : Handled) (post : List Trace) (ht : tr = pre ++ .handled x :: post) :
    x.line.isSome = true ↔ (announcedPI (pre ++ [.handled x])).isSome = true ∧
      (x.group.isAB = true → x.group.hasNothing = false ∧
        ((groupPI x.group).isSome = true ∨ lastGroupHadPI pre = true)) :=
  (run_lineFacts env hk delay o w es c tr h ho pre x post ht).printed

/-- In particular at most one group without PI code in a row is printed. -/
theorem C23_no_two_without_pi (env : Env) (hk : env.tmc.KeysOk) (delay : Nat → Int) (o : Options)
    (w : Nat) (es : List ChannelEvent) (c : Channel) (tr : List Trace)
    (h : Channel.run env delay (Channel.new o w) es = some (c, tr)) (ho : o.outputType ≠ .hex)
    (pre : List Trace) (x y : Handled) (mid post : List Trace)
    (ht : tr = pre ++ .handled x :: (mid ++ .handled y :: post))
    (hm : ∀ g ∈ groupsOf mid, g.isAB = false) (hx : x.group.isAB = true) (hy : y.group.isAB = true)
    (hpx : groupPI x.group = none) (hpy : groupPI y.group = none) : y.line = none := by
  have f := C23_printed_iff env hk delay o w es c tr h ho (pre ++ .handled x :: mid) y post
    (by rw [ht]; simp)
  cases hl : y.line with
  | none => rfl
  | some l =>
    rw [hl] at f
    obtain ⟨-, hh⟩ := f.1 rfl
    rcases (hh hy).2 with h1 | h1
    · rw [hpy] at h1; cases h1
    · have hf : (groupsOf mid).filter Group.isAB = [] := by
        rw [List.filter_eq_nil_iff]
        intro g hg
        rw [hm g hg]; simp
      have e : groupsOf (pre ++ .handled x :: mid) = groupsOf pre ++ (x.group :: groupsOf mid) := by
        simp [groupsOf, Trace.group?]
      rw [lastGroupHadPI, e, List.filter_append, List.filter_cons, if_pos hx, hf] at h1
      simp [hpx] at h1

/-- A group without PI code. -/
def demoHeadless : Group := { demoGroup 0 0x0408 0xE0CD 0x2020 with block1 := {} }

/-- After the station was confirmed: a group without PI code is printed, the next one is not, nor is
an empty group. -/
example : ((Channel.run demoEnv (fun _ => 0) (Channel.new {} 0) (demoCalls
      (List.replicate 3 (demoGroup 0x6204 0x0408 0xE0CD 0x2020) ++ [demoHeadless, demoHeadless,
        demoGroup 0x6204 0x0408 0xE0CD 0x2020, {}]))).map fun r =>
    (handledOf r.2).map fun h => h.line.isSome) =
    some [false, false, true, true, false, true, false] := by decide +kernel

/-! ### C19 -/

/-- A decoder that was just started and knows the PI code `p`; it takes over the position in the bit
streams, the error rate average and the clock of `c`. -/
def freshWith (c : Channel) (p : Word) : Channel :=
  { options := c.options, whichChannel := c.whichChannel
    cachedPi := { confirmed := p, prev1 := p, prev2 := p, hasPrevious := true }
    station := Station.withPI c.options c.whichChannel p
    blockStreams := c.blockStreams, blerAverage := c.blerAverage, lastRxTime := c.lastRxTime }

theorem cache_after_change (c : CachedPI) (p : Word) (h : (c.update p).2 = .changeConfirmed) :
    (c.update p).1 = { confirmed := p, prev1 := p, prev2 := p, hasPrevious := true } := by
  revert h
  obtain ⟨conf, a, b, hp⟩ := c
  simp only [CachedPI.update, CachedPI.confirm]
  split
  · rename_i hc
    simp only [Bool.and_eq_true, beq_iff_eq] at hc
    intro _
    simp [CachedPI.dropIfNoisy, hc.2, hc.1.1]
  · intro h; simp at h

theorem updatePI_change (c : Channel) (g : Group) (p : Word) (hg : groupPI g = some p)
    (h : (c.cachedPi.update p).2 = .changeConfirmed) : c.updatePI g = freshWith c p := by
  rw [groupPI_eq] at hg
  split at hg
  · rename_i hp
    have hq := Option.some.inj hg
    subst hq
    unfold Channel.updatePI
    rw [if_pos hp]
    dsimp only
    rw [if_pos h, cache_after_change _ _ h]
    rfl
  · cases hg

theorem updatePI_fresh (c : Channel) (g : Group) (p : Word) (hg : groupPI g = some p) :
    (freshWith c p).updatePI g = freshWith c p := by
  rw [groupPI_eq] at hg
  split at hg
  · rename_i hp
    have hq := Option.some.inj hg
    subst hq
    unfold Channel.updatePI
    rw [if_pos hp]
    simp [freshWith, CachedPI.update, CachedPI.confirm, CachedPI.dropIfNoisy]
  · cases hg

theorem markStream_pi (g : Group) (b : Option Nat) (s : Nat) :
    groupPI (Channel.markStream { g with bler := b } s) = groupPI (Channel.markStream g s) := by
  rw [markStream_isAB]; rfl

theorem handleGroup_change (env : Env) (c : Channel) (g : Group) (s : Nat) (p : Word)
    (hg : groupPI (Channel.markStream g s) = some p)
    (h : (c.cachedPi.update p).2 = .changeConfirmed) :
    c.handleGroup env g s = (freshWith c p).handleGroup env g s := by
  unfold Channel.handleGroup Channel.addBler
  by_cases hb : c.options.bler = true
  · have hb' : (freshWith c p).options.bler = true := hb
    rw [if_pos hb, if_pos hb']
    have e : (freshWith c p).blerAverage = c.blerAverage := rfl
    rw [e]
    cases c.blerAverage.push g.getNumErrors with
    | none => rfl
    | some r =>
      simp only [Option.bind_eq_bind, Option.bind_some, Option.pure_def]
      rw [updatePI_change { c with blerAverage := r } _ p (by rw [Group.setBler, markStream_pi]; exact hg) h]
      have e2 : ({ freshWith c p with blerAverage := r } : Channel) =
          freshWith { c with blerAverage := r } p := rfl
      rw [e2, updatePI_fresh _ _ p (by rw [Group.setBler, markStream_pi]; exact hg)]
  · have hb' : ¬ (freshWith c p).options.bler = true := hb
    rw [if_neg hb, if_neg hb']
    simp only [Option.bind_eq_bind, Option.bind_some]
    rw [updatePI_change c _ p hg h, updatePI_fresh c _ p hg]

/-- **C19.** In whatever state a channel is, if a group confirms a new PI code then from this group on
everything (the line printed for this group, and whatever happens in all later calls) is the same as
with a decoder that was just started and knows the PI code; it shares the position in the bit
streams, the error rate average and the clock. -/
theorem C19_change_erases_station (env : Env) (delay : Nat → Int) (c : Channel) (now : Int)
    (g : Group) (s : Nat) (p : Word) (hg : groupPI (Channel.markStream g s) = some p)
    (h : (c.cachedPi.update p).2 = .changeConfirmed) (es : List ChannelEvent) :
    Channel.run env delay c (.group now g s :: es) =
      Channel.run env delay (freshWith c p) (.group now g s :: es) := by
  have key : c.processGroup env now g s = (freshWith c p).processGroup env now g s := by
    unfold Channel.processGroup Channel.stampGroup
    have ho : (freshWith c p).options.timestamp = c.options.timestamp := rfl
    rw [ho]
    split
    · dsimp only
      rw [handleGroup_change env { c with lastRxTime := now } _ s p ?_ h]
      · rfl
      · rw [← hg]
        unfold Group.setTime Channel.markStream
        split <;> rfl
    · exact handleGroup_change env c g s p hg h
  rw [Channel.run, Channel.run, Channel.step, Channel.step, key]

/-- Two channels have the same options and position in the bit streams, error rate average and
clock. -/
structure SameSetting (c d : Channel) : Prop where
  options : c.options = d.options
  which : c.whichChannel = d.whichChannel
  streams : c.blockStreams = d.blockStreams
  bler : c.blerAverage = d.blerAverage
  time : c.lastRxTime = d.lastRxTime

/-- **C19**, for two histories. Let `c` and `d` be any two states (whatever stations were received
before) that agree in the setting, and let a group confirm the same new PI code in both. Then the
outcome is the same from then on. -/
theorem C19_histories_do_not_matter (env : Env) (delay : Nat → Int) (c d : Channel)
    (hs : SameSetting c d) (now : Int) (g : Group) (s : Nat) (p : Word)
    (hg : groupPI (Channel.markStream g s) = some p)
    (hc : (c.cachedPi.update p).2 = .changeConfirmed)
    (hd : (d.cachedPi.update p).2 = .changeConfirmed) (es : List ChannelEvent) :
    Channel.run env delay c (.group now g s :: es) = Channel.run env delay d (.group now g s :: es) := by
  rw [C19_change_erases_station env delay c now g s p hg hc,
    C19_change_erases_station env delay d now g s p hg hd]
  congr 1
  unfold freshWith
  rw [hs.options, hs.which, hs.streams, hs.bler, hs.time]

/-- Groups that are decoded by the type 2A (text) and 0A decoders, PI 0x6204; then two groups of
another station. -/
def demoOther : Channel :=
  ((Channel.run demoEnv (fun _ => 0) (Channel.new {} 0) (demoCalls
    (List.replicate 4 (demoGroup 0x6204 0x2400 0x4142 0x4344) ++
      List.replicate 2 (demoGroup 0x6205 0x0408 0xE0CD 0x2020)))).map Prod.fst).getD (Channel.new {} 0)

/-- The hypotheses of C19 hold for a channel that has received another station. -/
example : groupPI (Channel.markStream (demoGroup 0x6205 0x0408 0xE0CD 0x2020) 0) = some 0x6205 ∧
    (demoOther.cachedPi.update 0x6205).2 = .changeConfirmed ∧ demoOther.station.pi = 0x6204 ∧
    demoOther.station ≠ Station.withPI {} 0 0x6204 := by
  refine ⟨by decide +kernel, by decide +kernel, by decide +kernel, ?_⟩
  intro h
  have : demoOther.station.radiotext.text.getData = (Station.withPI {} 0 0x6204).radiotext.text.getData := by
    rw [h]
  exact absurd this (by decide +kernel)

/-! ### C20 -/

/-- **C20**, for buffers of bits (the demodulated signal). However the clock readings of the buffers
and their order are, the receive times of the groups of a channel never go backwards, over all
streams. `delay` is the duration of a number of bits.
Missing for the full property: single bits, groups and the end of input, see
`C20_clock_backwards_violated` and `C20_clock_steady_partial`. -/
theorem C20_buffers_partial (env : Env) (delay : Nat → Int) (hd : ∀ n, 0 ≤ delay n) (o : Options)
    (w : Nat) (es : List ChannelEvent) (hes : ∀ e ∈ es, (∃ t l s, e = .bits t l s) ∨ e = .resetPI)
    (c : Channel) (tr : List Trace)
    (h : Channel.run env delay (Channel.new o w) es = some (c, tr)) :
    ((groupsOf tr).map fun g => g.time.getD 0).Pairwise (· ≤ ·) ∧
      ∀ g ∈ groupsOf tr, g.time.isSome = true := by
  obtain ⟨r, i⟩ := run_bits_times hd es (tr := []) (r := 0) (c := Channel.new o w)
    ⟨List.Pairwise.nil, by simp [rxTimes, groupsOf], by simp [Channel.new], by simp [groupsOf]⟩ hes h
  rw [List.nil_append] at i
  exact ⟨i.sorted, i.timed⟩

/-- **C20**, for all kinds of calls, if the clock does not go backwards (and does not read times
before 1970) and the groups given to the channel have no time of their own. -/
theorem C20_clock_steady_partial (env : Env) (delay : Nat → Int) (hd : ∀ n, 0 ≤ delay n) (o : Options)
    (ho : o.timestamp = true) (w : Nat) (es : List ChannelEvent) (hun : ∀ e ∈ es, e.untimed)
    (hsort : (0 :: es.flatMap ChannelEvent.clock).Pairwise (· ≤ ·))
    (c : Channel) (tr : List Trace)
    (h : Channel.run env delay (Channel.new o w) es = some (c, tr)) :
    ((groupsOf tr).map fun g => g.time.getD 0).Pairwise (· ≤ ·) ∧
      ∀ g ∈ groupsOf tr, g.time.isSome = true := by
  obtain ⟨r, i⟩ := run_times hd es (tr := []) (r := 0) (c := Channel.new o w) ho
    (by
      intro s hs
      simp only [Channel.new, List.mem_replicate] at hs
      rw [hs.2]; exact ⟨rfl, rfl⟩)
    ⟨List.Pairwise.nil, by simp [rxTimes, groupsOf], by simp [Channel.new], by simp [groupsOf]⟩
    hun hsort h
  rw [List.nil_append] at i
  exact ⟨i.sorted, i.timed⟩

/-- A buffer that claims to be older than the one before. -/
example : ((Channel.run demoEnv (fun n => n) (Channel.new { timestamp := true } 0)
      [.bits 1000 demoBits 0, .bits 500 demoA.bits 0, .bits 2000 demoB.bits 0]).map fun r =>
    (groupsOf r.2).map fun g => g.time) = some [some 896, some 1000, some 1000, some 2000] := by
  decide +kernel

/-- The full C20 is violated: for groups that come one by one, a group after a clock step back can
have an earlier time than a group before. The clock reads 10, 5, 7; the times are 10, 10, 7. -/
theorem C20_clock_backwards_violated :
    ∃ es c tr, Channel.run demoEnv (fun _ => 0) (Channel.new { timestamp := true } 0) es = some (c, tr) ∧
      (∀ e ∈ es, e.untimed) ∧ (groupsOf tr).map (fun g => g.time) = [some 10, some 10, some 7] := by
  have H : ((Channel.run demoEnv (fun _ => 0) (Channel.new { timestamp := true } 0)
      [.group 10 (demoGroup 1 2 3 4) 0, .group 5 (demoGroup 1 2 3 4) 0,
       .group 7 (demoGroup 1 2 3 4) 0]).map fun r => (groupsOf r.2).map fun g => g.time) =
      some [some 10, some 10, some 7] := by decide +kernel
  simp only [Option.map_eq_some_iff] at H
  obtain ⟨⟨c, tr⟩, h1, h2⟩ := H
  exact ⟨_, c, tr, h1, by simp [ChannelEvent.untimed]; decide, h2⟩

/-- Hex input gives each group the time at which its line was read; the channel does not compare
these times. -/
theorem C20_timed_groups_violated :
    ∃ es c tr, Channel.run demoEnv (fun _ => 0) (Channel.new { timestamp := true } 0) es = some (c, tr) ∧
      (groupsOf tr).map (fun g => g.time) = [some 10, some 5] := by
  have H : ((Channel.run demoEnv (fun _ => 0) (Channel.new { timestamp := true } 0)
      [.group 0 ((demoGroup 1 2 3 4).setTime 10) 0, .group 0 ((demoGroup 1 2 3 4).setTime 5) 0]).map
      fun r => (groupsOf r.2).map fun g => g.time) = some [some 10, some 5] := by decide +kernel
  simp only [Option.map_eq_some_iff] at H
  obtain ⟨⟨c, tr⟩, h1, h2⟩ := H
  exact ⟨_, c, tr, h1, h2⟩

/-! ### C21 -/

/-- **C21.** With the error rate switched on, for every sequence of calls: the rate that is attached
to a group is the number of wrong blocks (missing or corrected) among the last 12 groups, this one
included, out of 48; before start-up there were no wrong blocks. -/
theorem C21_bler_last_twelve (env : Env) (delay : Nat → Int) (o : Options) (hb : o.bler = true) (w : Nat)
    (es : List ChannelEvent) (c : Channel) (tr : List Trace)
    (h : Channel.run env delay (Channel.new o w) es = some (c, tr))
    (pre : List Trace) (x : Handled) (post : List Trace) (ht : tr = pre ++ .handled x :: post) :
    x.group.bler =
      some (((groupsOf (pre ++ [.handled x])).reverse.take 12).map wrongBlocks).sum := by
  have I := inv_facts (blerInv (env := env) o hb) (fun tr h => h.group.bler =
      some (((groupsOf (tr ++ [.handled h])).reverse.take 12).map wrongBlocks).sum)
    (by
      intro tr c g s c' h i he
      obtain ⟨-, -, b1, b2, b3, b4, -, -, ho, -, hbl⟩ := handleGroup_keeps he
      obtain ⟨r, hr, hc, hbler⟩ := hbl (by rw [i.1]; exact hb)
      rw [hbler, holds_sum (holds_push i.2 hr)]
      congr 2
      rw [List.map_take, List.map_reverse, groupsOf_append, List.map_append]
      simp only [groupsOf, List.filterMap_cons, List.filterMap_nil, Trace.group?, List.map_cons,
        List.map_nil, wrongBlocks_eq, Group.getNumErrors, b1, b2, b3, b4])
  have := inv_calls I es (tr := []) (c := Channel.new o w)
    ⟨⟨rfl, holds_init⟩, by intro pre h post hh; simp at hh⟩ h
  rw [List.nil_append] at this
  exact this.2 pre x post ht

/-- **C21**, the printed number: the member "bler" is the percentage of wrong blocks, rounded to the
nearest integer (halves up), and at most 100. -/
theorem C21_printed (env : Env) (hk : env.tmc.KeysOk) (delay : Nat → Int) (o : Options)
    (hb : o.bler = true) (ho : o.outputType ≠ .hex) (w : Nat)
    (es : List ChannelEvent) (c : Channel) (tr : List Trace)
    (h : Channel.run env delay (Channel.new o w) es = some (c, tr))
    (pre : List Trace) (x : Handled) (post : List Trace) (ht : tr = pre ++ .handled x :: post)
    (j : J) (hj : x.line = some (.json j)) :
    ∃ r : Nat, j.get? "bler" = some (.nat r) ∧ r ≤ 100 ∧
      (let q := (((groupsOf (pre ++ [.handled x])).reverse.take 12).map wrongBlocks).sum
       48 * (2 * r) ≤ 200 * q + 48 ∧ 200 * q + 48 < 48 * (2 * r + 2)) := by
  have f := run_lineFacts env hk delay o w es c tr h ho pre x post ht
  have hbl := C21_bler_last_twelve env delay o hb w es c tr h pre x post ht
  rcases f.json _ hj with he | ⟨j', he, -, hm, -⟩
  · cases he
  · cases he
    rw [hbl] at hm
    refine ⟨_, hm, ?_, ?_⟩
    · have hle : (((groupsOf (pre ++ [.handled x])).reverse.take 12).map wrongBlocks).sum ≤ 48 := by
        have : ∀ l : List Group, (l.map wrongBlocks).sum ≤ 4 * l.length := by
          intro l
          induction l with
          | nil => simp
          | cons g l ih =>
            have : wrongBlocks g ≤ 4 := by
              unfold wrongBlocks
              exact Nat.le_trans (List.length_filter_le _ _) (by simp)
            simp only [List.map_cons, List.sum_cons, List.length_cons]
            omega
        refine Nat.le_trans (this _) ?_
        rw [List.length_take]
        omega
      unfold Station.blerPercent
      omega
    · dsimp only
      unfold Station.blerPercent
      omega

/-- Rounding in floating point gives the same result: unless the exact percentage 25 q / 12 is halfway
between two integers (and then it is a multiple of 12.5, which floats hold exactly), every value
closer than 1/12 to it is rounded the same way. The value is `v / (12 K)` for any `K > 0`. -/
theorem C21_rounding_margin (q : Nat) (K v : Int) (hK : 0 < K) (h : 25 * q % 12 ≠ 6)
    (hv : 25 * (q : Int) * K - K < v ∧ v < 25 * q * K + K) :
    (v + 6 * K) / (12 * K) = Station.blerPercent q := by
  obtain ⟨d, hd⟩ : ∃ d : Int, v = 25 * q * K + d := ⟨v - 25 * q * K, by omega⟩
  subst hd
  obtain ⟨hv1, hv2⟩ := hv
  have hb : (Station.blerPercent q : Int) = (25 * q + 6) / 12 := by unfold Station.blerPercent; omega
  obtain ⟨r, hr0, hr1, hr⟩ : ∃ r : Int, 1 ≤ r ∧ r < 12 ∧ 25 * (q : Int) + 6 = 12 * ((25 * q + 6) / 12) + r :=
    ⟨(25 * q + 6) % 12, by omega, by omega, by omega⟩
  rw [hb]
  generalize (25 * (q : Int) + 6) / 12 = z at hr
  have e : 25 * (q : Int) * K + d + 6 * K = (r * K + d) + (12 * K) * z := by
    have : 25 * (q : Int) = 12 * z + r - 6 := by omega
    rw [this]; ring
  rw [e, Int.add_mul_ediv_left _ _ (by omega), Int.ediv_eq_zero_of_lt]
  · omega
  · nlinarith
  · nlinarith

/-- Groups with 4, 0, 1 and 4 wrong blocks. -/
example : ((Channel.run demoEnv (fun _ => 0) (Channel.new { bler := true } 0) (demoCalls
      [{}, demoGroup 1 2 3 4, { demoGroup 1 2 3 4 with block1 := {} }, {}])).map fun r =>
    (groupsOf r.2).map fun g => g.bler) = some [some 4, some 4, some 5, some 9] := by decide +kernel

/-! ### C22 -/

/-- **C22**, for the streams 1 to 3. Let a stream have delivered a group at some bit and then have
received the first `n` bits (at least one whole block) of another group without errors when the input
ends. Then the end of input hands over a group of this stream that holds exactly the whole blocks
received.
Missing for the full property: stream 0, see `C22_stream0_violated`. -/
theorem C22_partial_group_handed_over_partial (env : Env) (delay : Nat → Int) (o : Options)
    (w : Nat) (es : List ChannelEvent) (now : Nat → Int) (c : Channel) (tr : List Trace)
    (h : Channel.run env delay (Channel.new o w) (es ++ [.flush now]) = some (c, tr))
    (i : Nat) (hi : i = 1 ∨ i = 2 ∨ i = 3) (bs : List Bool) (bit : Bool) (g : Group)
    (hd : deliveredAt o.useFec bs bit = some g) (tx : Spec.TxGroup) (n : Nat) (h1 : 26 ≤ n) (hn : n < 104)
    (hbits : fedBits i es = bs ++ [bit] ++ tx.bits.take n) :
    ∃ (tr0 : List Trace) (hs : List Handled), tr = tr0 ++ hs.map .handled ∧ ∃ x ∈ hs, x.group.dataStream = i ∧
      [BlockNum.b1, .b2, .b3, .b4].map (fun b => if x.group.has b then some (x.group.get b) else none) =
        [some tx.d1, if 52 ≤ n then some tx.d2 else none, if 78 ≤ n then some tx.d3 else none, none] := by
  have happ : ∀ (es : List ChannelEvent) (c c' : Channel) (tr : List Trace),
      Channel.run env delay c (es ++ [.flush now]) = some (c', tr) →
      ∃ c1 tr1 tr2, Channel.run env delay c es = some (c1, tr1) ∧
        c1.step env delay (.flush now) = some (c', tr2) ∧ tr = tr1 ++ tr2 := by
    intro es
    induction es with
    | nil =>
      intro c c' tr h
      simp only [List.nil_append, Channel.run, Option.bind_eq_bind, Option.bind_eq_some_iff] at h
      obtain ⟨⟨c1, t1⟩, h1, ⟨c2, t2⟩, h2, h3⟩ := h
      have h2 := Option.some.inj h2
      have h3 := Option.some.inj h3
      simp only [Prod.mk.injEq] at h2 h3
      obtain ⟨rfl, rfl⟩ := h2
      obtain ⟨rfl, rfl⟩ := h3
      exact ⟨c, [], t1, rfl, h1, by simp⟩
    | cons e es ih =>
      intro c c' tr h
      rw [List.cons_append, Channel.run] at h
      simp only [Option.bind_eq_bind, Option.bind_eq_some_iff] at h
      obtain ⟨⟨c1, t1⟩, h1, ⟨c2, t2⟩, h2, h3⟩ := h
      have h3 := Option.some.inj h3
      simp only [Prod.mk.injEq] at h3
      obtain ⟨rfl, rfl⟩ := h3
      obtain ⟨d, s1, s2, k1, k2, rfl⟩ := ih _ _ _ h2
      refine ⟨d, t1 ++ s1, s2, ?_, k2, by simp⟩
      rw [Channel.run, h1]
      simp only [Option.bind_eq_bind, Option.bind_some]
      rw [k1]
      rfl
  obtain ⟨c1, tr1, tr2, r1, r2, rfl⟩ := happ es _ c tr h
  simp only [Channel.step, Option.map_eq_some_iff] at r2
  obtain ⟨⟨c2, hs⟩, r2, r3⟩ := r2
  simp only [Prod.mk.injEq] at r3
  obtain ⟨rfl, rfl⟩ := r3
  refine ⟨tr1, hs, rfl, ?_⟩
  have hst := run_streams es r1 i (by omega)
  have hcur := current_after o.useFec bs bit g hd tx n hn
  rw [← hbits] at hcur
  generalize stateAfter o.useFec (fedBits i es) = s at hst hcur
  have hfl := flush_groups [1, 2, 3] r2
  have hne : s.currentGroup.hasNothing = false := by
    have : s.currentGroup.has .b1 = true := by
      simp only [List.map_cons, List.cons.injEq] at hcur
      have h := hcur.1
      rw [if_pos h1] at h
      cases hh : s.currentGroup.has .b1 with
      | true => rfl
      | false => rw [hh] at h; simp at h
    have : s.currentGroup.block1.isReceived = true := this
    simp [Group.hasNothing, this]
  have hmem : ([s.currentGroup.block1, s.currentGroup.block2, s.currentGroup.block3,
      s.currentGroup.block4], i) ∈ hs.map (fun h => ([h.group.block1, h.group.block2, h.group.block3,
        h.group.block4], h.group.dataStream)) := by
    rw [hfl, List.mem_filterMap]
    refine ⟨i, by rcases hi with h | h | h <;> simp [h], ?_⟩
    rw [hst]
    simp only [Option.bind_some, hne, Bool.false_eq_true, if_false]
  obtain ⟨x, hx, hxe⟩ := List.mem_map.1 hmem
  simp only [Prod.mk.injEq, List.cons.injEq, and_true] at hxe
  obtain ⟨⟨e1, e2, e3, e4⟩, e5⟩ := hxe
  refine ⟨x, hx, e5, ?_⟩
  rw [if_pos h1] at hcur
  rw [← hcur]
  simp only [List.map_cons, List.map_nil, Group.has, Group.get, Group.block, e1, e2, e3, e4]
  rfl

/-- The hypotheses of C22 hold for a demonstration on stream 1. -/
example : fedBits 1 [.bits 0 (demoBits ++ demoA.bits.take 60) 1] =
    demoBits.dropLast ++ [demoBits.getLastD false] ++ demoA.bits.take 60 ∧
    (deliveredAt true demoBits.dropLast (demoBits.getLastD false)).isSome = true :=
  ⟨by decide +kernel, demo_delivers_last⟩

/-- The full C22 is violated: on stream 0, the only one of a normal transmission, a partial last
group is lost. Stream 0 has delivered its second group and received three further blocks; the end of
input hands over nothing. -/
theorem C22_stream0_violated (env : Env) (hk : env.tmc.KeysOk) (delay : Nat → Int) (t : Int)
    (now : Nat → Int) :
    ∃ c tr, Channel.run env delay (Channel.new {} 0)
        [.bits t (demoBits ++ demoA.bits.take 78) 0] = some (c, tr) ∧
      (c.blockStreams[0]?.map fun s => [s.currentGroup.has .b1, s.currentGroup.has .b2,
        s.currentGroup.has .b3, s.currentGroup.has .b4]) = some [true, true, true, false] ∧
      c.step env delay (.flush now) = some (c, []) := by
  obtain ⟨c, tr, h⟩ := C60_never_fails env hk delay {} 0 [.bits t (demoBits ++ demoA.bits.take 78) 0]
    (by simp [ChannelEvent.Valid])
  have hs := run_streams _ h
  refine ⟨c, tr, h, ?_, ?_⟩
  · rw [hs 0 (by omega)]
    rw [show fedBits 0 [ChannelEvent.bits t (demoBits ++ demoA.bits.take 78) 0] =
      demoBits ++ demoA.bits.take 78 by
        simp [fedBits, ChannelEvent.bitsFor]]
    decide +kernel
  · have h1 := hs 1 (by omega)
    have h2 := hs 2 (by omega)
    have h3 := hs 3 (by omega)
    simp only [Channel.step, Channel.flush, Channel.flushStreams, h1, h2, h3, Option.bind_eq_bind,
      Option.bind_some]
    rfl

/-! ### C15, a channel that is made for a known PI -/

/-- C15: a channel that is made for a known PI (src/channel.cc:52-60) has the station of this PI from the start, and the first
group with this PI confirms it, as the third of three would. -/
theorem C15_known_pi (o : Options) (pi : Word) (h0 : pi ≠ 0) (g : Group) (hg : g.hasPI = true) (hp : g.getPI = pi) :
    (Channel.newWithPI o pi).station = Station.withPI o 0 pi ∧
    ((Channel.newWithPI o pi).updatePI g).station = Station.withPI o 0 pi ∧
    ((Channel.newWithPI o pi).updatePI g).cachedPi.confirmed = pi ∧ (Channel.newWithPI o pi).cachedPi.confirmed = 0 := by
  have h0' : ¬ pi = 0#16 := h0
  have s1 : (({} : CachedPI).update pi).1 = { confirmed := 0, prev1 := pi, prev2 := 0, hasPrevious := true } := rfl
  have s2 : (({ confirmed := 0, prev1 := pi, prev2 := 0, hasPrevious := true } : CachedPI).update pi).1 =
      { confirmed := 0, prev1 := pi, prev2 := pi, hasPrevious := true } := by
    simp [CachedPI.update, CachedPI.confirm, CachedPI.dropIfNoisy, h0']
  have e : (Channel.newWithPI o pi).cachedPi = { confirmed := 0, prev1 := pi, prev2 := pi, hasPrevious := true } := by
    show ((({} : CachedPI).update pi).1.update pi).1 = _
    rw [s1, s2]
  have e2 : (Channel.newWithPI o pi).cachedPi.update pi =
      ({ confirmed := pi, prev1 := pi, prev2 := pi, hasPrevious := true }, .changeConfirmed) := by
    rw [e]
    simp [CachedPI.update, CachedPI.confirm, CachedPI.dropIfNoisy, h0']
  refine ⟨rfl, ?_, ?_, by rw [e]⟩
  · unfold Channel.updatePI
    rw [if_pos hg, hp, e2]
    rfl
  · unfold Channel.updatePI
    rw [if_pos hg, hp, e2]
    rfl

example : (demoGroup 0x6204 0 0 0).hasPI = true ∧ (demoGroup 0x6204 0 0 0).getPI = 0x6204 ∧ (0x6204 : Word) ≠ 0 := by
  decide +kernel

end Redsea
