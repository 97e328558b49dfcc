import Verif.Spec.Channel
import Verif.Lemmas.StationOps

/-
Induction over the calls of a channel.
-/

namespace Redsea

/-- Two channels differ at most in their block streams and the time of the last group. -/
def QuietlySame (c c' : Channel) : Prop :=
  c' = { c with blockStreams := c'.blockStreams, lastRxTime := c'.lastRxTime } ∧
    c'.blockStreams.length = c.blockStreams.length

theorem quiet_mk (c : Channel) (b : List BlockStream) (t : Int)
    (h : b.length = c.blockStreams.length) :
    QuietlySame c { c with blockStreams := b, lastRxTime := t } := ⟨rfl, h⟩

/-- `P` holds for the history so far and the state; it survives everything a channel does. -/
structure ChannelInv (env : Env) (P : List Trace → Channel → Prop) : Prop where
  quiet : ∀ tr c c', P tr c → QuietlySame c c' → P tr c'
  handle : ∀ tr c g s c' h, P tr c → c.handleGroup env g s = some (c', h) →
    P (tr ++ [.handled h]) c'
  reset : ∀ tr c, P tr c → P (tr ++ [.reset]) c.resetPI

section
variable {env : Env} {P : List Trace → Channel → Prop} (I : ChannelInv env P)
include I

theorem inv_processGroup {tr : List Trace} {c c' : Channel} {now : Int} {g : Group} {s : Nat}
    {h : Handled} (hp : P tr c) (he : c.processGroup env now g s = some (c', h)) :
    P (tr ++ [.handled h]) c' := by
  unfold Channel.processGroup at he
  refine I.handle tr _ _ s c' h ?_ he
  unfold Channel.stampGroup
  split
  · exact I.quiet tr c _ hp (quiet_mk c c.blockStreams now rfl)
  · exact hp

theorem inv_pushBit {tr : List Trace} {c c' : Channel} {b : Bool} {s : Nat} {o : Option Group}
    (hp : P tr c) (he : c.pushBit b s = some (c', o)) : P tr c' := by
  unfold Channel.pushBit at he
  simp only [Option.bind_eq_bind, Option.bind_eq_some_iff] at he
  obtain ⟨st, -, he⟩ := he
  have := Option.some.inj he
  simp only [Prod.mk.injEq] at this
  rw [← this.1]
  exact I.quiet tr c _ hp (quiet_mk c _ c.lastRxTime (by simp))

theorem inv_processBit {tr : List Trace} {c c' : Channel} {now : Int} {b : Bool} {s : Nat}
    {hs : List Handled} (hp : P tr c) (he : c.processBit env now b s = some (c', hs)) :
    P (tr ++ hs.map .handled) c' := by
  unfold Channel.processBit at he
  simp only [Option.bind_eq_bind, Option.bind_eq_some_iff] at he
  obtain ⟨⟨c1, o⟩, h1, he⟩ := he
  have hp1 := inv_pushBit I hp h1
  cases o with
  | none =>
    have := Option.some.inj he
    simp only [Prod.mk.injEq] at this
    rw [← this.1, ← this.2]
    simpa using hp1
  | some g =>
    simp only [Option.bind_eq_some_iff] at he
    obtain ⟨⟨c2, h⟩, h2, he⟩ := he
    have := Option.some.inj he
    simp only [Prod.mk.injEq] at this
    rw [← this.1, ← this.2]
    exact inv_processGroup I hp1 h2

theorem inv_processBits {delay : Nat → Int} {t : Int} {s : Nat} (bits : List Bool) {tr : List Trace}
    {c c' : Channel} {hs : List Handled} (hp : P tr c)
    (he : Channel.processBits env delay t s c bits = some (c', hs)) :
    P (tr ++ hs.map .handled) c' := by
  induction bits generalizing tr c hs with
  | nil =>
    have := Option.some.inj he
    simp only [Prod.mk.injEq] at this
    rw [← this.1, ← this.2]
    simpa using hp
  | cons b bits ih =>
    rw [Channel.processBits] at he
    simp only [Option.bind_eq_bind, Option.bind_eq_some_iff] at he
    obtain ⟨⟨c1, o⟩, h1, he⟩ := he
    have hp1 := inv_pushBit I hp h1
    cases o with
    | none => exact ih hp1 he
    | some g =>
      simp only [Option.bind_eq_some_iff] at he
      obtain ⟨⟨c2, h⟩, h2, ⟨c3, hs3⟩, h3, he⟩ := he
      have hp2 := inv_processGroup I hp1 h2
      have := Option.some.inj he
      simp only [Prod.mk.injEq] at this
      obtain ⟨rfl, rfl⟩ := this
      have hp3 := ih (I.quiet _ _ _ hp2 (quiet_mk c2 c2.blockStreams _ rfl)) h3
      simpa using hp3

theorem inv_flush {now : Nat → Int} (l : List Nat) {tr : List Trace}
    {c c' : Channel} {hs : List Handled} (hp : P tr c)
    (he : c.flushStreams env now l = some (c', hs)) :
    P (tr ++ hs.map .handled) c' := by
  induction l generalizing tr c hs with
  | nil =>
    have := Option.some.inj he
    simp only [Prod.mk.injEq] at this
    rw [← this.1, ← this.2]
    simpa using hp
  | cons i l ih =>
    rw [Channel.flushStreams] at he
    simp only [Option.bind_eq_bind, Option.bind_eq_some_iff] at he
    obtain ⟨st, -, he⟩ := he
    split at he
    · exact ih hp he
    · simp only [Option.bind_eq_some_iff] at he
      obtain ⟨⟨c2, h⟩, h2, ⟨c3, hs3⟩, h3, he⟩ := he
      have := Option.some.inj he
      simp only [Prod.mk.injEq] at this
      obtain ⟨rfl, rfl⟩ := this
      have hp3 := ih (inv_processGroup I hp h2) h3
      simpa using hp3

theorem inv_step {delay : Nat → Int} {tr trs : List Trace} {c c' : Channel} (e : ChannelEvent)
    (hp : P tr c) (he : c.step env delay e = some (c', trs)) : P (tr ++ trs) c' := by
  cases e with
  | bit now b s =>
    simp only [Channel.step, Option.map_eq_some_iff] at he
    obtain ⟨⟨c1, hs⟩, h1, he⟩ := he
    simp only [Prod.mk.injEq] at he
    rw [← he.1, ← he.2]
    exact inv_processBit I hp h1
  | bits t l s =>
    simp only [Channel.step, Option.map_eq_some_iff] at he
    obtain ⟨⟨c1, hs⟩, h1, he⟩ := he
    simp only [Prod.mk.injEq] at he
    rw [← he.1, ← he.2]
    exact inv_processBits I l hp h1
  | group now g s =>
    simp only [Channel.step, Option.map_eq_some_iff] at he
    obtain ⟨⟨c1, hs⟩, h1, he⟩ := he
    simp only [Prod.mk.injEq] at he
    rw [← he.1, ← he.2]
    exact inv_processGroup I hp h1
  | flush now =>
    simp only [Channel.step, Option.map_eq_some_iff] at he
    obtain ⟨⟨c1, hs⟩, h1, he⟩ := he
    simp only [Prod.mk.injEq] at he
    rw [← he.1, ← he.2]
    exact inv_flush I _ hp h1
  | resetPI =>
    simp only [Channel.step, Option.some.injEq, Prod.mk.injEq] at he
    rw [← he.1, ← he.2]
    exact I.reset tr c hp

/-- Whatever is kept by every action of a channel holds after every sequence of calls. -/
theorem inv_calls {delay : Nat → Int} (es : List ChannelEvent) {tr trs : List Trace} {c c' : Channel}
    (hp : P tr c) (he : Channel.run env delay c es = some (c', trs)) : P (tr ++ trs) c' := by
  induction es generalizing tr trs c with
  | nil =>
    have := Option.some.inj he
    simp only [Prod.mk.injEq] at this
    rw [← this.1, ← this.2]
    simpa using hp
  | cons e es ih =>
    rw [Channel.run] at he
    simp only [Option.bind_eq_bind, Option.bind_eq_some_iff] at he
    obtain ⟨⟨c1, t1⟩, h1, ⟨c2, t2⟩, h2, he⟩ := he
    have := Option.some.inj he
    simp only [Prod.mk.injEq] at this
    obtain ⟨rfl, rfl⟩ := this
    rw [← List.append_assoc]
    exact ih (inv_step I e hp h1) h2

end

/-! ### Totality -/

/-- The running average in good order. -/
structure RunningAverage.Good (r : RunningAverage) : Prop where
  len : r.history.length = 12
  ptr : r.ptr < 12

/-- A channel in good order. -/
structure Channel.Good (c : Channel) : Prop where
  station : c.station.Good
  streams : c.blockStreams.length = 4
  bler : c.blerAverage.Good

theorem push_good (r : RunningAverage) (v : Nat) (h : r.Good) : ∃ r', r.push v = some r' ∧ r'.Good := by
  have hl : r.ptr < r.history.length := by rw [h.len]; exact h.ptr
  unfold RunningAverage.push
  rw [List.getElem?_eq_getElem hl]
  refine ⟨_, rfl, ?_, ?_⟩
  · simp [h.len]
  · simp only [h.len]; exact Nat.mod_lt _ (by decide)

theorem addBler_good (c : Channel) (g : Group) (h : c.Good) :
    ∃ c' g', c.addBler g = some (c', g') ∧ c'.Good := by
  unfold Channel.addBler
  split
  · obtain ⟨r, hr, hg⟩ := push_good c.blerAverage g.getNumErrors h.bler
    rw [hr]
    exact ⟨_, _, rfl, h.station, h.streams, hg⟩
  · exact ⟨_, _, rfl, h⟩

theorem updatePI_good (c : Channel) (g : Group) (h : c.Good) : (c.updatePI g).Good := by
  unfold Channel.updatePI
  split
  · dsimp only
    split
    · exact ⟨good_withPI _ _ _, h.streams, h.bler⟩
    · exact ⟨h.station, h.streams, h.bler⟩
  · exact h

theorem output_good (env : Env) (hk : env.tmc.KeysOk) (c : Channel) (g : Group) (h : c.Good) :
    ∃ c' l, c.output env g = some (c', l) ∧ c'.Good := by
  unfold Channel.output
  split
  · exact ⟨_, _, rfl, h⟩
  · obtain ⟨st', line, hu, hg, -⟩ := updateAndPrint_parts env hk c.station g h.station
    rw [hu]
    exact ⟨_, _, rfl, hg, h.streams, h.bler⟩

theorem handleGroup_good (env : Env) (hk : env.tmc.KeysOk) (c : Channel) (g : Group) (s : Nat)
    (h : c.Good) : ∃ c' r, c.handleGroup env g s = some (c', r) ∧ c'.Good := by
  unfold Channel.handleGroup
  obtain ⟨c1, g1, h1, hg1⟩ := addBler_good c g h
  rw [h1]
  simp only [Option.bind_eq_bind, Option.bind_some]
  obtain ⟨c2, l, h2, hg2⟩ := output_good env hk (c1.updatePI (Channel.markStream g1 s))
    (Channel.markStream g1 s) (updatePI_good _ _ hg1)
  rw [h2]
  exact ⟨_, _, rfl, hg2⟩

theorem processGroup_good (env : Env) (hk : env.tmc.KeysOk) (c : Channel) (now : Int) (g : Group)
    (s : Nat) (h : c.Good) : ∃ c' r, c.processGroup env now g s = some (c', r) ∧ c'.Good := by
  unfold Channel.processGroup
  refine handleGroup_good env hk _ _ s ?_
  unfold Channel.stampGroup
  split
  · exact ⟨h.station, h.streams, h.bler⟩
  · exact h

theorem pushBit_good (c : Channel) (b : Bool) (s : Nat) (hs : s < 4) (h : c.Good) :
    ∃ c' o, c.pushBit b s = some (c', o) ∧ c'.Good := by
  unfold Channel.pushBit
  rw [List.getElem?_eq_getElem (by rw [h.streams]; exact hs)]
  exact ⟨_, _, rfl, h.station, by simp [h.streams], h.bler⟩

theorem processBits_good (env : Env) (hk : env.tmc.KeysOk) (delay : Nat → Int) (t : Int) (s : Nat)
    (hs : s < 4) (bits : List Bool) (c : Channel) (h : c.Good) :
    ∃ c' r, Channel.processBits env delay t s c bits = some (c', r) ∧ c'.Good := by
  induction bits generalizing c with
  | nil => exact ⟨_, _, rfl, h⟩
  | cons b bits ih =>
    rw [Channel.processBits]
    obtain ⟨c1, o, h1, hg1⟩ := pushBit_good c b s hs h
    rw [h1]
    simp only [Option.bind_eq_bind, Option.bind_some]
    cases o with
    | none => exact ih c1 hg1
    | some g =>
      dsimp only
      obtain ⟨c2, r, h2, hg2⟩ := processGroup_good env hk c1 0 (g.setTime
        (if t - delay bits.length < c1.lastRxTime then c1.lastRxTime else t - delay bits.length)) s hg1
      rw [h2]
      simp only [Option.bind_some]
      obtain ⟨c3, r3, h3, hg3⟩ := ih { c2 with lastRxTime := (if t - delay bits.length <
          c1.lastRxTime then c1.lastRxTime else t - delay bits.length) }
        ⟨hg2.station, hg2.streams, hg2.bler⟩
      rw [h3]
      exact ⟨_, _, rfl, hg3⟩

theorem flush_good (env : Env) (hk : env.tmc.KeysOk) (now : Nat → Int) (l : List Nat)
    (hl : ∀ i ∈ l, i < 4) (c : Channel) (h : c.Good) :
    ∃ c' r, c.flushStreams env now l = some (c', r) ∧ c'.Good := by
  induction l generalizing c with
  | nil => exact ⟨_, _, rfl, h⟩
  | cons i l ih =>
    rw [Channel.flushStreams, List.getElem?_eq_getElem (by rw [h.streams]; exact hl i (by simp))]
    simp only [Option.bind_eq_bind, Option.bind_some]
    have hl' : ∀ i ∈ l, i < 4 := fun i hi => hl i (List.mem_cons_of_mem _ hi)
    split
    · exact ih hl' c h
    · obtain ⟨c2, r, h2, hg2⟩ := processGroup_good env hk c (now i) _ i h
      rw [h2]
      simp only [Option.bind_some]
      obtain ⟨c3, r3, h3, hg3⟩ := ih hl' c2 hg2
      rw [h3]
      exact ⟨_, _, rfl, hg3⟩

/-- Calls with existing stream numbers. -/
def ChannelEvent.Valid : ChannelEvent → Prop
  | .bit _ _ s => s < 4
  | .bits _ _ s => s < 4
  | .group _ _ _ => True
  | .flush _ => True
  | .resetPI => True

theorem step_good (env : Env) (hk : env.tmc.KeysOk) (delay : Nat → Int) (c : Channel)
    (e : ChannelEvent) (hv : e.Valid) (h : c.Good) :
    ∃ c' tr, c.step env delay e = some (c', tr) ∧ c'.Good := by
  cases e with
  | bit now b s =>
    obtain ⟨c1, o, h1, hg1⟩ := pushBit_good c b s hv h
    simp only [Channel.step, Channel.processBit, h1, Option.bind_eq_bind, Option.bind_some]
    cases o with
    | none => exact ⟨_, _, rfl, hg1⟩
    | some g =>
      dsimp only
      obtain ⟨c2, r, h2, hg2⟩ := processGroup_good env hk c1 now g s hg1
      rw [h2]
      exact ⟨_, _, rfl, hg2⟩
  | bits t l s =>
    obtain ⟨c1, r, h1, hg1⟩ := processBits_good env hk delay t s hv l c h
    rw [Channel.step, h1]
    exact ⟨_, _, rfl, hg1⟩
  | group now g s =>
    obtain ⟨c1, r, h1, hg1⟩ := processGroup_good env hk c now g s h
    rw [Channel.step, h1]
    exact ⟨_, _, rfl, hg1⟩
  | flush now =>
    obtain ⟨c1, r, h1, hg1⟩ := flush_good env hk now [1, 2, 3] (by simp) c h
    rw [Channel.step, Channel.flush, h1]
    exact ⟨_, _, rfl, hg1⟩
  | resetPI => exact ⟨_, _, rfl, h.station, h.streams, h.bler⟩

theorem run_good (env : Env) (hk : env.tmc.KeysOk) (delay : Nat → Int) (es : List ChannelEvent)
    (hv : ∀ e ∈ es, e.Valid) (c : Channel) (h : c.Good) :
    ∃ c' tr, Channel.run env delay c es = some (c', tr) ∧ c'.Good := by
  induction es generalizing c with
  | nil => exact ⟨_, _, rfl, h⟩
  | cons e es ih =>
    rw [Channel.run]
    obtain ⟨c1, t1, h1, hg1⟩ := step_good env hk delay c e (hv e (by simp)) h
    rw [h1]
    simp only [Option.bind_eq_bind, Option.bind_some]
    obtain ⟨c2, t2, h2, hg2⟩ := ih (fun e he => hv e (List.mem_cons_of_mem _ he)) c1 hg1
    rw [h2]
    exact ⟨_, _, rfl, hg2⟩

theorem channel_new_good (o : Options) (w : Nat) : (Channel.new o w).Good :=
  ⟨good_unknown o w, by simp [Channel.new], by simp [Channel.new], by simp [Channel.new]⟩

end Redsea
