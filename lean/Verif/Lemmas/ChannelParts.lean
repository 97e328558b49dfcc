import Verif.Lemmas.ChannelId
import Verif.Lemmas.StreamDeliver

/-
The error rate, the times and the block streams of a channel.
-/

namespace Redsea

/-! ### What handling a group leaves alone -/

theorem updatePI_keeps (c : Channel) (g : Group) :
    (c.updatePI g).blerAverage = c.blerAverage ∧ (c.updatePI g).lastRxTime = c.lastRxTime ∧
    (c.updatePI g).blockStreams = c.blockStreams ∧ (c.updatePI g).options = c.options ∧
    (c.updatePI g).whichChannel = c.whichChannel := by
  unfold Channel.updatePI
  split
  · dsimp only
    split <;> exact ⟨rfl, rfl, rfl, rfl, rfl⟩
  · exact ⟨rfl, rfl, rfl, rfl, rfl⟩

theorem output_keeps {env : Env} {c c' : Channel} {g : Group} {l : Option Line}
    (h : c.output env g = some (c', l)) :
    c'.blerAverage = c.blerAverage ∧ c'.lastRxTime = c.lastRxTime ∧
    c'.blockStreams = c.blockStreams ∧ c'.options = c.options ∧ c'.whichChannel = c.whichChannel := by
  unfold Channel.output at h
  split at h
  · have := Option.some.inj h
    simp only [Prod.mk.injEq] at this
    rw [← this.1]
    exact ⟨rfl, rfl, rfl, rfl, rfl⟩
  · simp only [Option.bind_eq_bind, Option.bind_eq_some_iff] at h
    obtain ⟨r, -, h⟩ := h
    have := Option.some.inj h
    simp only [Prod.mk.injEq] at this
    rw [← this.1]
    exact ⟨rfl, rfl, rfl, rfl, rfl⟩

theorem markStream_keeps (g : Group) (s : Nat) :
    (Channel.markStream g s).time = g.time ∧ (Channel.markStream g s).bler = g.bler ∧
    (Channel.markStream g s).block1 = g.block1 ∧ (Channel.markStream g s).block2 = g.block2 ∧
    (Channel.markStream g s).block3 = g.block3 ∧ (Channel.markStream g s).block4 = g.block4 ∧
    (Channel.markStream g s).dataStream = s := by
  unfold Channel.markStream
  split <;> exact ⟨rfl, rfl, rfl, rfl, rfl, rfl, rfl⟩

/-- Everything but the station and the PI cache after a group was handled. -/
theorem handleGroup_keeps {env : Env} {c c' : Channel} {g : Group} {s : Nat} {h : Handled}
    (he : c.handleGroup env g s = some (c', h)) :
    h.group.time = g.time ∧ h.group.dataStream = s ∧
    h.group.block1 = g.block1 ∧ h.group.block2 = g.block2 ∧ h.group.block3 = g.block3 ∧
    h.group.block4 = g.block4 ∧ c'.lastRxTime = c.lastRxTime ∧ c'.blockStreams = c.blockStreams ∧
    c'.options = c.options ∧ c'.whichChannel = c.whichChannel ∧
    (c.options.bler = true → ∃ r, c.blerAverage.push g.getNumErrors = some r ∧ c'.blerAverage = r ∧
      h.group.bler = some r.sum.toNat) := by
  obtain ⟨c1, g1, h1, hg, hout⟩ := handleGroup_parts he
  obtain ⟨o1, o2, o3, o4, o5⟩ := output_keeps hout
  obtain ⟨u1, u2, u3, u4, u5⟩ := updatePI_keeps c1 h.group
  obtain ⟨m1, m2, m3, m4, m5, m6, m7⟩ := markStream_keeps g1 s
  rw [u1] at o1
  rw [u2] at o2
  rw [u3] at o3
  rw [u4] at o4
  rw [u5] at o5
  rw [o1, o2, o3, o4, o5, hg, m1, m2, m3, m4, m5, m6, m7]
  obtain ⟨b, r, e1, e2⟩ := addBler_group c g c1 g1 h1
  refine ⟨by rw [e1], rfl, by rw [e1], by rw [e1], by rw [e1], by rw [e1], by rw [e2], by rw [e2],
    by rw [e2], by rw [e2], ?_⟩
  intro hb
  unfold Channel.addBler at h1
  rw [if_pos hb] at h1
  simp only [Option.bind_eq_bind, Option.bind_eq_some_iff] at h1
  obtain ⟨r', hr, h1⟩ := h1
  have := Option.some.inj h1
  simp only [Prod.mk.injEq] at this
  refine ⟨r', hr, by rw [← this.1], by rw [← this.2]; rfl⟩

/-! ### The running average -/

/-- The values in the order in which they came, oldest first. -/
def RunningAverage.rot (r : RunningAverage) : List Nat := r.history.drop r.ptr ++ r.history.take r.ptr

/-- The last 12 entries of a log that starts with 12 zeros. -/
def blerWindow (log : List Nat) : List Nat := (List.replicate 12 0 ++ log).drop log.length

theorem blerWindow_push (log : List Nat) (x : Nat) :
    blerWindow (log ++ [x]) = (blerWindow log).tail ++ [x] := by
  unfold blerWindow
  rw [← List.append_assoc, List.length_append, List.tail_drop]
  simp only [List.length_singleton]
  rw [List.drop_append_of_le_length]
  simp

theorem blerWindow_sum (log : List Nat) :
    (blerWindow log).sum = (log.reverse.take 12).sum := by
  unfold blerWindow
  rw [List.take_reverse, List.sum_reverse, List.drop_append]
  simp only [List.length_replicate, List.drop_replicate, List.sum_append, List.sum_replicate_nat]
  simp

theorem sum_set (l : List Nat) (i v : Nat) (hi : i < l.length) :
    ((l.set i v).sum : Int) = (l.sum : Int) - (l[i] : Int) + v := by
  induction l generalizing i with
  | nil => simp at hi
  | cons x l ih =>
    cases i with
    | zero => simp; omega
    | succ i =>
      simp only [List.length_cons, Nat.add_lt_add_iff_right] at hi
      have := ih i hi
      simp only [List.set_cons_succ, List.sum_cons, List.getElem_cons_succ, Int.natCast_add]
      omega

/-- The running average holds the last 12 values. -/
structure RunningAverage.Holds (r : RunningAverage) (log : List Nat) : Prop where
  good : r.Good
  rot : r.rot = blerWindow log
  sum : r.sum = (r.history.sum : Int)

theorem holds_init : ({} : RunningAverage).Holds [] :=
  ⟨⟨rfl, by decide⟩, by decide, by decide⟩

theorem holds_push {r r' : RunningAverage} {log : List Nat} {v : Nat} (h : r.Holds log)
    (hp : r.push v = some r') : r'.Holds (log ++ [v]) := by
  obtain ⟨⟨h1, h2⟩, h3, h4⟩ := h
  have hlt : r.ptr < r.history.length := by omega
  unfold RunningAverage.push at hp
  rw [List.getElem?_eq_getElem hlt] at hp
  simp only [Option.bind_eq_bind, Option.bind_some] at hp
  have hp := Option.some.inj hp
  subst hp
  refine ⟨⟨by simp [h1], ?_⟩, ?_, ?_⟩
  · simp only [h1]; exact Nat.mod_lt _ (by decide)
  · rw [blerWindow_push, ← h3]
    have hd : r.history.drop r.ptr = r.history[r.ptr] :: r.history.drop (r.ptr + 1) :=
      List.drop_eq_getElem_cons hlt
    simp only [RunningAverage.rot, h1]
    rw [hd]
    simp only [List.cons_append, List.tail_cons]
    by_cases he : r.ptr + 1 = 12
    · have hm : (r.ptr + 1) % 12 = 0 := by omega
      rw [hm]
      have : r.history.drop (r.ptr + 1) = [] := by
        apply List.drop_eq_nil_of_le; omega
      rw [this]
      simp only [List.drop_zero, List.take_zero, List.append_nil, List.nil_append]
      rw [List.set_eq_take_append_cons_drop]
      simp only [hlt, if_true]
      rw [this]
    · have hm : (r.ptr + 1) % 12 = r.ptr + 1 := by omega
      rw [hm, List.drop_set_of_lt (by omega), List.append_assoc]
      congr 1
      rw [List.take_succ_eq_append_getElem (by simp; omega)]
      rw [List.take_set_of_le (by omega)]
      simp
  · simp only
    rw [sum_set r.history r.ptr v hlt, h4]

theorem holds_sum {r : RunningAverage} {log : List Nat} (h : r.Holds log) :
    r.sum.toNat = (log.reverse.take 12).sum := by
  rw [← blerWindow_sum, ← h.rot, h.sum]
  unfold RunningAverage.rot
  rw [List.sum_append, Nat.add_comm, ← List.sum_append, List.take_append_drop]
  simp

theorem wrongBlocks_eq (g : Group) : wrongBlocks g = g.getNumErrors := by
  unfold wrongBlocks Group.getNumErrors Group.blockErr
  cases h1 : (g.block1.hadErrors || !g.block1.isReceived) <;>
    cases h2 : (g.block2.hadErrors || !g.block2.isReceived) <;>
    cases h3 : (g.block3.hadErrors || !g.block3.isReceived) <;>
    cases h4 : (g.block4.hadErrors || !g.block4.isReceived) <;>
    simp only [List.filter, h1, h2, h3, h4] <;> rfl

/-- The running average of a channel and its history. -/
theorem blerInv {env : Env} (o : Options) (hb : o.bler = true) : ChannelInv env fun tr c =>
    c.options = o ∧ c.blerAverage.Holds ((groupsOf tr).map wrongBlocks) := by
  refine ⟨?_, ?_, ?_⟩
  · intro tr c c' i q
    obtain ⟨q, -⟩ := q
    rw [q]; exact i
  · intro tr c g s c' h i he
    obtain ⟨-, -, b1, b2, b3, b4, -, -, ho, -, hbl⟩ := handleGroup_keeps he
    refine ⟨ho.trans i.1, ?_⟩
    obtain ⟨r, hr, hc, -⟩ := hbl (by rw [i.1]; exact hb)
    rw [hc, groupsOf_append, List.map_append]
    have : (groupsOf [.handled h]).map wrongBlocks = [g.getNumErrors] := by
      simp only [groupsOf, List.filterMap_cons, List.filterMap_nil, Trace.group?, List.map_cons,
        List.map_nil, wrongBlocks_eq, Group.getNumErrors, b1, b2, b3, b4]
    rw [this]
    exact holds_push i.2 hr
  · intro tr c i
    refine ⟨i.1, ?_⟩
    rw [groupsOf_append, show groupsOf [Trace.reset] = [] from rfl, List.append_nil]
    exact i.2

/-! ### The block streams -/

/-- The bits that a call feeds into stream `i`. -/
def ChannelEvent.bitsFor (i : Nat) : ChannelEvent → List Bool
  | .bit _ b s => if s = i then [b] else []
  | .bits _ l s => if s = i then l else []
  | .group _ _ _ => []
  | .flush _ => []
  | .resetPI => []

/-- The bits that a sequence of calls feeds into stream `i`. -/
def fedBits (i : Nat) (es : List ChannelEvent) : List Bool := es.flatMap (ChannelEvent.bitsFor i)

theorem processGroup_streams {env : Env} {c c' : Channel} {now : Int} {g : Group} {s : Nat}
    {h : Handled} (he : c.processGroup env now g s = some (c', h)) :
    c'.blockStreams = c.blockStreams ∧ c'.options = c.options := by
  unfold Channel.processGroup at he
  obtain ⟨-, -, -, -, -, -, -, h1, h2, -⟩ := handleGroup_keeps he
  rw [h1, h2]
  unfold Channel.stampGroup
  split <;> exact ⟨rfl, rfl⟩

/-- The state of a stream after more bits. -/
def Fed (i : Nat) (bits : List Bool) (c c' : Channel) : Prop :=
  c'.options = c.options ∧ ∀ s, c.blockStreams[i]? = some s →
    c'.blockStreams[i]? = some (BlockStream.run c.options.useFec s bits).1

theorem fed_nil {i : Nat} {c c' : Channel} (h1 : c'.options = c.options)
    (h2 : c'.blockStreams = c.blockStreams) : Fed i [] c c' :=
  ⟨h1, fun s hs => by rw [h2, hs]; rfl⟩

theorem fed_trans {i : Nat} {a b : List Bool} {c c' c'' : Channel} (h1 : Fed i a c c')
    (h2 : Fed i b c' c'') : Fed i (a ++ b) c c'' := by
  refine ⟨h2.1.trans h1.1, fun s hs => ?_⟩
  rw [run_append, h2.2 _ (h1.2 s hs), h1.1]

theorem pushBit_fed {c c' : Channel} {b : Bool} {st : Nat} {o : Option Group}
    (he : c.pushBit b st = some (c', o)) (i : Nat) : Fed i (if st = i then [b] else []) c c' := by
  unfold Channel.pushBit at he
  simp only [Option.bind_eq_bind, Option.bind_eq_some_iff] at he
  obtain ⟨s0, h0, he⟩ := he
  have := Option.some.inj he
  simp only [Prod.mk.injEq] at this
  obtain ⟨rfl, -⟩ := this
  refine ⟨rfl, fun s hs => ?_⟩
  by_cases hi : st = i
  · subst hi
    rw [h0] at hs
    have := Option.some.inj hs
    subst this
    have hlt : st < c.blockStreams.length := by
      rcases Nat.lt_or_ge st c.blockStreams.length with h | h
      · exact h
      · rw [List.getElem?_eq_none h] at h0; cases h0
    rw [if_pos rfl]
    simp only [List.getElem?_set_self hlt, run_cons, run_nil]
  · rw [if_neg hi, run_nil]
    simp only [List.getElem?_set_ne hi, hs]

theorem processBits_fed {env : Env} {delay : Nat → Int} {t : Int} {st : Nat} (bits : List Bool)
    {c c' : Channel} {hs : List Handled}
    (he : Channel.processBits env delay t st c bits = some (c', hs)) (i : Nat) :
    Fed i (if st = i then bits else []) c c' := by
  induction bits generalizing c hs with
  | nil =>
    have := Option.some.inj he
    simp only [Prod.mk.injEq] at this
    obtain ⟨rfl, -⟩ := this
    rw [ite_self]
    exact fed_nil rfl rfl
  | cons b bits ih =>
    rw [Channel.processBits] at he
    simp only [Option.bind_eq_bind, Option.bind_eq_some_iff] at he
    obtain ⟨⟨c1, o⟩, h1, he⟩ := he
    have f1 := pushBit_fed h1 i
    have key : ∀ c'', Fed i (if st = i then bits else []) c1 c'' →
        Fed i (if st = i then b :: bits else []) c c'' := by
      intro c'' hf
      have := fed_trans f1 hf
      by_cases hi : st = i
      · simpa [hi] using this
      · simpa [hi] using this
    cases o with
    | none => exact key _ (ih he)
    | some g =>
      simp only [Option.bind_eq_some_iff] at he
      obtain ⟨⟨c2, h⟩, h2, ⟨c3, hs3⟩, h3, he⟩ := he
      have := Option.some.inj he
      simp only [Prod.mk.injEq] at this
      obtain ⟨rfl, -⟩ := this
      obtain ⟨k1, k2⟩ := processGroup_streams h2
      refine key _ ?_
      have := ih h3
      refine ⟨this.1.trans k2, fun s hs => ?_⟩
      have h := this.2 s (by simp only; rw [k1]; exact hs)
      simp only [k2] at h
      exact h

theorem flush_streams {env : Env} {now : Nat → Int} (l : List Nat) {c c' : Channel}
    {hs : List Handled} (he : c.flushStreams env now l = some (c', hs)) :
    c'.blockStreams = c.blockStreams ∧ c'.options = c.options := by
  induction l generalizing c hs with
  | nil =>
    have := Option.some.inj he
    simp only [Prod.mk.injEq] at this
    rw [← this.1]; exact ⟨rfl, rfl⟩
  | cons i l ih =>
    rw [Channel.flushStreams] at he
    simp only [Option.bind_eq_bind, Option.bind_eq_some_iff] at he
    obtain ⟨st, -, he⟩ := he
    split at he
    · exact ih he
    · simp only [Option.bind_eq_some_iff] at he
      obtain ⟨⟨c2, h⟩, h2, ⟨c3, hs3⟩, h3, he⟩ := he
      have := Option.some.inj he
      simp only [Prod.mk.injEq] at this
      obtain ⟨rfl, -⟩ := this
      obtain ⟨k1, k2⟩ := processGroup_streams h2
      obtain ⟨j1, j2⟩ := ih h3
      exact ⟨j1.trans k1, j2.trans k2⟩

theorem step_fed {env : Env} {delay : Nat → Int} {c c' : Channel} {tr : List Trace}
    (e : ChannelEvent) (he : c.step env delay e = some (c', tr)) (i : Nat) :
    Fed i (e.bitsFor i) c c' := by
  cases e with
  | bit now b s =>
    simp only [Channel.step, Option.map_eq_some_iff] at he
    obtain ⟨⟨c1, hs⟩, h1, he⟩ := he
    simp only [Prod.mk.injEq] at he
    obtain ⟨rfl, -⟩ := he
    unfold Channel.processBit at h1
    simp only [Option.bind_eq_bind, Option.bind_eq_some_iff] at h1
    obtain ⟨⟨c2, o⟩, h2, h1⟩ := h1
    have f := pushBit_fed h2 i
    cases o with
    | none =>
      have := Option.some.inj h1
      simp only [Prod.mk.injEq] at this
      obtain ⟨rfl, -⟩ := this
      exact f
    | some g =>
      simp only [Option.bind_eq_some_iff] at h1
      obtain ⟨⟨c3, h⟩, h3, h1⟩ := h1
      have := Option.some.inj h1
      simp only [Prod.mk.injEq] at this
      obtain ⟨rfl, -⟩ := this
      obtain ⟨k1, k2⟩ := processGroup_streams h3
      have := fed_trans f (fed_nil (i := i) k2 k1)
      rwa [List.append_nil] at this
  | bits t l s =>
    simp only [Channel.step, Option.map_eq_some_iff] at he
    obtain ⟨⟨c1, hs⟩, h1, he⟩ := he
    simp only [Prod.mk.injEq] at he
    obtain ⟨rfl, -⟩ := he
    exact processBits_fed l h1 i
  | group now g s =>
    simp only [Channel.step, Option.map_eq_some_iff] at he
    obtain ⟨⟨c1, hs⟩, h1, he⟩ := he
    simp only [Prod.mk.injEq] at he
    obtain ⟨rfl, -⟩ := he
    obtain ⟨k1, k2⟩ := processGroup_streams h1
    exact fed_nil k2 k1
  | flush now =>
    simp only [Channel.step, Option.map_eq_some_iff] at he
    obtain ⟨⟨c1, hs⟩, h1, he⟩ := he
    simp only [Prod.mk.injEq] at he
    obtain ⟨rfl, -⟩ := he
    obtain ⟨k1, k2⟩ := flush_streams _ h1
    exact fed_nil k2 k1
  | resetPI =>
    simp only [Channel.step, Option.some.injEq, Prod.mk.injEq] at he
    obtain ⟨rfl, -⟩ := he
    exact fed_nil rfl rfl

theorem run_fed {env : Env} {delay : Nat → Int} (es : List ChannelEvent) {c c' : Channel}
    {tr : List Trace} (he : Channel.run env delay c es = some (c', tr)) (i : Nat) :
    Fed i (fedBits i es) c c' := by
  induction es generalizing c tr with
  | nil =>
    have := Option.some.inj he
    simp only [Prod.mk.injEq] at this
    obtain ⟨rfl, -⟩ := this
    exact fed_nil rfl rfl
  | cons e es ih =>
    rw [Channel.run] at he
    simp only [Option.bind_eq_bind, Option.bind_eq_some_iff] at he
    obtain ⟨⟨c1, t1⟩, h1, ⟨c2, t2⟩, h2, he⟩ := he
    have := Option.some.inj he
    simp only [Prod.mk.injEq] at this
    obtain ⟨rfl, -⟩ := this
    exact fed_trans (step_fed e h1 i) (ih h2)

/-- The streams of a channel after a sequence of calls. -/
theorem run_streams {env : Env} {delay : Nat → Int} {o : Options} {w : Nat} (es : List ChannelEvent)
    {c' : Channel} {tr : List Trace}
    (he : Channel.run env delay (Channel.new o w) es = some (c', tr)) (i : Nat) (hi : i < 4) :
    c'.blockStreams[i]? = some (stateAfter o.useFec (fedBits i es)) := by
  refine (run_fed es he i).2 {} ?_
  simp only [Channel.new]
  rw [List.getElem?_replicate, if_pos hi]

/-- What a flush hands over. -/
theorem flush_groups {env : Env} {now : Nat → Int} (l : List Nat) {c c' : Channel}
    {hs : List Handled} (he : c.flushStreams env now l = some (c', hs)) :
    hs.map (fun h => ([h.group.block1, h.group.block2, h.group.block3, h.group.block4],
        h.group.dataStream)) =
      l.filterMap fun i => (c.blockStreams[i]?).bind fun s =>
        if s.currentGroup.hasNothing then none else
          some ([s.currentGroup.block1, s.currentGroup.block2, s.currentGroup.block3,
            s.currentGroup.block4], i) := by
  induction l generalizing c hs with
  | nil =>
    have := Option.some.inj he
    simp only [Prod.mk.injEq] at this
    rw [← this.2]; rfl
  | cons i l ih =>
    rw [Channel.flushStreams] at he
    simp only [Option.bind_eq_bind, Option.bind_eq_some_iff] at he
    obtain ⟨st, hst, he⟩ := he
    rw [List.filterMap_cons, hst]
    simp only [Option.bind_some]
    rw [← isEmpty_eq]
    split at he
    · rename_i hemp
      rw [BlockStream.flushCurrentGroup] at hemp
      simp only [hemp, if_true]
      exact ih he
    · rename_i hemp
      rw [BlockStream.flushCurrentGroup] at hemp
      simp only [Option.bind_eq_some_iff] at he
      obtain ⟨⟨c2, h⟩, h2, ⟨c3, hs3⟩, h3, he⟩ := he
      have := Option.some.inj he
      simp only [Prod.mk.injEq] at this
      obtain ⟨rfl, rfl⟩ := this
      obtain ⟨k1, -⟩ := processGroup_streams h2
      have hrec := ih h3
      rw [k1] at hrec
      simp only [hemp, if_false, List.map_cons, hrec, Bool.false_eq_true]
      congr 1
      unfold Channel.processGroup at h2
      obtain ⟨-, e1, e2, e3, e4, e5, -⟩ := handleGroup_keeps h2
      rw [e1, e2, e3, e4, e5]
      unfold Channel.stampGroup
      split <;> rfl

/-! ### Times -/

/-- The receive times of a list of groups. -/
def rxTimes (tr : List Trace) : List Int := (groupsOf tr).map fun g => g.time.getD 0

theorem rxTimes_append (a b : List Trace) : rxTimes (a ++ b) = rxTimes a ++ rxTimes b := by
  simp [rxTimes, groupsOf_append]

/-- The times so far are in order and not after the time kept by the channel, which is not after
`r`; all groups have a time. -/
structure TimeInv (r : Int) (tr : List Trace) (c : Channel) : Prop where
  sorted : (rxTimes tr).Pairwise (· ≤ ·)
  before : ∀ t ∈ rxTimes tr, t ≤ c.lastRxTime
  bound : c.lastRxTime ≤ r
  timed : ∀ g ∈ groupsOf tr, g.time.isSome = true

theorem timeInv_snoc {r : Int} {tr : List Trace} {c c' : Channel} {h : Handled} {t : Int}
    (i : TimeInv r tr c) (ht : h.group.time = some t) (h1 : c.lastRxTime ≤ t)
    (h2 : t ≤ c'.lastRxTime) {r' : Int} (h3 : c'.lastRxTime ≤ r') :
    TimeInv r' (tr ++ [.handled h]) c' := by
  have e : rxTimes (tr ++ [.handled h]) = rxTimes tr ++ [t] := by
    rw [rxTimes_append]
    simp [rxTimes, groupsOf, Trace.group?, ht]
  refine ⟨?_, ?_, h3, ?_⟩
  · rw [e, List.pairwise_append]
    refine ⟨i.sorted, by simp, ?_⟩
    intro a ha b hb
    rw [List.mem_singleton] at hb
    have := i.before a ha
    omega
  · rw [e]
    intro a ha
    rcases List.mem_append.1 ha with ha | ha
    · have := i.before a ha
      omega
    · rw [List.mem_singleton] at ha
      omega
  · rw [groupsOf_append]
    intro g hg
    rcases List.mem_append.1 hg with hg | hg
    · exact i.timed g hg
    · simp only [groupsOf, List.filterMap_cons, List.filterMap_nil, Trace.group?,
        List.mem_singleton] at hg
      rw [hg, ht]; rfl

theorem timeInv_same {r r' : Int} {tr : List Trace} {c c' : Channel} (i : TimeInv r tr c)
    (h : c'.lastRxTime = c.lastRxTime) (hr : r ≤ r') : TimeInv r' tr c' :=
  ⟨i.sorted, by rw [h]; exact i.before, by rw [h]; exact Int.le_trans i.bound hr, i.timed⟩

theorem pushBit_time {c c' : Channel} {b : Bool} {st : Nat} {o : Option Group}
    (he : c.pushBit b st = some (c', o)) :
    c'.lastRxTime = c.lastRxTime ∧ c'.options = c.options := by
  unfold Channel.pushBit at he
  simp only [Option.bind_eq_bind, Option.bind_eq_some_iff] at he
  obtain ⟨s0, h0, he⟩ := he
  have := Option.some.inj he
  simp only [Prod.mk.injEq] at this
  obtain ⟨rfl, -⟩ := this
  exact ⟨rfl, rfl⟩

/-- The time of a group that has none yet. -/
theorem processGroup_now {env : Env} {c c' : Channel} {now : Int} {g : Group} {s : Nat}
    {h : Handled} (ho : c.options.timestamp = true) (hg : g.time = none)
    (he : c.processGroup env now g s = some (c', h)) :
    h.group.time = some (max now c.lastRxTime) ∧ c'.lastRxTime = now ∧ c'.options = c.options := by
  unfold Channel.processGroup at he
  obtain ⟨h1, -, -, -, -, -, h2, -, h3, -⟩ := handleGroup_keeps he
  rw [h1, h2, h3]
  unfold Channel.stampGroup
  rw [ho, hg]
  simp only [Option.isNone_none, Bool.and_self, if_true, Group.setTime, and_self, and_true,
    Option.some.injEq]
  split <;> omega

/-- A group that has a time keeps it. -/
theorem processGroup_own {env : Env} {c c' : Channel} {now t : Int} {g : Group} {s : Nat}
    {h : Handled} (hg : g.time = some t) (he : c.processGroup env now g s = some (c', h)) :
    h.group.time = some t ∧ c'.lastRxTime = c.lastRxTime ∧ c'.options = c.options := by
  unfold Channel.processGroup at he
  obtain ⟨h1, -, -, -, -, -, h2, -, h3, -⟩ := handleGroup_keeps he
  rw [h1, h2, h3]
  unfold Channel.stampGroup
  rw [hg]
  simp only [Option.isNone_some, Bool.and_false, Bool.false_eq_true, if_false]
  exact ⟨hg, trivial, trivial⟩

/-- Times of the groups in a buffer of bits. `r` bounds the earlier times. -/
theorem processBits_times {env : Env} {delay : Nat → Int} (hd : ∀ n, 0 ≤ delay n) {t : Int} {st : Nat}
    (bits : List Bool) {c c' : Channel} {hs : List Handled} {tr : List Trace} {r : Int}
    (i : TimeInv r tr c) (hr : t ≤ r)
    (he : Channel.processBits env delay t st c bits = some (c', hs)) :
    TimeInv r (tr ++ hs.map .handled) c' ∧ c'.options = c.options := by
  induction bits generalizing c hs tr with
  | nil =>
    have := Option.some.inj he
    simp only [Prod.mk.injEq] at this
    obtain ⟨rfl, rfl⟩ := this
    simpa using i
  | cons b bits ih =>
    rw [Channel.processBits] at he
    simp only [Option.bind_eq_bind, Option.bind_eq_some_iff] at he
    obtain ⟨⟨c1, o⟩, h1, he⟩ := he
    obtain ⟨e1, e1'⟩ := pushBit_time h1
    have i1 : TimeInv r tr c1 := timeInv_same i e1 (Int.le_refl _)
    cases o with
    | none =>
      obtain ⟨h, h'⟩ := ih i1 he
      exact ⟨h, h'.trans e1'⟩
    | some g =>
      simp only [Option.bind_eq_some_iff] at he
      obtain ⟨⟨c2, h⟩, h2, ⟨c3, hs3⟩, h3, he⟩ := he
      have := Option.some.inj he
      simp only [Prod.mk.injEq] at this
      obtain ⟨rfl, rfl⟩ := this
      have hdn := hd bits.length
      generalize hT : (if t - delay bits.length < c1.lastRxTime then c1.lastRxTime
        else t - delay bits.length) = T at *
      have hT1 : c1.lastRxTime ≤ T := by rw [← hT]; split <;> omega
      have hT2 : T ≤ r := by
        have := i1.bound
        rw [← hT]; split <;> omega
      obtain ⟨k1, k2, k3⟩ := processGroup_own (t := T) rfl h2
      have := ih (timeInv_snoc (c' := { c2 with lastRxTime := T }) i1 k1 hT1 (Int.le_refl _) hT2) h3
      refine ⟨by simpa using this.1, ?_⟩
      rw [this.2]
      exact k3.trans e1'

/-- The times when a call reads the clock, in order. -/
def ChannelEvent.clock : ChannelEvent → List Int
  | .bit now _ _ => [now]
  | .bits t _ _ => [t]
  | .group now _ _ => [now]
  | .flush now => [now 1, now 2, now 3]
  | .resetPI => []

/-- A group given to the channel has no time of its own. -/
def ChannelEvent.untimed : ChannelEvent → Prop
  | .group _ g _ => g.time = none
  | _ => True

/-- The groups in a block stream have no time yet. -/
def BlockStream.Untimed (s : BlockStream) : Prop :=
  s.currentGroup.time = none ∧ s.readyGroup.time = none

theorem setBlock_time (g : Group) (n : BlockNum) (b : Block) : (g.setBlock n b).time = g.time := by
  have h1 : (g.putBlock n b).time = g.time := by cases n <;> rfl
  have h2 : ((g.putBlock n b).recogniseType n b).time = g.time := by
    rw [← h1]
    unfold Group.recogniseType
    cases n
    · rfl
    · rfl
    · rfl
    · dsimp only
      split
      · split <;> rfl
      · rfl
  unfold Group.setBlock
  dsimp only
  split
  · exact h1
  · split
    · exact h2
    · exact h2

theorem pushBit_untimed (fec : Bool) (s : BlockStream) (bit : Bool) (h : s.Untimed) :
    (s.pushBit fec bit).Untimed := by
  have hacq : ∀ (s : BlockStream) (b : Block), s.Untimed → (s.acquireSync b).Untimed := by
    intro s b h
    unfold BlockStream.acquireSync
    split
    · exact h
    · dsimp only
      split
      · split
        · exact ⟨rfl, h.2⟩
        · exact h
      · exact h
  have hstore : ∀ (s : BlockStream) (b : Block), s.Untimed → (s.storeBlock b).Untimed := by
    intro s b h
    unfold BlockStream.storeBlock
    split
    · exact ⟨(setBlock_time _ _ _).trans h.1, h.2⟩
    · exact h
  have hadv : ∀ s : BlockStream, s.Untimed → s.advance.Untimed := by
    intro s h
    unfold BlockStream.advance
    dsimp only
    split
    · exact ⟨rfl, h.1⟩
    · exact h
  have hproc : ∀ (s : BlockStream) (b : Block), s.Untimed → (s.processInSync fec b).Untimed := by
    intro s b h
    unfold BlockStream.processInSync
    dsimp only
    generalize (if (b.offset != BlockStream.adjustExpected s.expectedOffset b.offset) = true then 1
      else 0) = x
    split
    · exact h
    · exact hadv _ (hstore _ _ h)
  have hfind : ∀ s : BlockStream, s.Untimed → (s.findBlockInInputRegister fec).Untimed := by
    intro s h
    unfold BlockStream.findBlockInInputRegister
    dsimp only
    split
    · exact hproc _ _ (hacq _ _ h)
    · exact hacq _ _ h
  unfold BlockStream.pushBit
  dsimp only
  split
  · exact hfind _ h
  · exact h

theorem step_untimed (fec : Bool) (s : BlockStream) (bit : Bool) (h : s.Untimed) :
    (s.step fec bit).1.Untimed ∧ ∀ g, (s.step fec bit).2 = some g → g.time = none := by
  have hp := pushBit_untimed fec s bit h
  unfold BlockStream.step BlockStream.popGroup
  dsimp only
  split
  · refine ⟨hp, ?_⟩
    intro g hg
    rw [← Option.some.inj hg]
    exact hp.2
  · exact ⟨hp, by simp⟩

/-- No block stream of the channel holds a group with a time. -/
def Channel.Untimed (c : Channel) : Prop := ∀ s ∈ c.blockStreams, s.Untimed

theorem pushBit_channel_untimed {c c' : Channel} {b : Bool} {st : Nat} {o : Option Group}
    (hu : c.Untimed) (he : c.pushBit b st = some (c', o)) :
    c'.Untimed ∧ ∀ g, o = some g → g.time = none := by
  unfold Channel.pushBit at he
  simp only [Option.bind_eq_bind, Option.bind_eq_some_iff] at he
  obtain ⟨s0, h0, he⟩ := he
  have := Option.some.inj he
  simp only [Prod.mk.injEq] at this
  obtain ⟨rfl, rfl⟩ := this
  have hs := step_untimed c.options.useFec s0 b (hu s0 (List.mem_of_getElem? h0))
  refine ⟨?_, hs.2⟩
  intro s hmem
  rcases List.mem_or_eq_of_mem_set hmem with h | h
  · exact hu s h
  · rw [h]; exact hs.1

theorem untimed_of_streams {c c' : Channel} (hu : c.Untimed) (h : c'.blockStreams = c.blockStreams) :
    c'.Untimed := by
  intro s hs
  rw [h] at hs
  exact hu s hs

theorem processBits_untimed {env : Env} {delay : Nat → Int} {t : Int} {st : Nat} (bits : List Bool)
    {c c' : Channel} {hs : List Handled} (hu : c.Untimed)
    (he : Channel.processBits env delay t st c bits = some (c', hs)) : c'.Untimed := by
  induction bits generalizing c hs with
  | nil =>
    have := Option.some.inj he
    simp only [Prod.mk.injEq] at this
    obtain ⟨rfl, -⟩ := this
    exact hu
  | cons b bits ih =>
    rw [Channel.processBits] at he
    simp only [Option.bind_eq_bind, Option.bind_eq_some_iff] at he
    obtain ⟨⟨c1, o⟩, h1, he⟩ := he
    have hu1 := (pushBit_channel_untimed hu h1).1
    cases o with
    | none => exact ih hu1 he
    | some g =>
      simp only [Option.bind_eq_some_iff] at he
      obtain ⟨⟨c2, h⟩, h2, ⟨c3, hs3⟩, h3, he⟩ := he
      have := Option.some.inj he
      simp only [Prod.mk.injEq] at this
      obtain ⟨rfl, -⟩ := this
      refine ih ?_ h3
      exact untimed_of_streams hu1 (processGroup_streams h2).1

/-- The last of some readings of the clock. -/
def lastClock : Int → List Int → Int
  | r, [] => r
  | _, x :: l => lastClock x l

theorem lastClock_mem (r : Int) (l : List Int) : lastClock r l ∈ r :: l := by
  induction l generalizing r with
  | nil => simp [lastClock]
  | cons x l ih => exact List.mem_cons_of_mem _ (ih x)

theorem timeInv_reset {r : Int} {tr : List Trace} {c : Channel} (i : TimeInv r tr c) :
    TimeInv r (tr ++ [.reset]) c.resetPI := by
  have h1 : groupsOf (tr ++ [.reset]) = groupsOf tr := by
    rw [groupsOf_append, show groupsOf [Trace.reset] = [] from rfl, List.append_nil]
  have h2 : rxTimes (tr ++ [.reset]) = rxTimes tr := by rw [rxTimes, h1, rxTimes]
  exact ⟨by rw [h2]; exact i.sorted, by rw [h2]; exact i.before, i.bound, by rw [h1]; exact i.timed⟩

theorem flush_times {env : Env} {now : Nat → Int} (l : List Nat) {c c' : Channel}
    {hs : List Handled} {tr : List Trace} {r : Int} (ho : c.options.timestamp = true)
    (hu : c.Untimed) (i : TimeInv r tr c) (hsort : (r :: l.map now).Pairwise (· ≤ ·))
    (he : c.flushStreams env now l = some (c', hs)) :
    TimeInv (lastClock r (l.map now)) (tr ++ hs.map .handled) c' := by
  induction l generalizing c hs tr r with
  | nil =>
    have := Option.some.inj he
    simp only [Prod.mk.injEq] at this
    obtain ⟨rfl, rfl⟩ := this
    simpa [lastClock] using i
  | cons k l ih =>
    rw [Channel.flushStreams] at he
    simp only [Option.bind_eq_bind, Option.bind_eq_some_iff] at he
    obtain ⟨st, hst, he⟩ := he
    rw [List.map_cons, List.pairwise_cons] at hsort
    have hrk : r ≤ now k := hsort.1 _ (by simp)
    rw [List.map_cons, lastClock]
    split at he
    · exact ih ho hu (timeInv_same i rfl hrk) hsort.2 he
    · simp only [Option.bind_eq_some_iff] at he
      obtain ⟨⟨c2, h⟩, h2, ⟨c3, hs3⟩, h3, he⟩ := he
      have := Option.some.inj he
      simp only [Prod.mk.injEq] at this
      obtain ⟨rfl, rfl⟩ := this
      obtain ⟨k1, k2, k3⟩ := processGroup_now ho (hu st (List.mem_of_getElem? hst)).1 h2
      have hb := i.bound
      have i2 : TimeInv (now k) (tr ++ [.handled h]) c2 :=
        timeInv_snoc i k1 (by omega) (by rw [k2]; omega) (by rw [k2]; omega)
      have := ih (c := c2) (by rw [k3]; exact ho) (untimed_of_streams hu (processGroup_streams h2).1)
        i2 hsort.2 h3
      simpa using this

/-- One call, with a clock that does not go backwards. -/
theorem step_times {env : Env} {delay : Nat → Int} (hd : ∀ n, 0 ≤ delay n) {c c' : Channel}
    {tr trs : List Trace} {r : Int} (ho : c.options.timestamp = true) (hu : c.Untimed)
    (i : TimeInv r tr c) (e : ChannelEvent) (hun : e.untimed)
    (hsort : (r :: e.clock).Pairwise (· ≤ ·)) (he : c.step env delay e = some (c', trs)) :
    TimeInv (lastClock r e.clock) (tr ++ trs) c' ∧ c'.options.timestamp = true ∧ c'.Untimed := by
  have hopt : c'.options.timestamp = true := by
    rw [(step_fed e he 0).1]; exact ho
  cases e with
  | bit now b s =>
    simp only [Channel.step, Option.map_eq_some_iff] at he
    obtain ⟨⟨c1, hs⟩, h1, he⟩ := he
    simp only [Prod.mk.injEq] at he
    obtain ⟨rfl, rfl⟩ := he
    simp only [ChannelEvent.clock, List.pairwise_cons, List.mem_singleton, forall_eq] at hsort
    have hrn := hsort.1
    simp only [ChannelEvent.clock, lastClock]
    unfold Channel.processBit at h1
    simp only [Option.bind_eq_bind, Option.bind_eq_some_iff] at h1
    obtain ⟨⟨c2, o⟩, h2, h1⟩ := h1
    obtain ⟨e1, e2⟩ := pushBit_time h2
    obtain ⟨hu2, hg2⟩ := pushBit_channel_untimed hu h2
    cases o with
    | none =>
      have := Option.some.inj h1
      simp only [Prod.mk.injEq] at this
      obtain ⟨rfl, rfl⟩ := this
      exact ⟨by simpa using timeInv_same i e1 hrn, hopt, hu2⟩
    | some g =>
      simp only [Option.bind_eq_some_iff] at h1
      obtain ⟨⟨c3, h⟩, h3, h1⟩ := h1
      have := Option.some.inj h1
      simp only [Prod.mk.injEq] at this
      obtain ⟨rfl, rfl⟩ := this
      obtain ⟨k1, k2, k3⟩ := processGroup_now (by rw [e2]; exact ho) (hg2 g rfl) h3
      have hb := i.bound
      refine ⟨?_, hopt, untimed_of_streams hu2 (processGroup_streams h3).1⟩
      exact timeInv_snoc i k1 (by rw [e1]; omega) (by rw [k2, e1]; omega) (by rw [k2]; omega)
  | bits t l s =>
    simp only [Channel.step, Option.map_eq_some_iff] at he
    obtain ⟨⟨c1, hs⟩, h1, he⟩ := he
    simp only [Prod.mk.injEq] at he
    obtain ⟨rfl, rfl⟩ := he
    simp only [ChannelEvent.clock, List.pairwise_cons, List.mem_singleton, forall_eq] at hsort
    simp only [ChannelEvent.clock, lastClock]
    exact ⟨(processBits_times hd l (timeInv_same i rfl hsort.1) (Int.le_refl _) h1).1, hopt,
      processBits_untimed l hu h1⟩
  | group now g s =>
    simp only [Channel.step, Option.map_eq_some_iff] at he
    obtain ⟨⟨c1, hs⟩, h1, he⟩ := he
    simp only [Prod.mk.injEq] at he
    obtain ⟨rfl, rfl⟩ := he
    simp only [ChannelEvent.clock, List.pairwise_cons, List.mem_singleton, forall_eq] at hsort
    have hrn := hsort.1
    simp only [ChannelEvent.clock, lastClock]
    obtain ⟨k1, k2, k3⟩ := processGroup_now ho hun h1
    have hb := i.bound
    exact ⟨timeInv_snoc i k1 (by omega) (by rw [k2]; omega) (by rw [k2]; omega), hopt,
      untimed_of_streams hu (processGroup_streams h1).1⟩
  | flush now =>
    simp only [Channel.step, Option.map_eq_some_iff] at he
    obtain ⟨⟨c1, hs⟩, h1, he⟩ := he
    simp only [Prod.mk.injEq] at he
    obtain ⟨rfl, rfl⟩ := he
    exact ⟨flush_times [1, 2, 3] ho hu i hsort h1, hopt, untimed_of_streams hu (flush_streams _ h1).1⟩
  | resetPI =>
    simp only [Channel.step, Option.some.injEq, Prod.mk.injEq] at he
    obtain ⟨rfl, rfl⟩ := he
    exact ⟨timeInv_reset i, hopt, hu⟩

theorem run_times {env : Env} {delay : Nat → Int} (hd : ∀ n, 0 ≤ delay n) (es : List ChannelEvent)
    {c c' : Channel} {tr trs : List Trace} {r : Int} (ho : c.options.timestamp = true)
    (hu : c.Untimed) (i : TimeInv r tr c) (hun : ∀ e ∈ es, e.untimed)
    (hsort : (r :: es.flatMap ChannelEvent.clock).Pairwise (· ≤ ·))
    (he : Channel.run env delay c es = some (c', trs)) :
    ∃ r', TimeInv r' (tr ++ trs) c' := by
  induction es generalizing c tr trs r with
  | nil =>
    have := Option.some.inj he
    simp only [Prod.mk.injEq] at this
    obtain ⟨rfl, rfl⟩ := this
    exact ⟨r, by simpa using i⟩
  | cons e es ih =>
    rw [Channel.run] at he
    simp only [Option.bind_eq_bind, Option.bind_eq_some_iff] at he
    obtain ⟨⟨c1, t1⟩, h1, ⟨c2, t2⟩, h2, he⟩ := he
    have := Option.some.inj he
    simp only [Prod.mk.injEq] at this
    obtain ⟨rfl, rfl⟩ := this
    rw [List.flatMap_cons, ← List.cons_append] at hsort
    obtain ⟨s1, s2, s3⟩ := List.pairwise_append.1 hsort
    obtain ⟨i1, o1, u1⟩ := step_times hd ho hu i e (hun e (by simp)) s1 h1
    rw [← List.append_assoc]
    refine ih o1 u1 i1 (fun e he => hun e (List.mem_cons_of_mem _ he)) ?_ h2
    rw [List.pairwise_cons]
    exact ⟨fun x hx => s3 _ (lastClock_mem r e.clock) x hx, s2⟩

/-- Buffers of bits only: the clock may go backwards. -/
theorem run_bits_times {env : Env} {delay : Nat → Int} (hd : ∀ n, 0 ≤ delay n)
    (es : List ChannelEvent) {c c' : Channel} {tr trs : List Trace} {r : Int}
    (i : TimeInv r tr c)
    (hes : ∀ e ∈ es, (∃ t l s, e = .bits t l s) ∨ e = .resetPI)
    (he : Channel.run env delay c es = some (c', trs)) :
    ∃ r', TimeInv r' (tr ++ trs) c' := by
  induction es generalizing c tr trs r with
  | nil =>
    have := Option.some.inj he
    simp only [Prod.mk.injEq] at this
    obtain ⟨rfl, rfl⟩ := this
    exact ⟨r, by simpa using i⟩
  | cons e es ih =>
    rw [Channel.run] at he
    simp only [Option.bind_eq_bind, Option.bind_eq_some_iff] at he
    obtain ⟨⟨c1, t1⟩, h1, ⟨c2, t2⟩, h2, he⟩ := he
    have := Option.some.inj he
    simp only [Prod.mk.injEq] at this
    obtain ⟨rfl, rfl⟩ := this
    rw [← List.append_assoc]
    have hrest := fun e he => hes e (List.mem_cons_of_mem _ he)
    rcases hes e (by simp) with ⟨t, l, s, rfl⟩ | rfl
    · simp only [Channel.step, Option.map_eq_some_iff] at h1
      obtain ⟨⟨c1', hs⟩, h1, he⟩ := h1
      simp only [Prod.mk.injEq] at he
      obtain ⟨rfl, rfl⟩ := he
      have i1 : TimeInv (max t r) tr c := timeInv_same i rfl (by omega)
      exact ih (processBits_times hd l i1 (by omega) h1).1 hrest h2
    · simp only [Channel.step, Option.some.injEq, Prod.mk.injEq] at h1
      obtain ⟨rfl, rfl⟩ := h1
      exact ih (timeInv_reset i) hrest h2

/-! ### An unfinished group -/

open _root_.Spec BlockStream

theorem push_zero_sum {r : RunningSum} (h : r.WF) : (r.push 0).getSum ≤ r.getSum := by
  rw [← RunningSum.sum_rot, ← RunningSum.sum_rot, RunningSum.rot_push h]
  cases r.rot <;> simp

/-- A clean block that does not end the group. -/
theorem run_clean {fec : Bool} {s : BlockStream} (d : BitVec 16) {o : OffsetName}
    (hs : AtSlot s (slotOf o)) (hsum : s.blockErrorSum50.getSum ≤ 42) (hD : o ≠ .D) :
    ∃ t, run fec s (bitsMSB (encode d o)) = (t, []) ∧ AtSlot t (nextName o) ∧
      t.blockErrorSum50.getSum ≤ 42 ∧
      t.currentGroup = s.currentGroup.setBlock (.nth o.index) (rxBlock d o 0) := by
  have hle : (s.blockErrorSum50.push (hit 0)).getSum ≤ 42 :=
    Nat.le_trans (push_zero_sum hs.wf) hsum
  obtain ⟨t, h1, h2, h3, h4⟩ := run_acceptable (fec := fec) (d := d) hs (.inl rfl) hle hD
  refine ⟨t, ?_, h2, by rw [h3]; exact hle, h4⟩
  rw [← h1]
  simp

theorem run_rest {fec : Bool} {s : BlockStream} {o : OffsetName} (hs : AtSlot s o) (l : List Bool)
    (hl : l.length < 26) : (run fec s l).1.currentGroup = s.currentGroup := by
  rw [run_inside fec s l hs.ready (by rw [hs.nbits]; exact hl)]
  exact (shiftBits_same s l).2.2

/-- After a group was delivered and the first `n` bits of another group came in, the whole blocks
among these are in the current group. -/
theorem current_after (fec : Bool) (bs : List Bool) (bit : Bool) (g : Group)
    (h : deliveredAt fec bs bit = some g) (tx : TxGroup) (n : Nat) (hn : n < 104) :
    [BlockNum.b1, .b2, .b3, .b4].map (fun b =>
        if (stateAfter fec (bs ++ [bit] ++ tx.bits.take n)).currentGroup.has b then
          some ((stateAfter fec (bs ++ [bit] ++ tx.bits.take n)).currentGroup.get b) else none) =
      [if 26 ≤ n then some tx.d1 else none, if 52 ≤ n then some tx.d2 else none,
       if 78 ≤ n then some tx.d3 else none, none] := by
  obtain ⟨h1, h2, h3⟩ := delivered_boundary h
  have hst : stateAfter fec (bs ++ [bit] ++ tx.bits.take n) =
      (run fec (stateAfter fec (bs ++ [bit])) (tx.bits.take n)).1 := by
    rw [stateAfter, run_append]; rfl
  rw [hst]
  generalize stateAfter fec (bs ++ [bit]) = s at *
  have hslot3 : slotOf tx.third = nextName .B := by unfold TxGroup.third; split <;> rfl
  have hidx3 : tx.third.index = 2 := by unfold TxGroup.third; split <;> rfl
  obtain ⟨t1, r1, a1, b1, c1⟩ := run_clean (fec := fec) tx.d1 (o := .A) h1 h3 (by simp)
  obtain ⟨t2, r2, a2, b2, c2⟩ := run_clean (fec := fec) tx.d2 (o := .B) a1 b1 (by simp)
  obtain ⟨t3, r3, a3, b3, c3⟩ := run_clean (fec := fec) tx.d3 (o := tx.third)
    (by rw [hslot3]; exact a2) b2 (by unfold TxGroup.third; split <;> simp)
  rw [hidx3] at c3
  have l1 := bitsMSB_length (encode tx.d1 .A)
  have l2 := bitsMSB_length (encode tx.d2 .B)
  have l3 := bitsMSB_length (encode tx.d3 tx.third)
  unfold TxGroup.bits
  rw [List.append_assoc, List.append_assoc]
  rcases Nat.lt_or_ge n 26 with hn1 | hn1
  · rw [List.take_append_of_le_length (by omega), run_rest h1 _ (by rw [List.length_take]; omega), h2]
    have e1 : ¬ 26 ≤ n := by omega
    have e2 : ¬ 52 ≤ n := by omega
    have e3 : ¬ 78 ≤ n := by omega
    simp only [e1, e2, e3, if_false]
    decide
  · rw [List.take_append, List.take_of_length_le (by omega), run_append, r1, l1]
    dsimp only
    rcases Nat.lt_or_ge n 52 with hn2 | hn2
    · rw [List.take_append_of_le_length (by omega), run_rest a1 _ (by rw [List.length_take]; omega), c1, h2]
      have e2 : ¬ 52 ≤ n := by omega
      have e3 : ¬ 78 ≤ n := by omega
      simp only [hn1, e2, e3, if_false, if_true, List.map_cons, List.map_nil, Group.has, Group.get,
        block_setBlock, OffsetName.index, BlockNum.nth, rxBlock]
      rfl
    · rw [List.take_append, List.take_of_length_le (by omega), run_append, r2, l2]
      dsimp only
      rcases Nat.lt_or_ge n 78 with hn3 | hn3
      · rw [List.take_append_of_le_length (by omega), run_rest a2 _ (by rw [List.length_take]; omega),
          c2, c1, h2]
        have e3 : ¬ 78 ≤ n := by omega
        simp only [hn1, hn2, e3, if_false, if_true, List.map_cons, List.map_nil, Group.has, Group.get,
          block_setBlock, OffsetName.index, BlockNum.nth, rxBlock]
        rfl
      · rw [List.take_append, List.take_of_length_le (by omega), run_append, r3, l3]
        dsimp only
        rw [run_rest a3 _ (by rw [List.length_take]; omega), c3, c2, c1, h2]
        simp only [hn1, hn2, hn3, if_true, List.map_cons, List.map_nil, Group.has, Group.get,
          block_setBlock, OffsetName.index, BlockNum.nth, rxBlock]
        rfl

end Redsea
