import Verif.Lemmas.Subcarrier
import Verif.Lemmas.SyncLost
import Verif.Lemmas.ChannelParts
import Verif.Lemmas.EndToEnd

/-
The main loop for MPX input, seen from one channel.
-/

namespace Redsea
open _root_.Redsea.Spec

/-! ### Bits one by one -/

/-- A buffer of bits as buffers of one bit each. -/
def oneByOne (delay : Nat → Int) (t : Int) (st : Nat) : List Bool → List ChannelEvent
  | [] => []
  | b :: bs => .bits (t - delay bs.length + delay 0) [b] st :: oneByOne delay t st bs

theorem processBits_oneByOne (env : Env) (delay : Nat → Int) (t : Int) (st : Nat) (l : List Bool) (c : Channel) :
    (Channel.processBits env delay t st c l).map (fun r => (r.1, r.2.map Trace.handled)) =
      Channel.run env delay c (oneByOne delay t st l) := by
  induction l generalizing c with
  | nil => rfl
  | cons b bs ih =>
    rw [oneByOne, Channel.run, Channel.step, Channel.processBits, Channel.processBits]
    cases hp : c.pushBit b st with
    | none => rfl
    | some r =>
      dsimp only [Option.bind_eq_bind, Option.bind_some]
      obtain ⟨c1, o⟩ := r
      cases o with
      | none =>
        dsimp only [Channel.processBits, Option.map_some, Option.bind_some]
        rw [← ih]
        cases Channel.processBits env delay t st c1 bs <;> rfl
      | some g =>
        dsimp only
        rw [List.length_nil, Int.add_sub_cancel]
        generalize (if t - delay bs.length < c1.lastRxTime then c1.lastRxTime else t - delay bs.length) = u
        cases hg : c1.processGroup env 0 (g.setTime u) st with
        | none => rfl
        | some p =>
          dsimp only [Channel.processBits, Option.bind_some, Option.map_some, Option.pure_def]
          rw [← ih]
          cases Channel.processBits env delay t st { p.1 with lastRxTime := u } bs <;> rfl

theorem fedBits_append (i : Nat) (a b : List ChannelEvent) : fedBits i (a ++ b) = fedBits i a ++ fedBits i b :=
  List.flatMap_append

theorem fedBits_oneByOne (delay : Nat → Int) (t : Int) (st i : Nat) (l : List Bool) :
    fedBits i (oneByOne delay t st l) = if st = i then l else [] := by
  induction l with
  | nil => split <;> rfl
  | cons b bs ih =>
    rw [oneByOne, show fedBits i (ChannelEvent.bits (t - delay bs.length + delay 0) [b] st :: oneByOne delay t st bs) =
      (if st = i then [b] else []) ++ fedBits i (oneByOne delay t st bs) from rfl, ih]
    split <;> rfl

/-- A call that feeds one bit, into one of the first `num` streams, or resets the PI cache. -/
def ChannelEvent.OneBit (num : Nat) : ChannelEvent → Prop
  | .bits _ l s => l.length = 1 ∧ s < num
  | .resetPI => True
  | _ => False

/-- The call resets the PI cache. -/
def ChannelEvent.isReset : ChannelEvent → Bool
  | .resetPI => true
  | _ => false

theorem oneByOne_oneBit (delay : Nat → Int) (t : Int) (st num : Nat) (h : st < num) (l : List Bool) :
    ∀ e ∈ oneByOne delay t st l, e.OneBit num ∧ e.isReset = false := by
  induction l with
  | nil => intro e he; cases he
  | cons b bs ih =>
    intro e he
    rw [oneByOne] at he
    rcases List.mem_cons.mp he with rfl | he
    · exact ⟨⟨rfl, h⟩, rfl⟩
    · exact ih e he

/-! ### Why a reset happens -/

/-- Whenever the PI cache is reset, more than 11875 bits of stream 0 have passed without synchronisation. -/
def Justified (env : Env) (delay : Nat → Int) : Channel → List ChannelEvent → Prop
  | _, [] => True
  | c, e :: es =>
    (e.isReset = true → ∃ s, c.blockStreams[0]? = some s ∧ 11875 < s.numBitsSinceSyncLost.toNat) ∧
      ∀ r, c.step env delay e = some r → Justified env delay r.1 es

theorem justified_append {env : Env} {delay : Nat → Int} (a b : List ChannelEvent) (c : Channel)
    (h1 : Justified env delay c a) (h2 : ∀ r, Channel.run env delay c a = some r → Justified env delay r.1 b) :
    Justified env delay c (a ++ b) := by
  induction a generalizing c with
  | nil => exact h2 (c, []) rfl
  | cons e es ih =>
    refine ⟨h1.1, fun r hr => ih r.1 (h1.2 r hr) fun q hq => ?_⟩
    refine h2 (q.1, r.2 ++ q.2) ?_
    rw [Channel.run, hr]
    dsimp only [Option.bind_eq_bind, Option.bind_some]
    rw [hq]
    rfl

theorem justified_quiet {env : Env} {delay : Nat → Int} (a : List ChannelEvent) (c : Channel)
    (h : ∀ e ∈ a, e.isReset = false) : Justified env delay c a := by
  induction a generalizing c with
  | nil => trivial
  | cons e es ih =>
    exact ⟨fun he => absurd he (by rw [h e (by simp)]; decide), fun r _ => ih r.1 fun u hu => h u (by simp [hu])⟩

theorem justified_at {env : Env} {delay : Nat → Int} (a : List ChannelEvent) (b : List ChannelEvent) (c : Channel)
    (h : Justified env delay c (a ++ .resetPI :: b)) (r : Channel × List Trace)
    (hr : Channel.run env delay c a = some r) :
    ∃ s, r.1.blockStreams[0]? = some s ∧ 11875 < s.numBitsSinceSyncLost.toNat := by
  induction a generalizing c r with
  | nil =>
    have := Option.some.inj hr
    rw [← this]
    exact h.1 rfl
  | cons e es ih =>
    rw [Channel.run] at hr
    obtain ⟨q, hq, hr⟩ := Option.bind_eq_some_iff.mp hr
    obtain ⟨u, hu, hr⟩ := Option.bind_eq_some_iff.mp hr
    have := Option.some.inj hr
    rw [← this]
    exact ih q.1 (h.2 q hq) u hu

/-! ### One turn -/

/-- The calls of one turn: for each stream its bits, and possibly a reset. -/
def turnEvents (delay : Nat → Int) (t : Int) : Nat → List (List Bool) → List Bool → List ChannelEvent
  | n, b :: bs, f :: fs => oneByOne delay t n b ++ (if f then [.resetPI] else []) ++ turnEvents delay t (n + 1) bs fs
  | _, _, _ => []

theorem turnEvents_oneBit (delay : Nat → Int) (t : Int) (num n : Nat) (bits : List (List Bool)) (flags : List Bool)
    (h : n + bits.length ≤ num) : ∀ e ∈ turnEvents delay t n bits flags, e.OneBit num := by
  induction bits generalizing n flags with
  | nil => intro e he; cases flags <;> cases he
  | cons b bs ih =>
    cases flags with
    | nil => intro e he; cases he
    | cons f fs =>
      rw [List.length_cons] at h
      intro e he
      rw [turnEvents] at he
      rcases List.mem_append.mp he with he | he
      · rcases List.mem_append.mp he with he | he
        · exact (oneByOne_oneBit delay t n num (by omega) b e he).1
        · cases f with
          | true =>
            have : e = .resetPI := by simpa using he
            rw [this]
            trivial
          | false => cases he
      · exact ih (n + 1) fs (by omega) e he

theorem turnEvents_fed (delay : Nat → Int) (t : Int) (n i : Nat) (bits : List (List Bool)) (flags : List Bool)
    (h : flags.length = bits.length) :
    fedBits i (turnEvents delay t n bits flags) = if n ≤ i then bits.getD (i - n) [] else [] := by
  induction bits generalizing n flags with
  | nil =>
    cases flags with
    | nil => simp [turnEvents, fedBits]
    | cons f fs => simp at h
  | cons b bs ih =>
    cases flags with
    | nil => simp at h
    | cons f fs =>
      simp only [List.length_cons, Nat.add_right_cancel_iff] at h
      rw [turnEvents, fedBits_append, fedBits_append, fedBits_oneByOne, ih (n + 1) fs h]
      have hr : fedBits i (if f = true then [ChannelEvent.resetPI] else []) = [] := by cases f <;> rfl
      rw [hr, List.append_nil]
      by_cases h1 : n = i
      · subst h1
        rw [if_pos rfl, if_neg (by omega), if_pos (Nat.le_refl n), Nat.sub_self, List.append_nil]
        rfl
      · rw [if_neg h1, List.nil_append]
        by_cases h2 : n ≤ i
        · rw [if_pos (by omega), if_pos h2, show i - n = (i - (n + 1)) + 1 by omega]
          rfl
        · rw [if_neg (by omega), if_neg h2]

/-- The number of resets. -/
def numResets (es : List ChannelEvent) : Nat := es.countP ChannelEvent.isReset

theorem turnEvents_resets (delay : Nat → Int) (t : Int) (n : Nat) (bits : List (List Bool)) (flags : List Bool)
    (h : flags.length = bits.length) : numResets (turnEvents delay t n bits flags) = flags.count true := by
  induction bits generalizing n flags with
  | nil =>
    cases flags with
    | nil => rfl
    | cons f fs => simp at h
  | cons b bs ih =>
    cases flags with
    | nil => simp at h
    | cons f fs =>
      simp only [List.length_cons, Nat.add_right_cancel_iff] at h
      have h0 : numResets (oneByOne delay t n b) = 0 := by
        unfold numResets
        rw [List.countP_eq_zero]
        intro e he
        rw [(oneByOne_oneBit delay t n (n + 1) (by omega) b e he).2]
        decide
      have ih' := ih (n + 1) fs h
      unfold numResets at h0 ih' ⊢
      rw [turnEvents, List.countP_append, List.countP_append, h0, ih']
      cases f with
      | true => rw [List.count_cons_self, if_pos rfl, Nat.zero_add, Nat.add_comm]; rfl
      | false => rw [List.count_cons_of_ne (by decide)]; simp

variable {F C : Type} (ar : Arith F) (L : Liquid F C)

theorem resetNeeded_some (s : SubcarrierSet L) (c : Channel) (h : c.Good) : ∃ b, c.blockStreams[0]? = some b ∧
    resetNeeded L s c = some (b.numBitsSinceSyncLost.toNat > 11875 && s.sampleNum.toNat > 855000) := by
  have hl : 0 < c.blockStreams.length := by rw [h.streams]; decide
  refine ⟨c.blockStreams[0], List.getElem?_eq_getElem hl, ?_⟩
  unfold resetNeeded
  rw [List.getElem?_eq_getElem hl]
  rfl

theorem streamTurn_spec (env : Env) (hk : env.tmc.KeysOk) (delay : Nat → Int) (t : Int) (bits : List (List Bool)) (n : Nat)
    (hn : n + bits.length ≤ 4) (m : MpxChannel L) (hm : m.channel.Good) :
    ∃ m' tr flags, streamTurn L env delay t n m bits = some (m', tr) ∧ m'.channel.Good ∧
      flags.length = bits.length ∧
      Channel.run env delay m.channel (turnEvents delay t n bits flags) = some (m'.channel, tr) ∧
      Justified env delay m.channel (turnEvents delay t n bits flags) ∧
      ((flags.count true = 0 ∧ m'.subcarriers = m.subcarriers) ∨
        (flags.count true = 1 ∧ m'.subcarriers = m.subcarriers.reset L ∧ 855000 < m.subcarriers.sampleNum.toNat)) := by
  induction bits generalizing n m with
  | nil => exact ⟨m, [], [], rfl, hm, rfl, rfl, trivial, .inl ⟨rfl, rfl⟩⟩
  | cons b bs ih =>
    rw [List.length_cons] at hn
    obtain ⟨c1, hs, h1, hg1⟩ := processBits_good env hk delay t n (by omega) b m.channel hm
    have hone := processBits_oneByOne env delay t n b m.channel
    rw [h1] at hone
    obtain ⟨s0, hs0, hres⟩ := resetNeeded_some L m.subcarriers c1 hg1
    have hquiet : Justified env delay m.channel (oneByOne delay t n b) :=
      justified_quiet _ _ fun e he => (oneByOne_oneBit delay t n (n + 1) (by omega) b e he).2
    rw [streamTurn, h1]
    dsimp only [Option.bind_eq_bind, Option.bind_some]
    rw [hres]
    dsimp only [Option.bind_some]
    by_cases hc : (decide (s0.numBitsSinceSyncLost.toNat > 11875) && decide (m.subcarriers.sampleNum.toNat > 855000)) = true
    · rw [if_pos hc, if_pos hc]
      rw [Bool.and_eq_true, decide_eq_true_eq, decide_eq_true_eq] at hc
      obtain ⟨m', tr, flags, e1, e2, e3, e4, e5, e6⟩ := ih (n + 1) (by omega) ⟨m.subcarriers.reset L, c1.resetPI⟩
        ⟨hg1.station, hg1.streams, hg1.bler⟩
      rw [e1]
      have hrun1 : Channel.run env delay m.channel (oneByOne delay t n b ++ [.resetPI]) =
          some (c1.resetPI, hs.map Trace.handled ++ [Trace.reset]) := by
        rw [run_run, ← hone]
        rfl
      refine ⟨m', _, true :: flags, rfl, e2, by simp [e3], ?_, ?_, ?_⟩
      · rw [turnEvents, if_pos rfl, run_run, hrun1]
        dsimp only [Option.bind_some]
        rw [e4]
        rfl
      · rw [turnEvents, if_pos rfl]
        refine justified_append _ _ _ (justified_append _ _ _ hquiet ?_) ?_
        · intro r hr
          rw [← hone] at hr
          have := Option.some.inj hr
          rw [← this]
          exact ⟨fun _ => ⟨s0, hs0, hc.1⟩, fun _ _ => trivial⟩
        · intro r hr
          rw [hrun1] at hr
          have := Option.some.inj hr
          rw [← this]
          exact e5
      · right
        have h0 : (⟨m.subcarriers.reset L, c1.resetPI⟩ : MpxChannel L).subcarriers.sampleNum.toNat = 0 := rfl
        rcases e6 with ⟨f1, f2⟩ | ⟨-, -, f3⟩
        · exact ⟨by rw [List.count_cons_self, f1], f2, hc.2⟩
        · omega
    · rw [if_neg hc, if_neg hc]
      obtain ⟨m', tr, flags, e1, e2, e3, e4, e5, e6⟩ := ih (n + 1) (by omega) ⟨m.subcarriers, c1⟩ hg1
      rw [e1]
      refine ⟨m', _, false :: flags, rfl, e2, by simp [e3], ?_, ?_, ?_⟩
      · rw [turnEvents, if_neg (by decide), List.append_nil, run_run, ← hone]
        dsimp only [Option.bind_some, Option.map_some]
        rw [e4, List.append_nil]
        rfl
      · rw [turnEvents, if_neg (by decide), List.append_nil]
        refine justified_append _ _ _ hquiet ?_
        intro r hr
        rw [← hone] at hr
        have := Option.some.inj hr
        rw [← this]
        exact e5
      · rw [List.count_cons_of_ne (by decide)]
        exact e6

/-! ### Demodulation without end -/

theorem sampleLoop_ok (num : Nat) (s : SubcarrierSet L) (xs : List F) (hd : ∀ d ∈ s.demods, d.Ok L) :
    ∃ s' bits, sampleLoop ar L num s xs = some (s', bits) ∧ s'.demods.length = s.demods.length ∧
      bits.length = s.demods.length ∧ (∀ d ∈ s'.demods, d.Ok L) ∧ s'.resampling = s.resampling := by
  induction xs generalizing s with
  | nil => exact ⟨s, _, rfl, rfl, by simp, hd, rfl⟩
  | cons x xs ih =>
    obtain ⟨ds', bs, h1, h2, h3, h4, -⟩ := sampleStreams_spec ar L num x s.sampleNum.toNat 0 s.demods hd
    obtain ⟨s', bits, r1, r2, r3, r4, r5⟩ := ih { s with demods := ds', sampleNum := s.sampleNum + 1 } h4
    refine ⟨s', List.zipWith (· ++ ·) bs bits, ?_, by rw [r2, h2], ?_, r4, r5⟩
    · rw [sampleLoop, show kDecimateRatio = 24 from rfl, h1]
      dsimp only [Option.bind_eq_bind, Option.bind_some]
      rw [r1]
      rfl
    · rw [List.length_zipWith, h3, r3, h2, Nat.min_self]

theorem processChunk_ok (num : Nat) (s : SubcarrierSet L) (hL : s.resampling = true → KeepsRate L)
    (hnum : num ≤ s.demods.length) (chunk : List F) (hc : chunk.length ≤ 8192) (hd : ∀ d ∈ s.demods, d.Ok L) :
    ∃ s' bits, s.processChunk ar L chunk num = some (s', bits) ∧ s'.demods.length = s.demods.length ∧
      bits.length = s.demods.length ∧ (∀ d ∈ s'.demods, d.Ok L) ∧ s'.resampling = s.resampling := by
  unfold SubcarrierSet.processChunk SubcarrierSet.resampleChunk
  rw [if_neg (by omega)]
  by_cases hr : s.resampling = true
  · have hlen := (hL hr).rate s.resampler chunk
    rw [if_pos hr, resampleLoop_spec L (hL hr) s.resampler 0 chunk (by
      have : kBufferSize = 10945 := by decide
      omega)]
    dsimp only [Option.bind_eq_bind, Option.bind_some, Option.pure_def]
    exact sampleLoop_ok ar L num { s with resampler := resState L s.resampler chunk } _ hd
  · rw [if_neg hr]
    exact sampleLoop_ok ar L num s chunk hd

/-- A channel on which no call fails. -/
structure MpxChannel.Good (m : MpxChannel L) : Prop where
  len : m.subcarriers.demods.length = 4
  ok : ∀ d ∈ m.subcarriers.demods, d.Ok L
  rate : m.subcarriers.resampling = true → KeepsRate L
  channel : m.channel.Good

/-! ### Demodulation with resets -/

/-- One subcarrier over stretches with a reset between them. -/
def demodOver (n : Nat) : Nat → Demod L → List (List F) → Option (Demod L × List Bool)
  | _, d, [] => some (d, [])
  | k, d, xs :: rest => do
    let r ← demodRun ar L n k d xs
    if rest.isEmpty then pure r
    else
      let rs ← demodOver n 0 { r.1 with sym := L.symReset r.1.sym, nco := L.ncoReset r.1.nco } rest
      pure (rs.1, r.2 ++ rs.2)

/-- Every stretch but the last is longer than 855000 samples (the first one has `k` samples before it). -/
def Apart : Nat → List (List F) → Prop
  | _, [] => True
  | k, xs :: rest => (rest ≠ [] → 855000 < k + xs.length) ∧ Apart 0 rest

theorem demodOver_prepend (n k : Nat) (d d1 : Demod L) (pre xs : List F) (rest : List (List F)) (b1 : List Bool)
    (h1 : demodRun ar L n k d pre = some (d1, b1)) (q : Demod L × List Bool)
    (h2 : demodOver ar L n (k + pre.length) d1 (xs :: rest) = some q) :
    demodOver ar L n k d ((pre ++ xs) :: rest) = some (q.1, b1 ++ q.2) := by
  rw [demodOver] at h2 ⊢
  obtain ⟨r, hr, h2⟩ := Option.bind_eq_some_iff.mp h2
  rw [demodRun_append ar L n k d pre xs d1 b1 h1 r.1 r.2 hr]
  dsimp only [Option.bind_eq_bind, Option.bind_some]
  split at h2
  · rename_i hemp
    have := Option.some.inj h2
    rw [if_pos hemp, ← this]
    rfl
  · rename_i hemp
    rw [if_neg hemp]
    obtain ⟨rs, hrs, h2⟩ := Option.bind_eq_some_iff.mp h2
    have := Option.some.inj h2
    rw [hrs, ← this]
    simp

/-! ### All turns of a channel -/

/-- All turns of a channel. -/
def channelTurns (env : Env) (delay : Nat → Int) (num : Nat) : MpxChannel L → List (Int × List F) →
    Option (MpxChannel L × List Trace)
  | m, [] => some (m, [])
  | m, c :: cs => do
    let r ← channelTurn ar L env delay num c.1 m c.2
    let rs ← channelTurns env delay num r.1 cs
    pure (rs.1, r.2 ++ rs.2)

theorem incoming_nil (s : SubcarrierSet L) : s.incoming L [] = [] := by
  unfold SubcarrierSet.incoming
  split <;> rfl

theorem channelTurns_spec (env : Env) (hk : env.tmc.KeysOk) (delay : Nat → Int) (num : Nat) (hnum : num ≤ 4)
    (chunks : List (Int × List F)) (hc : ∀ c ∈ chunks, c.2.length ≤ 8192) (m : MpxChannel L) (hm : m.Good L) :
    ∃ m' tr es, channelTurns ar L env delay num m chunks = some (m', tr) ∧ m'.Good L ∧
      Channel.run env delay m.channel es = some (m'.channel, tr) ∧ Justified env delay m.channel es ∧
      (∀ e ∈ es, e.OneBit num) ∧
      ∀ k, m.subcarriers.sampleNum = BitVec.ofNat 32 k →
        k + (m.subcarriers.incoming L (chunks.flatMap fun c => c.2)).length ≤ 2 ^ 32 →
        ∃ stretches, stretches.length = numResets es + 1 ∧
          stretches.flatten = m.subcarriers.incoming L (chunks.flatMap fun c => c.2) ∧ Apart k stretches ∧
          ∀ n d, n < num → m.subcarriers.demods[n]? = some d → ∃ d',
            demodOver ar L n k d stretches = some (d', fedBits n es) := by
  induction chunks generalizing m with
  | nil =>
    refine ⟨m, [], [], rfl, hm, rfl, trivial, by simp, ?_⟩
    intro k _ _
    refine ⟨[[]], rfl, ?_, ⟨fun h => absurd rfl h, trivial⟩, fun n d _ _ => ⟨d, rfl⟩⟩
    rw [List.flatMap_nil, incoming_nil]
    rfl
  | cons c cs ih =>
    obtain ⟨t, xs⟩ := c
    have hx : xs.length ≤ 8192 := hc _ (List.mem_cons_self ..)
    obtain ⟨s1, bits, p1, p2, p3, p4, p5⟩ := processChunk_ok ar L num m.subcarriers hm.rate (by rw [hm.len]; exact hnum) xs
      hx hm.ok
    have hbl : (bits.take num).length = num := by rw [List.length_take, p3, hm.len]; omega
    obtain ⟨m1, tr1, flags, e1, e2, e3, e4, e5, e6⟩ := streamTurn_spec L env hk delay t (bits.take num) 0
      (by omega) ⟨s1, m.channel⟩ hm.channel
    have hdem : m1.subcarriers.demods.length = 4 ∧ (∀ d ∈ m1.subcarriers.demods, d.Ok L) ∧
        m1.subcarriers.resampling = m.subcarriers.resampling ∧ m1.subcarriers.resampler = s1.resampler := by
      rcases e6 with ⟨-, f⟩ | ⟨-, f, -⟩
      · rw [f]
        exact ⟨by rw [p2, hm.len], p4, p5, rfl⟩
      · rw [f]
        refine ⟨?_, ?_, p5, rfl⟩
        · show (s1.demods.map _).length = 4
          rw [List.length_map, p2, hm.len]
        · intro d hd
          obtain ⟨d0, hd0, rfl⟩ := List.mem_map.mp (show d ∈ s1.demods.map _ from hd)
          exact p4 d0 hd0
    have hg1 : m1.Good L := ⟨hdem.1, hdem.2.1, by rw [hdem.2.2.1]; exact hm.rate, e2⟩
    obtain ⟨m2, tr2, es2, r1, r2, r3, r4, r5, r6⟩ := ih (fun c hc' => hc c (List.mem_cons_of_mem _ hc')) m1 hg1
    refine ⟨m2, tr1 ++ tr2, turnEvents delay t 0 (bits.take num) flags ++ es2, ?_, r2, ?_, ?_, ?_, ?_⟩
    · rw [channelTurns]
      unfold channelTurn
      rw [p1]
      dsimp only [Option.bind_eq_bind, Option.bind_some]
      rw [e1]
      dsimp only [Option.bind_some]
      rw [r1]
      rfl
    · rw [run_run, e4]
      dsimp only [Option.bind_some]
      rw [r3]
      rfl
    · refine justified_append _ _ _ e5 ?_
      intro r hr
      rw [e4] at hr
      have := Option.some.inj hr
      rw [← this]
      exact r4
    · intro e he
      rcases List.mem_append.mp he with he | he
      · exact turnEvents_oneBit delay t num 0 _ flags (by omega) e he
      · exact r5 e he
    · intro k hsn hlen
      rw [List.flatMap_cons] at hlen ⊢
      have hinc : ∀ u : SubcarrierSet L, u.resampling = m.subcarriers.resampling →
          (m.subcarriers.resampling = true → u.resampler = resState L m.subcarriers.resampler xs) → ∀ ys,
          m.subcarriers.incoming L (xs ++ ys) = m.subcarriers.incoming L xs ++ u.incoming L ys := by
        intro u h1 h2 ys
        unfold SubcarrierSet.incoming
        rw [h1]
        by_cases hr : m.subcarriers.resampling = true
        · rw [if_pos hr, if_pos hr, if_pos hr, resampled_append, h2 hr]
        · rw [if_neg hr, if_neg hr, if_neg hr]
      have hk1 : k + (m.subcarriers.incoming L xs).length ≤ 2 ^ 32 := by
        have := hinc { m.subcarriers with resampler := resState L m.subcarriers.resampler xs } rfl (fun _ => rfl)
          (cs.flatMap fun c => c.2)
        rw [this, List.length_append] at hlen
        omega
      obtain ⟨s1', bits', q1, q2, q3, q4, q5, q6, q7, q8⟩ := processChunk_spec ar L num k m.subcarriers hm.rate
        (by rw [hm.len]; exact hnum) xs hx hk1 hsn hm.ok
      rw [p1] at q1
      have := Option.some.inj q1
      simp only [Prod.mk.injEq] at this
      obtain ⟨rfl, rfl⟩ := this
      rw [hinc m1.subcarriers hdem.2.2.1 (fun h => by rw [hdem.2.2.2]; exact q6 h)] at hlen ⊢
      rw [List.length_append] at hlen
      have hfed : ∀ n, n < num → fedBits n (turnEvents delay t 0 (bits.take num) flags) = bits.getD n [] := by
        intro n hn
        rw [turnEvents_fed delay t 0 n _ flags e3, if_pos (Nat.zero_le n), Nat.sub_zero, List.getD_eq_getElem?_getD,
          List.getD_eq_getElem?_getD, List.getElem?_take, if_pos hn]
      have hcount := turnEvents_resets delay t 0 _ flags e3
      have hnr : numResets (turnEvents delay t 0 (bits.take num) flags ++ es2) = flags.count true + numResets es2 := by
        unfold numResets at hcount ⊢
        rw [List.countP_append, hcount]
      rw [hnr]
      rcases e6 with ⟨f0, f⟩ | ⟨f0, f, f3⟩
      · have f : m1.subcarriers = s1 := f
        obtain ⟨st, g1, g2, g3, g4⟩ := r6 (k + (m.subcarriers.incoming L xs).length) (by rw [f]; exact q5) (by omega)
        match st, g1, g2, g3, g4 with
        | [], g1, _, _, _ => simp at g1
        | ys :: rest, g1, g2, g3, g4 =>
          refine ⟨(m.subcarriers.incoming L xs ++ ys) :: rest, by rw [f0]; simpa using g1, ?_, ?_, ?_⟩
          · rw [List.flatten_cons, List.append_assoc, ← g2]
            rfl
          · refine ⟨fun h => ?_, g3.2⟩
            have := g3.1 h
            rw [List.length_append]
            omega
          · intro n d hn hd
            obtain ⟨d1, b, a1, a2, a3⟩ := q8 n d hn hd
            obtain ⟨d2, a4⟩ := g4 n d1 hn (by rw [f]; exact a1)
            refine ⟨d2, ?_⟩
            rw [demodOver_prepend ar L n k d d1 _ ys rest b a3 _ a4, fedBits_append, hfed n hn,
              List.getD_eq_getElem?_getD, a2]
            rfl
      · have f : m1.subcarriers = s1.reset L := f
        obtain ⟨st, g1, g2, g3, g4⟩ := r6 0 (by rw [f]; rfl) (by omega)
        refine ⟨m.subcarriers.incoming L xs :: st, by rw [f0, List.length_cons, g1]; omega, ?_, ?_, ?_⟩
        · rw [List.flatten_cons, g2]
        · refine ⟨fun _ => ?_, g3⟩
          have f3 : 855000 < s1.sampleNum.toNat := f3
          rw [q5, BitVec.toNat_ofNat] at f3
          have := Nat.mod_le (k + (m.subcarriers.incoming L xs).length) (2 ^ 32)
          omega
        · intro n d hn hd
          obtain ⟨d1, b, a1, a2, a3⟩ := q8 n d hn hd
          obtain ⟨d2, a4⟩ := g4 n { d1 with sym := L.symReset d1.sym, nco := L.ncoReset d1.nco } hn (by
            rw [f]
            show (s1.demods.map _)[n]? = _
            rw [List.getElem?_map, a1]
            rfl)
          refine ⟨d2, ?_⟩
          rw [demodOver, a3]
          dsimp only [Option.bind_eq_bind, Option.bind_some]
          rw [if_neg (by
            intro h
            rw [List.isEmpty_iff] at h
            rw [h] at g1
            simp at g1), a4, fedBits_append, hfed n hn, List.getD_eq_getElem?_getD, a2]
          rfl

end Redsea
