import Verif.Lemmas.MpxLoop
import Verif.Props.OtherInput
import Verif.Props.Subcarrier

/-
The main loop for MPX input: all channels.
-/

namespace Redsea
open _root_.Redsea.Spec

variable {F C : Type} (ar : Arith F) (L : Liquid F C)

theorem biphase_run_append (d : BiphaseDecoder F) (a b : List F) (d1 : BiphaseDecoder F) (o1 : List (Bool × Bool))
    (h1 : BiphaseDecoder.run ar d a = some (d1, o1)) (q : BiphaseDecoder F × List (Bool × Bool))
    (h2 : BiphaseDecoder.run ar d1 b = some q) : BiphaseDecoder.run ar d (a ++ b) = some (q.1, o1 ++ q.2) := by
  induction a generalizing d o1 with
  | nil =>
    have := Option.some.inj h1
    simp only [Prod.mk.injEq] at this
    obtain ⟨rfl, rfl⟩ := this
    exact h2
  | cons x xs ih =>
    rw [BiphaseDecoder.run] at h1
    obtain ⟨r, hr, h1⟩ := Option.bind_eq_some_iff.mp h1
    obtain ⟨u, hu, h1⟩ := Option.bind_eq_some_iff.mp h1
    have := Option.some.inj h1
    simp only [Prod.mk.injEq] at this
    obtain ⟨rfl, rfl⟩ := this
    rw [List.cons_append, BiphaseDecoder.run, hr]
    dsimp only [Option.bind_eq_bind, Option.bind_some]
    rw [ih r.1 u.2 hu]
    rfl

/-- The bits of a subcarrier are those of its symbols, with restarts. -/
theorem demodOver_symbols (n : Nat) (stretches : List (List F)) (d : Demod L) (hd : d.Ok L)
    (q : Demod L × List Bool) (h : demodOver ar L n 0 d stretches = some q) :
    ∃ b out, BiphaseDecoder.run ar d.biphase (((d.front L).symbolsOver L n stretches).map L.real) = some (b, out) ∧
      q.2 = (validBits d.delta out).map (· != 0) := by
  induction stretches generalizing d q with
  | nil =>
    have := Option.some.inj h
    rw [← this]
    exact ⟨d.biphase, [], rfl, rfl⟩
  | cons xs rest ih =>
    rw [demodOver] at h
    obtain ⟨d1, b1, hr, hd1⟩ := demodRun_ok ar L n 0 d hd xs
    rw [hr] at h
    dsimp only [Option.bind_eq_bind, Option.bind_some] at h
    obtain ⟨out, e1, e2, e3, e4⟩ := demodRun_symbols ar L n 0 d hd xs d1 b1 hr
    rw [Front.symbolsOver, ← e3, List.map_append]
    split at h
    · rename_i hemp
      have := Option.some.inj h
      rw [← this, List.isEmpty_iff.mp hemp]
      refine ⟨d1.biphase, out, ?_, e2⟩
      rw [Front.symbolsOver, List.map_nil, List.append_nil]
      exact e1
    · obtain ⟨u, hu, h⟩ := Option.bind_eq_some_iff.mp h
      have := Option.some.inj h
      rw [← this]
      obtain ⟨b2, out2, g1, g2⟩ := ih { d1 with sym := L.symReset d1.sym, nco := L.ncoReset d1.nco } hd1 u hu
      refine ⟨b2, out ++ out2, biphase_run_append ar _ _ _ _ _ e1 _ g1, ?_⟩
      rw [e4, List.map_append, ← e2, g2]

/-! ### The chunks of a channel -/

/-- The chunks of a channel with their times. -/
def mpxChunks {α : Type} (clock : Nat → Int) (channel : Nat) : Nat → MPXReader α → Option (List (Int × List α))
  | 0, _ => none
  | fuel + 1, r =>
    if r.isEof then some []
    else do
      let here ← r.fillBuffer.readChunk channel
      let later ← mpxChunks clock channel fuel r.fillBuffer
      pure ((clock fuel, here) :: later)

theorem mpxChunks_samples {α : Type} (clock : Nat → Int) (channel fuel : Nat) (r : MPXReader α) :
    mpxSamples channel fuel r = (mpxChunks clock channel fuel r).map fun cs => cs.flatMap fun c => c.2 := by
  induction fuel generalizing r with
  | zero => rfl
  | succ fuel ih =>
    rw [mpxSamples, mpxChunks]
    split
    · rfl
    · dsimp only
      cases r.fillBuffer.readChunk channel with
      | none => rfl
      | some here =>
        dsimp only [Option.bind_eq_bind, Option.bind_some]
        rw [ih]
        cases mpxChunks clock channel fuel r.fillBuffer <;> rfl

theorem mapM_length {α β : Type} (f : α → Option β) (l : List α) (r : List β) (h : l.mapM f = some r) :
    r.length = l.length := by
  induction l generalizing r with
  | nil =>
    have := Option.some.inj h
    rw [← this]
    rfl
  | cons a l ih =>
    rw [List.mapM_cons] at h
    obtain ⟨b, -, h⟩ := Option.bind_eq_some_iff.mp h
    obtain ⟨bs, hb, h⟩ := Option.bind_eq_some_iff.mp h
    have := Option.some.inj h
    rw [← this, List.length_cons, List.length_cons, ih bs hb]

theorem readChunk_length {α : Type} (r : MPXReader α) (c : Nat) (x : List α) (h : r.readChunk c = some x) :
    x.length ≤ r.buffer.length := by
  unfold MPXReader.readChunk at h
  split at h
  · cases h
  · split at h
    · cases h
      exact Nat.le_refl _
    · split at h
      · cases h
        exact Nat.le_refl _
      · split at h
        · cases h
        · rw [mapM_length _ _ _ h, List.length_range]
          exact Nat.div_le_self _ _

theorem mpxChunks_small {α : Type} (clock : Nat → Int) (channel fuel : Nat) (r : MPXReader α)
    (hr : r.chunkSize ≤ 8192) (cs : List (Int × List α)) (h : mpxChunks clock channel fuel r = some cs) :
    ∀ c ∈ cs, c.2.length ≤ 8192 := by
  induction fuel generalizing r cs with
  | zero => cases h
  | succ fuel ih =>
    rw [mpxChunks] at h
    split at h
    · have := Option.some.inj h
      rw [← this]
      intro c hc
      cases hc
    · obtain ⟨here, h1, h⟩ := Option.bind_eq_some_iff.mp h
      obtain ⟨later, h2, h⟩ := Option.bind_eq_some_iff.mp h
      have := Option.some.inj h
      rw [← this]
      intro c hc
      rcases List.mem_cons.mp hc with rfl | hc
      · have h3 := readChunk_length _ _ _ h1
        have h4 : r.fillBuffer.buffer.length ≤ r.chunkSize := by
          show (r.file.take r.chunkSize).length ≤ _
          rw [List.length_take]
          omega
        show here.length ≤ 8192
        omega
      · exact ih r.fillBuffer hr later h2 c hc

/-! ### Channels do not influence each other -/

/-- What happens in one channel. -/
def ofChannel (i : Nat) (tr : List (Nat × Trace)) : List Trace := (tr.filter fun t => t.1 == i).map fun t => t.2

theorem ofChannel_append (i : Nat) (a b : List (Nat × Trace)) :
    ofChannel i (a ++ b) = ofChannel i a ++ ofChannel i b := by
  unfold ofChannel
  rw [List.filter_append, List.map_append]

theorem ofChannel_same (i : Nat) (a : List Trace) : ofChannel i (a.map fun t => (i, t)) = a := by
  unfold ofChannel
  rw [List.filter_map, List.map_map]
  simp [Function.comp_def]

theorem ofChannel_other (i k : Nat) (h : k ≠ i) (a : List Trace) : ofChannel i (a.map fun t => (k, t)) = [] := by
  unfold ofChannel
  rw [List.filter_map]
  simp [Function.comp_def, h]

theorem channelsTurn_spec (env : Env) (delay : Nat → Int) (num : Nat) (time : Int) (reader : MPXReader F)
    (ms : List (MpxChannel L)) (k : Nat)
    (h : ∀ i m, ms[i]? = some m → ∃ chunk r, reader.readChunk (k + i) = some chunk ∧
      channelTurn ar L env delay num time m chunk = some r) :
    ∃ ms' tr, channelsTurn ar L env delay num time reader k ms = some (ms', tr) ∧ ms'.length = ms.length ∧
      (∀ i, i < k → ofChannel i tr = []) ∧
      ∀ i m chunk r, ms[i]? = some m → reader.readChunk (k + i) = some chunk →
        channelTurn ar L env delay num time m chunk = some r → ms'[i]? = some r.1 ∧ ofChannel (k + i) tr = r.2 := by
  induction ms generalizing k with
  | nil => exact ⟨[], [], rfl, rfl, fun _ _ => rfl, by intro i m _ _ h; simp at h⟩
  | cons m ms ih =>
    obtain ⟨chunk, r, h1, h2⟩ := h 0 m rfl
    rw [Nat.add_zero] at h1
    obtain ⟨ms', tr, e1, e2, e3, e4⟩ := ih (k + 1) (by
      intro i m hm
      obtain ⟨c, q, a1, a2⟩ := h (i + 1) m hm
      exact ⟨c, q, by rw [← a1]; congr 1; omega, a2⟩)
    refine ⟨r.1 :: ms', r.2.map (fun t => (k, t)) ++ tr, ?_, by simp [e2], ?_, ?_⟩
    · rw [channelsTurn, h1]
      dsimp only [Option.bind_eq_bind, Option.bind_some]
      rw [h2]
      dsimp only [Option.bind_some]
      rw [e1]
      rfl
    · intro i hi
      rw [ofChannel_append, ofChannel_other i k (by omega), e3 i (by omega)]
      rfl
    · intro i u c q hu hc hq
      cases i with
      | zero =>
        simp only [List.getElem?_cons_zero, Option.some.injEq] at hu
        subst hu
        rw [Nat.add_zero, h1] at hc
        cases hc
        rw [h2] at hq
        cases hq
        refine ⟨rfl, ?_⟩
        rw [Nat.add_zero, ofChannel_append, ofChannel_same, e3 k (by omega), List.append_nil]
      | succ i =>
        rw [List.getElem?_cons_succ] at hu
        obtain ⟨a1, a2⟩ := e4 i u c q hu (by rw [← hc]; congr 1; omega) hq
        refine ⟨a1, ?_⟩
        rw [ofChannel_append, ofChannel_other _ k (by omega), List.nil_append, ← a2]
        congr 1
        omega

theorem mpxLoop_spec (env : Env) (delay : Nat → Int) (num : Nat) (clock : Nat → Int) (fuel : Nat) (reader : MPXReader F)
    (ms : List (MpxChannel L)) (hne : ms ≠ [])
    (h : ∀ i m, ms[i]? = some m → ∃ chunks r, mpxChunks clock i fuel reader = some chunks ∧
      channelTurns ar L env delay num m chunks = some r) :
    ∃ ms' tr, mpxLoop ar L env delay num clock fuel reader ms = some (ms', tr) ∧ ms'.length = ms.length ∧
      ∀ i m chunks r, ms[i]? = some m → mpxChunks clock i fuel reader = some chunks →
        channelTurns ar L env delay num m chunks = some r → ms'[i]? = some r.1 ∧ ofChannel i tr = r.2 := by
  induction fuel generalizing reader ms with
  | zero =>
    obtain ⟨m, hm⟩ : ∃ m, ms[0]? = some m := by
      cases ms with
      | nil => exact absurd rfl hne
      | cons m ms => exact ⟨m, rfl⟩
    obtain ⟨c, r, h1, -⟩ := h 0 m hm
    cases h1
  | succ fuel ih =>
    rw [mpxLoop]
    by_cases he : reader.isEof = true
    · rw [if_pos he]
      refine ⟨ms, [], rfl, rfl, ?_⟩
      intro i m chunks r hm hc hr
      rw [mpxChunks, if_pos he] at hc
      cases hc
      cases hr
      exact ⟨hm, rfl⟩
    · rw [if_neg he]
      have hsplit : ∀ i m chunks r, ms[i]? = some m → mpxChunks clock i (fuel + 1) reader = some chunks →
          channelTurns ar L env delay num m chunks = some r → ∃ here later r1 r2,
            reader.fillBuffer.readChunk i = some here ∧ mpxChunks clock i fuel reader.fillBuffer = some later ∧
            chunks = (clock fuel, here) :: later ∧ channelTurn ar L env delay num (clock fuel) m here = some r1 ∧
            channelTurns ar L env delay num r1.1 later = some r2 ∧ r = (r2.1, r1.2 ++ r2.2) := by
        intro i m chunks r hm hc hr
        rw [mpxChunks, if_neg he] at hc
        obtain ⟨here, h1, hc⟩ := Option.bind_eq_some_iff.mp hc
        obtain ⟨later, h2, hc⟩ := Option.bind_eq_some_iff.mp hc
        have := Option.some.inj hc
        subst this
        rw [channelTurns] at hr
        obtain ⟨r1, h3, hr⟩ := Option.bind_eq_some_iff.mp hr
        obtain ⟨r2, h4, hr⟩ := Option.bind_eq_some_iff.mp hr
        exact ⟨here, later, r1, r2, h1, h2, rfl, h3, h4, (Option.some.inj hr).symm⟩
      obtain ⟨ms1, tr1, e1, e2, -, e4⟩ := channelsTurn_spec ar L env delay num (clock fuel) reader.fillBuffer ms 0 (by
        intro i m hm
        obtain ⟨chunks, r, h1, h2⟩ := h i m hm
        obtain ⟨here, later, r1, r2, a1, -, -, a4, -⟩ := hsplit i m chunks r hm h1 h2
        exact ⟨here, r1, by rw [Nat.zero_add]; exact a1, a4⟩)
      dsimp only [Option.bind_eq_bind]
      rw [e1]
      dsimp only [Option.bind_some]
      have hstep : ∀ i m chunks r, ms[i]? = some m → mpxChunks clock i (fuel + 1) reader = some chunks →
          channelTurns ar L env delay num m chunks = some r → ∃ later r1 r2,
            mpxChunks clock i fuel reader.fillBuffer = some later ∧
            channelTurns ar L env delay num r1 later = some r2 ∧ ms1[i]? = some r1 ∧
            r = (r2.1, ofChannel i tr1 ++ r2.2) := by
        intro i m chunks r hm hc hr
        obtain ⟨here, later, r1, r2, a1, a2, a3, a4, a5, a6⟩ := hsplit i m chunks r hm hc hr
        obtain ⟨b1, b2⟩ := e4 i m here r1 hm (by rw [Nat.zero_add]; exact a1) a4
        rw [Nat.zero_add] at b2
        exact ⟨later, r1.1, r2, a2, a5, b1, by rw [b2]; exact a6⟩
      obtain ⟨ms2, tr2, f1, f2, f3⟩ := ih reader.fillBuffer ms1 (by
          intro h0
          rw [h0] at e2
          exact hne (List.length_eq_zero_iff.mp e2.symm)) (by
        intro i m1 hm1
        have hi : i < ms.length := by
          rw [← e2]
          exact (List.getElem?_eq_some_iff.mp hm1).1
        obtain ⟨chunks, r, h1, h2⟩ := h i ms[i] (List.getElem?_eq_getElem hi)
        obtain ⟨later, r1, r2, a1, a2, a3, -⟩ := hstep i _ chunks r (List.getElem?_eq_getElem hi) h1 h2
        rw [hm1] at a3
        cases a3
        exact ⟨later, r2, a1, a2⟩)
      rw [f1]
      refine ⟨ms2, tr1 ++ tr2, rfl, by rw [f2, e2], ?_⟩
      intro i m chunks r hm hc hr
      obtain ⟨later, r1, r2, a1, a2, a3, a4⟩ := hstep i m chunks r hm hc hr
      obtain ⟨b1, b2⟩ := f3 i r1 later r2 a3 a1 a2
      rw [a4]
      exact ⟨b1, by rw [ofChannel_append, b2]⟩

theorem flushChannels_spec (env : Env) (hk : env.tmc.KeysOk) (now : Nat → Nat → Int) (ms : List (MpxChannel L)) (k : Nat)
    (h : ∀ m ∈ ms, m.channel.Good) : ∃ tr, flushChannels L env now k ms = some tr ∧
      (∀ i, i < k → ofChannel i tr = []) ∧
      ∀ i m, ms[i]? = some m → ∃ r, m.channel.flush env (now (k + i)) = some r ∧
        ofChannel (k + i) tr = r.2.map .handled := by
  induction ms generalizing k with
  | nil => exact ⟨[], rfl, fun _ _ => rfl, by intro i m h; simp at h⟩
  | cons m ms ih =>
    obtain ⟨c, r, h1, -⟩ := flush_good env hk (now k) [1, 2, 3] (by decide) m.channel (h m (by simp))
    obtain ⟨tr, e1, e2, e3⟩ := ih (k + 1) fun u hu => h u (by simp [hu])
    have hm : (r.map fun h => (k, Trace.handled h)) = (r.map Trace.handled).map fun t => (k, t) := by
      rw [List.map_map]
      rfl
    refine ⟨r.map (fun h => (k, .handled h)) ++ tr, ?_, ?_, ?_⟩
    · rw [flushChannels]
      unfold Channel.flush
      rw [h1]
      dsimp only [Option.bind_eq_bind, Option.bind_some]
      rw [e1]
      rfl
    · intro i hi
      rw [ofChannel_append, hm, ofChannel_other i k (by omega), e2 i (by omega)]
      rfl
    · intro i u hu
      cases i with
      | zero =>
        simp only [List.getElem?_cons_zero, Option.some.injEq] at hu
        subst hu
        refine ⟨(c, r), h1, ?_⟩
        rw [Nat.add_zero, ofChannel_append, hm, ofChannel_same, e2 k (by omega), List.append_nil]
      | succ i =>
        rw [List.getElem?_cons_succ] at hu
        obtain ⟨q, a1, a2⟩ := e3 i u hu
        refine ⟨q, by rw [← a1]; congr 2; omega, ?_⟩
        rw [ofChannel_append, hm, ofChannel_other _ k (by omega), List.nil_append, ← a2]
        congr 1
        omega

/-! ### From the whole to a channel -/

theorem channelsTurn_inv (env : Env) (delay : Nat → Int) (num : Nat) (time : Int) (reader : MPXReader F)
    (ms : List (MpxChannel L)) (k : Nat) (q : List (MpxChannel L) × List (Nat × Trace))
    (h : channelsTurn ar L env delay num time reader k ms = some q) :
    ∀ i m, ms[i]? = some m → ∃ chunk r, reader.readChunk (k + i) = some chunk ∧
      channelTurn ar L env delay num time m chunk = some r := by
  induction ms generalizing k q with
  | nil => intro i m hm; simp at hm
  | cons m ms ih =>
    rw [channelsTurn] at h
    obtain ⟨chunk, h1, h⟩ := Option.bind_eq_some_iff.mp h
    obtain ⟨r, h2, h⟩ := Option.bind_eq_some_iff.mp h
    obtain ⟨rs, h3, h⟩ := Option.bind_eq_some_iff.mp h
    intro i u hu
    cases i with
    | zero =>
      simp only [List.getElem?_cons_zero, Option.some.injEq] at hu
      subst hu
      exact ⟨chunk, r, h1, h2⟩
    | succ i =>
      rw [List.getElem?_cons_succ] at hu
      obtain ⟨c, r', a1, a2⟩ := ih (k + 1) rs h3 i u hu
      exact ⟨c, r', by rw [← a1]; congr 1; omega, a2⟩

theorem mpxLoop_inv (env : Env) (delay : Nat → Int) (num : Nat) (clock : Nat → Int) (fuel : Nat) (reader : MPXReader F)
    (ms : List (MpxChannel L)) (q : List (MpxChannel L) × List (Nat × Trace))
    (h : mpxLoop ar L env delay num clock fuel reader ms = some q) :
    ∀ i m, ms[i]? = some m → ∃ chunks r, mpxChunks clock i fuel reader = some chunks ∧
      channelTurns ar L env delay num m chunks = some r := by
  induction fuel generalizing reader ms q with
  | zero => cases h
  | succ fuel ih =>
    rw [mpxLoop] at h
    intro i m hm
    by_cases he : reader.isEof = true
    · exact ⟨[], (m, []), by rw [mpxChunks, if_pos he], rfl⟩
    · rw [if_neg he] at h
      obtain ⟨r, h1, h⟩ := Option.bind_eq_some_iff.mp h
      obtain ⟨rs, h2, h⟩ := Option.bind_eq_some_iff.mp h
      have hinv := channelsTurn_inv ar L env delay num (clock fuel) reader.fillBuffer ms 0 r h1
      obtain ⟨chunk, u, a1, a2⟩ := hinv i m hm
      obtain ⟨ms', tr, b1, -, -, b4⟩ := channelsTurn_spec ar L env delay num (clock fuel) reader.fillBuffer ms 0 hinv
      rw [b1] at h1
      cases h1
      obtain ⟨c1, -⟩ := b4 i m chunk u hm a1 a2
      rw [Nat.zero_add] at a1
      obtain ⟨chunks, v, d1, d2⟩ := ih reader.fillBuffer ms' rs h2 i u.1 c1
      refine ⟨(clock fuel, chunk) :: chunks, (v.1, u.2 ++ v.2), ?_, ?_⟩
      · rw [mpxChunks, if_neg he, a1]
        dsimp only [Option.bind_eq_bind, Option.bind_some]
        rw [d1]
        rfl
      · rw [channelTurns, a2]
        dsimp only [Option.bind_eq_bind, Option.bind_some]
        rw [d2]
        rfl

theorem flushChannels_inv (env : Env) (now : Nat → Nat → Int) (ms : List (MpxChannel L)) (k : Nat)
    (tr : List (Nat × Trace)) (h : flushChannels L env now k ms = some tr) :
      (∀ i, i < k → ofChannel i tr = []) ∧
      ∀ i m, ms[i]? = some m → ∃ r, m.channel.flush env (now (k + i)) = some r ∧
        ofChannel (k + i) tr = r.2.map .handled := by
  induction ms generalizing k tr with
  | nil =>
    cases h
    exact ⟨fun _ _ => rfl, by intro i m h; simp at h⟩
  | cons m ms ih =>
    rw [flushChannels] at h
    obtain ⟨r, h1, h⟩ := Option.bind_eq_some_iff.mp h
    obtain ⟨rs, h2, h⟩ := Option.bind_eq_some_iff.mp h
    have := Option.some.inj h
    subst this
    obtain ⟨e2, e3⟩ := ih (k + 1) rs h2
    have hm : (r.2.map fun h => (k, Trace.handled h)) = (r.2.map Trace.handled).map fun t => (k, t) := by
      rw [List.map_map]
      rfl
    refine ⟨?_, ?_⟩
    · intro i hi
      rw [ofChannel_append, hm, ofChannel_other i k (by omega), e2 i (by omega)]
      rfl
    · intro i u hu
      cases i with
      | zero =>
        simp only [List.getElem?_cons_zero, Option.some.injEq] at hu
        subst hu
        refine ⟨r, h1, ?_⟩
        rw [Nat.add_zero, ofChannel_append, hm, ofChannel_same, e2 k (by omega), List.append_nil]
      | succ i =>
        rw [List.getElem?_cons_succ] at hu
        obtain ⟨q, a1, a2⟩ := e3 i u hu
        refine ⟨q, by rw [← a1]; congr 2; omega, ?_⟩
        rw [ofChannel_append, hm, ofChannel_other _ k (by omega), List.nil_append, ← a2]
        congr 1
        omega

/-- What happens in a channel: its turns, and `flush`. -/
theorem processMPXInput_channel (env : Env) (delay : Nat → Int) (o : Options) (resampling : Bool) (clock : Nat → Int)
    (now : Nat → Nat → Int) (fuel channels : Nat) (file : List F) (tr : List (Nat × Trace))
    (h : processMPXInput ar L env delay o resampling clock now fuel channels file = some tr) (ch : Nat)
    (hch : ch < channels) :
    ∃ chunks r f, mpxChunks clock ch fuel (MPXReader.init channels file) = some chunks ∧
      channelTurns ar L env delay (if o.streams then 4 else 1)
        ⟨SubcarrierSet.new ar L resampling, Channel.new o ch⟩ chunks = some r ∧
      r.1.channel.flush env (now ch) = some f ∧ ofChannel ch tr = r.2 ++ f.2.map .handled := by
  unfold processMPXInput at h
  obtain ⟨q, h1, h⟩ := Option.bind_eq_some_iff.mp h
  obtain ⟨tf, h2, h⟩ := Option.bind_eq_some_iff.mp h
  have := Option.some.inj h
  subst this
  have hget : ((List.range channels).map fun ch =>
      (⟨SubcarrierSet.new ar L resampling, Channel.new o ch⟩ : MpxChannel L))[ch]? =
      some ⟨SubcarrierSet.new ar L resampling, Channel.new o ch⟩ := by
    rw [List.getElem?_map, List.getElem?_range hch]
    rfl
  have hinv := mpxLoop_inv ar L env delay _ clock fuel _ _ q h1
  obtain ⟨chunks, r, a1, a2⟩ := hinv ch _ hget
  obtain ⟨ms', tr, b1, -, b3⟩ := mpxLoop_spec ar L env delay _ clock fuel _ _ (by
    intro h0
    rw [h0] at hget
    cases hget) hinv
  rw [b1] at h1
  cases h1
  obtain ⟨c1, c2⟩ := b3 ch _ chunks r hget a1 a2
  obtain ⟨-, d2⟩ := flushChannels_inv L env now ms' 0 tf h2
  obtain ⟨f, f1, f2⟩ := d2 ch r.1 c1
  rw [Nat.zero_add] at f1 f2
  exact ⟨chunks, r, f, a1, a2, f1, by rw [ofChannel_append, c2, f2]⟩

end Redsea
