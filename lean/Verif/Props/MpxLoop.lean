import Verif.Lemmas.MpxChannels
import Verif.Props.EndToEnd

/-
C73: the main loop for MPX input.
-/

namespace Redsea
open _root_.Spec _root_.Redsea.Spec BlockStream

variable {F C : Type} (ar : Arith F) (L : Liquid F C)

/-- What happens in one channel, told as calls of the functions of `Channel`, with single bits: the bits of the streams,
resets, and `flush` in the end. (C60 and the other properties of a channel apply to these.) `samples` are those that
belong to the channel. -/
structure ChannelStory (env : Env) (delay : Nat → Int) (o : Options) (resampling : Bool) (now : Nat → Int) (num ch : Nat)
    (samples : List F) (tr : List Trace) (es : List ChannelEvent) : Prop where
  calls : ∀ e ∈ es, e.OneBit num
  run : ∃ c, Channel.run env delay (Channel.new o ch) (es ++ [.flush now]) = some (c, tr)
  /-- A reset only happens after 11876 bits of stream 0 (10 seconds) without any group. -/
  reasons : ∀ before after, es = before ++ .resetPI :: after → 11876 ≤ (fedBits 0 before).length ∧
    ∀ bs bit rest, fedBits 0 before = bs ++ bit :: rest → rest.length < 11876 → deliveredAt o.useFec bs bit = none
  /-- The samples are divided into stretches by the resets. A stretch that ends with a reset has more than 855000
  samples (5 seconds). The bits of each stream are those of its symbols. (For the first 2^32 samples, see C72.) -/
  bits : (atTargetRate L resampling samples).length ≤ 2 ^ 32 → ∃ stretches : List (List F),
    stretches.length = numResets es + 1 ∧ stretches.flatten = atTargetRate L resampling samples ∧
    (∀ xs ∈ stretches.dropLast, 855000 < xs.length) ∧
    ∀ n, n < num → ∃ b out, BiphaseDecoder.run ar (BiphaseDecoder.new ar)
        (((Front.new L).symbolsOver L n stretches).map L.real) = some (b, out) ∧
      fedBits n es = (demodBits out).map (· != 0)

theorem apart_all (stretches : List (List F)) (h : Apart 0 stretches) :
    ∀ xs ∈ stretches.dropLast, 855000 < xs.length := by
  induction stretches with
  | nil => intro xs hxs; cases hxs
  | cons ys rest ih =>
    intro xs hxs
    cases rest with
    | nil => cases hxs
    | cons zs rest =>
      rw [List.dropLast_cons_cons] at hxs
      rcases List.mem_cons.mp hxs with rfl | hxs
      · have := h.1 (by simp)
        omega
      · exact ih h.2 xs hxs

/-- **C73**: the main loop never fails, and every channel has its own story: it depends on the samples of this channel
only (C42 tells which these are). -/
theorem C73_channel_stories (env : Env) (hk : env.tmc.KeysOk) (delay : Nat → Int) (o : Options) (resampling : Bool)
    (hL : resampling = true → KeepsRate L) (clock : Nat → Int) (now : Nat → Nat → Int) (channels : Nat)
    (h1 : 1 ≤ channels) (h32 : channels ≤ 32) (file : List F) :
    ∃ tr, processMPXInput ar L env delay o resampling clock now (file.length + 2) channels file = some tr ∧
      ∀ ch, ch < channels → ∃ samples es,
        mpxSamples ch (file.length + 2) (MPXReader.init channels file) = some samples ∧
        ChannelStory ar L env delay o resampling (now ch) (if o.streams then 4 else 1) ch samples (ofChannel ch tr) es := by
  generalize hnum : (if o.streams then 4 else 1) = num
  have hn4 : num ≤ 4 := by
    rw [← hnum]
    split <;> omega
  generalize hms : ((List.range channels).map fun ch =>
    (⟨SubcarrierSet.new ar L resampling, Channel.new o ch⟩ : MpxChannel L)) = ms
  have hget : ∀ i m, ms[i]? = some m → i < channels ∧ m = ⟨SubcarrierSet.new ar L resampling, Channel.new o i⟩ := by
    intro i m hm
    rw [← hms, List.getElem?_map] at hm
    by_cases hi : i < channels
    · rw [List.getElem?_range hi] at hm
      exact ⟨hi, (Option.some.inj hm).symm⟩
    · rw [List.getElem?_eq_none (by rw [List.length_range]; omega)] at hm
      cases hm
  have hget' : ∀ i, i < channels → ms[i]? = some ⟨SubcarrierSet.new ar L resampling, Channel.new o i⟩ := by
    intro i hi
    rw [← hms, List.getElem?_map, List.getElem?_range hi]
    rfl
  have hgood : ∀ i, (⟨SubcarrierSet.new ar L resampling, Channel.new o i⟩ : MpxChannel L).Good L :=
    fun i => ⟨by show (List.replicate 4 _).length = 4; rw [List.length_replicate], new_ok ar L resampling, hL,
      channel_new_good o i⟩
  have hchunks : ∀ i, i < channels → ∃ chunks, mpxChunks clock i (file.length + 2) (MPXReader.init channels file) =
      some chunks ∧ ∀ c ∈ chunks, c.2.length ≤ 8192 := by
    intro i hi
    obtain ⟨full, last, -, -, -, h⟩ := C42_deinterleave_partial channels i h1 h32 hi file
    rw [mpxChunks_samples clock] at h
    obtain ⟨chunks, hc, -⟩ := Option.map_eq_some_iff.mp h
    refine ⟨chunks, hc, mpxChunks_small clock i _ _ ?_ chunks hc⟩
    show mpxChunkSize channels ≤ 8192
    rw [(mpxChunkSize_spec channels h1 h32).2.2]
    exact Nat.div_mul_le_self _ _
  have hturns := fun i chunks (hc : ∀ c ∈ chunks, c.2.length ≤ 8192) =>
    channelTurns_spec ar L env hk delay num hn4 chunks hc _ (hgood i)
  obtain ⟨ms', tr, e1, e2, e3⟩ := mpxLoop_spec ar L env delay num clock (file.length + 2) (MPXReader.init channels file) ms
    (by
      intro h0
      have := hget' 0 h1
      rw [h0] at this
      cases this) (by
    intro i m hm
    obtain ⟨hi, rfl⟩ := hget i m hm
    obtain ⟨chunks, hc, hs⟩ := hchunks i hi
    obtain ⟨m', t, es, ht, -⟩ := hturns i chunks hs
    exact ⟨chunks, (m', t), hc, ht⟩)
  have hgood' : ∀ m ∈ ms', m.channel.Good := by
    intro m hm
    obtain ⟨i, hi, rfl⟩ := List.getElem_of_mem hm
    have hi' : i < channels := by
      rw [e2, ← hms, List.length_map, List.length_range] at hi
      exact hi
    obtain ⟨chunks, hc, hs⟩ := hchunks i hi'
    obtain ⟨m', t, es, ht, hg, -⟩ := hturns i chunks hs
    obtain ⟨f1, -⟩ := e3 i _ chunks (m', t) (hget' i hi') hc ht
    rw [List.getElem?_eq_getElem hi] at f1
    rw [Option.some.inj f1]
    exact hg.channel
  obtain ⟨tf, g1, -, g3⟩ := flushChannels_spec L env hk now ms' 0 hgood'
  refine ⟨tr ++ tf, ?_, ?_⟩
  · unfold processMPXInput
    dsimp only
    rw [hnum, hms, e1]
    dsimp only [Option.bind_eq_bind, Option.bind_some]
    rw [g1]
    rfl
  · intro ch hch
    obtain ⟨chunks, hc, hs⟩ := hchunks ch hch
    obtain ⟨m', t, es, ht, hg, hrun, hj, hone, hbits⟩ := hturns ch chunks hs
    obtain ⟨f1, f2⟩ := e3 ch _ chunks (m', t) (hget' ch hch) hc ht
    obtain ⟨r, r1, r2⟩ := g3 ch m' f1
    rw [Nat.zero_add] at r1 r2
    refine ⟨chunks.flatMap fun c => c.2, es, by rw [mpxChunks_samples clock, hc]; rfl, hone, ?_, ?_, ?_⟩
    · refine ⟨r.1, ?_⟩
      rw [run_run, hrun, ofChannel_append, f2, r2]
      dsimp only [Option.bind_some]
      rw [Channel.run, Channel.step, r1]
      simp [Channel.run]
    · intro before after hsplit
      have hrun' := hrun
      rw [hsplit, run_run] at hrun'
      obtain ⟨q, hq, -⟩ := Option.bind_eq_some_iff.mp hrun'
      obtain ⟨s, h1, h2⟩ := justified_at before after _ (hsplit ▸ hj) q hq
      rw [run_streams before hq 0 (by omega)] at h1
      have := Option.some.inj h1
      subst this
      have hspan := (lost_span o.useFec (fedBits 0 before)).2
      refine ⟨(hspan 11875 h2).1, ?_⟩
      intro bs bit rest hb hr
      obtain ⟨-, hout⟩ := hspan rest.length (by omega)
      have htake : (fedBits 0 before).take ((fedBits 0 before).length - rest.length) = bs ++ [bit] := by
        rw [hb, show bs ++ bit :: rest = (bs ++ [bit]) ++ rest by simp]
        rw [List.take_append_of_le_length (by simp; omega), List.take_of_length_le (by simp; omega)]
      rw [htake] at hout
      cases hd : deliveredAt o.useFec bs bit with
      | none => rfl
      | some g =>
        have := (delivered_boundary hd).1.sync
        rw [hout] at this
        cases this
    · intro hlen
      obtain ⟨st, b1, b2, b3, b4⟩ := hbits 0 rfl (by rw [Nat.zero_add]; exact hlen)
      refine ⟨st, b1, b2, apart_all st b3, ?_⟩
      intro n hn
      have hd : (SubcarrierSet.new ar L resampling).demods[n]? = some (Demod.new ar L) :=
        List.getElem?_replicate_of_lt (by omega)
      obtain ⟨d', hd'⟩ := b4 n _ hn hd
      obtain ⟨b, out, c1, c2⟩ := demodOver_symbols ar L n st _
        (new_ok ar L resampling _ (List.mem_of_getElem? hd)) _ hd'
      exact ⟨b, out, c1, c2⟩

/-- **C73**: what happens in a channel depends on the chunks of this channel only: two recordings that agree in them,
whatever the number and the contents of the other channels, give the same. -/
theorem C73_separate (env : Env) (delay : Nat → Int) (o : Options) (resampling : Bool) (clock : Nat → Int)
    (now : Nat → Nat → Int) (n1 n2 : Nat) (f1 f2 : List F) (ch : Nat) (h1 : ch < n1) (h2 : ch < n2) (fuel : Nat)
    (hsame : mpxChunks clock ch fuel (MPXReader.init n1 f1) = mpxChunks clock ch fuel (MPXReader.init n2 f2))
    (tr1 tr2 : List (Nat × Trace))
    (hr1 : processMPXInput ar L env delay o resampling clock now fuel n1 f1 = some tr1)
    (hr2 : processMPXInput ar L env delay o resampling clock now fuel n2 f2 = some tr2) :
    ofChannel ch tr1 = ofChannel ch tr2 := by
  obtain ⟨c1, r1, g1, a1, a2, a3, a4⟩ := processMPXInput_channel ar L env delay o resampling clock now fuel n1 f1 tr1 hr1 ch h1
  obtain ⟨c2, r2, g2, b1, b2, b3, b4⟩ := processMPXInput_channel ar L env delay o resampling clock now fuel n2 f2 tr2 hr2 ch h2
  rw [hsame, b1] at a1
  cases a1
  rw [b2] at a2
  cases a2
  rw [b3] at a3
  cases a3
  rw [a4, b4]

/-! ### From samples to lines -/

/-- Calls can be divided after any bit of stream 0. -/
theorem split_calls (es : List ChannelEvent) (h : ∀ e ∈ es, e.OneBit 1) (x y : List Bool) (hf : fedBits 0 es = x ++ y) :
    ∃ a b, es = a ++ b ∧ fedBits 0 a = x ∧ fedBits 0 b = y ∧
      ∀ u v, a = u ++ .resetPI :: v → fedBits 0 v ≠ [] := by
  induction es generalizing x with
  | nil =>
    have : x = [] ∧ y = [] := by
      have : x ++ y = [] := hf.symm
      exact List.append_eq_nil_iff.mp this
    exact ⟨[], [], rfl, this.1.symm, this.2.symm, by intro u v h; simp at h⟩
  | cons e es ih =>
    by_cases hx : x = []
    · subst hx
      exact ⟨[], e :: es, rfl, rfl, hf, by intro u v h; simp at h⟩
    · obtain ⟨x0, xs, rfl⟩ := List.exists_cons_of_ne_nil hx
      have he := h e (by simp)
      have ih := ih fun u hu => h u (by simp [hu])
      have hcons : fedBits 0 (e :: es) = e.bitsFor 0 ++ fedBits 0 es := rfl
      rw [hcons] at hf
      cases e with
      | bit => cases he
      | group => cases he
      | flush => cases he
      | resetPI =>
        obtain ⟨a, b, h1, h2, h3, h4⟩ := ih (x0 :: xs) hf
        refine ⟨.resetPI :: a, b, by rw [h1]; rfl, h2, h3, ?_⟩
        intro u v huv
        cases u with
        | nil =>
          simp only [List.nil_append, List.cons.injEq] at huv
          rw [← huv.2, h2]
          simp
        | cons u0 u =>
          simp only [List.cons_append, List.cons.injEq] at huv
          exact h4 u v huv.2
      | bits t l s =>
        obtain ⟨he1, he2⟩ : l.length = 1 ∧ s < 1 := he
        obtain rfl : s = 0 := by omega
        obtain ⟨l0, rfl⟩ := List.length_eq_one_iff.mp he1
        rw [show ChannelEvent.bitsFor 0 (.bits t [l0] 0) = [l0] from rfl] at hf
        simp only [List.cons_append, List.nil_append, List.cons.injEq] at hf
        obtain ⟨rfl, hf⟩ := hf
        obtain ⟨a, b, h1, h2, h3, h4⟩ := ih xs hf
        refine ⟨.bits t [l0] 0 :: a, b, by rw [h1]; rfl, ?_, h3, ?_⟩
        · show [l0] ++ fedBits 0 a = l0 :: xs
          rw [h2]
          rfl
        · intro u v huv
          cases u with
          | nil => simp at huv
          | cons u0 u =>
            simp only [List.cons_append, List.cons.injEq] at huv
            exact h4 u v huv.2

theorem take_flatMap_length {α β : Type} (f : α → List β) (w : Nat) (l : List α) (h : ∀ a ∈ l, (f a).length = w) (k : Nat) :
    (l.flatMap f).take (w * k) = (l.take k).flatMap f := by
  induction l generalizing k with
  | nil => simp
  | cons a l ih =>
    cases k with
    | zero => simp
    | succ k =>
      rw [List.flatMap_cons, List.take_succ_cons, List.flatMap_cons, Nat.mul_succ, Nat.add_comm, List.take_append,
        h a (by simp), List.take_of_length_le (by rw [h a (by simp)]; omega), Nat.add_sub_cancel_left,
        ih fun b hb => h b (by simp [hb])]

theorem damaged_length (t : TxGroup) (e : Damage) : (t.damagedBits e).length = 104 := by
  unfold TxGroup.damagedBits
  simp only [List.length_append, bitsMSB_length]

/-- The lines of a history, group by group. -/
def linesOf (tr : List Trace) : List (Option Line) :=
  tr.filterMap fun t => match t with
    | .handled h => some h.line
    | .reset => none

/-- **C73** with C70, for single-stream RDS: if the bits of a channel (see `ChannelStory.bits`) contain, after a bit
with which a group is complete, the bits of the groups `sent` by a station, with errors that can be corrected, then no
reset happens among them, and the lines of these groups are among those printed: they form a reception to which all
theorems of C70 apply. -/
theorem C73_reception (env : Env) (delay : Nat → Int) (o : Options) (resampling : Bool) (now : Nat → Int) (ch : Nat)
    (samples : List F) (tr : List Trace) (es : List ChannelEvent)
    (story : ChannelStory ar L env delay o resampling now 1 ch samples tr es)
    (pre : List Bool) (bit : Bool) (g : Group) (p : Word) (sent : List (Broadcast × Damage)) (later : List Bool)
    (hbits : fedBits 0 es = (pre ++ [bit]) ++ ((sent.flatMap fun q => (q.1.onAir p).damagedBits q.2) ++ later))
    (hsync : deliveredAt o.useFec pre bit = some g) (hsend : ∀ q ∈ sent, q.1.Sendable p)
    (hrep : ∀ q ∈ sent, Repairable o.useFec (q.1.onAir p) q.2)
    (htol : ∀ k, let log := checkLog o.useFec (pre ++ [bit]) ++ (sent.flatMap fun q => q.2.hits).take k
      (log.drop (log.length - 50)).sum ≤ 42) :
    ∃ past calls before lines after, Reception o past calls p sent ∧
      linesDuring env delay o ch past calls = some lines ∧ linesOf tr = before ++ lines ++ after := by
  obtain ⟨past, rest, hes, hpast, hrest, -⟩ := split_calls es story.calls _ _ hbits
  obtain ⟨calls, tail, hrest2, hcalls, htail, hlast⟩ := split_calls rest
    (fun e he => story.calls e (by rw [hes]; simp [he])) _ _ hrest
  -- no reset
  have hno : ∀ u v, calls ≠ u ++ .resetPI :: v := by
    intro u v huv
    obtain ⟨-, hnone⟩ := story.reasons (past ++ u) (v ++ tail) (by rw [hes, hrest2, huv]; simp)
    rw [fedBits_append, hpast] at hnone
    -- the part of the groups before the reset
    have hx : (sent.flatMap fun q => (q.1.onAir p).damagedBits q.2) = fedBits 0 u ++ fedBits 0 v := by
      rw [← hcalls, huv, fedBits_append]
      rfl
    have htake : (sent.take ((fedBits 0 u).length / 104)).flatMap (fun q => (q.1.onAir p).damagedBits q.2) =
        (fedBits 0 u).take (104 * ((fedBits 0 u).length / 104)) := by
      rw [← take_flatMap_length _ 104 sent fun q _ => damaged_length _ _, hx,
        List.take_append_of_le_length (Nat.mul_div_le _ _)]
    by_cases hk0 : (fedBits 0 u).length / 104 = 0
    · -- no group yet
      have := hnone pre bit (fedBits 0 u) (by simp) (by omega)
      rw [hsync] at this
      cases this
    · obtain ⟨k, hk⟩ := Nat.exists_eq_succ_of_ne_zero hk0
      rw [hk] at htake
      have hlen : (fedBits 0 u).length ≤ 104 * sent.length := by
        have h1 := congrArg List.length hx
        have h2 := congrArg List.length (take_flatMap_length (fun q : Broadcast × Damage =>
          (q.1.onAir p).damagedBits q.2) 104 sent (fun q _ => damaged_length _ _) sent.length)
        rw [List.take_length, List.length_take] at h2
        rw [List.length_append] at h1
        have h3 := Nat.min_le_left (104 * sent.length) (sent.flatMap fun q => (q.1.onAir p).damagedBits q.2).length
        omega
      have hks : k < sent.length := by omega
      obtain ⟨a1, a2, -⟩ := delivered_boundary hsync
      have htol' : ∀ j, (errWindow (checkLog o.useFec (pre ++ [bit]) ++ (sent.flatMap fun q => q.2.hits).take j)).sum ≤ 42 := by
        intro j
        rw [errWindow_sum]
        exact htol j
      obtain ⟨t, hr, b1, b2, b3⟩ := run_groups (fec := o.useFec) ((sent.take k).map fun q => (q.1.onAir p, q.2))
        (stateAfter o.useFec (pre ++ [bit])) (checkLog o.useFec (pre ++ [bit])) a1 a2 (by
          intro q hq
          obtain ⟨q0, hq0, rfl⟩ := List.mem_map.mp hq
          exact (hrep q0 (List.mem_of_mem_take hq0)).acceptable) (inv_stateAfter o.useFec (pre ++ [bit])).rot
        (by
          intro j
          have := htol' (min j (4 * k))
          rw [List.flatMap_map, ← take_flatMap_length (fun q : Broadcast × Damage => q.2.hits) 4 sent (fun _ _ => rfl) k,
            List.take_take]
          exact this)
      have hone := hrep sent[k] (List.getElem_mem hks)
      obtain ⟨t2, hr2, -⟩ := run_groups (fec := o.useFec) [((sent[k]).1.onAir p, (sent[k]).2)] t _ b1 b2 (by
          intro q hq
          rw [List.mem_singleton.mp hq]
          exact hone.acceptable) b3
        (by
          intro j
          have := htol' (4 * k + min j 4)
          have e : (sent.flatMap fun q => q.2.hits).take (4 * k + min j 4) =
              ((sent.take k).flatMap fun q => q.2.hits) ++ ((sent[k]).2.hits).take j := by
            rw [List.take_add, take_flatMap_length (fun q : Broadcast × Damage => q.2.hits) 4 sent (fun _ _ => rfl) k]
            congr 1
            have h4 := take_flatMap_length (fun q : Broadcast × Damage => q.2.hits) 4 sent (fun _ _ => rfl) (k + 1)
            rw [List.take_add_one, List.getElem?_eq_getElem hks, List.flatMap_append, Nat.mul_succ, List.take_add,
              take_flatMap_length (fun q : Broadcast × Damage => q.2.hits) 4 sent (fun _ _ => rfl) k] at h4
            have h5 := List.append_cancel_left h4
            rw [show min j 4 = min j 4 from rfl, ← List.take_take, h5]
            simp
          rw [e] at this
          simp only [List.flatMap_map, List.flatMap_cons, List.flatMap_nil, List.append_nil]
          rw [List.append_assoc]
          exact this)
      simp only [List.flatMap_map, List.flatMap_cons, List.flatMap_nil, List.append_nil, List.map_cons, List.map_nil]
        at hr hr2
      have hmem : rxGroup ((sent[k]).1.onAir p) (sent[k]).2 ∈ (run o.useFec t (((sent[k]).1.onAir p).damagedBits (sent[k]).2)).2 := by
        rw [hr2]
        simp
      obtain ⟨x1, c, x2, hx1, hx2⟩ := (mem_run_iff _ _ _ _).mp hmem
      have hsplit : fedBits 0 u = ((sent.take k).flatMap fun q => (q.1.onAir p).damagedBits q.2) ++ (x1 ++ c :: x2) ++
          (fedBits 0 u).drop (104 * (k + 1)) := by
        conv => lhs; rw [← List.take_append_drop (104 * (k + 1)) (fedBits 0 u)]
        rw [← htake, List.take_add_one, List.getElem?_eq_getElem hks, List.flatMap_append, ← hx1]
        simp
      have hd := hnone (pre ++ [bit] ++ ((sent.take k).flatMap fun q => (q.1.onAir p).damagedBits q.2) ++ x1) c
        (x2 ++ (fedBits 0 u).drop (104 * (k + 1))) (by
          conv => lhs; rw [hsplit]
          simp) (by
          have h1 := congrArg List.length hx1
          rw [damaged_length, List.length_append, List.length_cons] at h1
          rw [List.length_append, List.length_drop]
          omega)
      have : deliveredAt o.useFec (pre ++ [bit] ++ ((sent.take k).flatMap fun q => (q.1.onAir p).damagedBits q.2) ++ x1) c =
          some (rxGroup ((sent[k]).1.onAir p) (sent[k]).2) := by
        rw [← hx2]
        unfold deliveredAt
        congr 2
        show (run _ _ _).1 = _
        rw [run_append, run_append]
        show (run _ (run _ (stateAfter _ (pre ++ [bit])) _).1 _).1 = _
        rw [hr]
      rw [hd] at this
      cases this
  have hone : ∀ e ∈ calls, e.OneBit 1 := fun e he => story.calls e (by rw [hes, hrest2]; simp [he])
  have honly : ∀ e ∈ calls, e.OnlyBits := by
    intro e he
    have h1 := hone e he
    cases e with
    | bit => cases h1
    | group => cases h1
    | flush => cases h1
    | resetPI =>
      obtain ⟨u, v, huv⟩ := List.append_of_mem he
      exact absurd huv (hno u v)
    | bits t l s =>
      obtain ⟨-, h2⟩ : l.length = 1 ∧ s < 1 := h1
      show s = 0
      omega
  have hval : ∀ e ∈ past, e.Valid := by
    intro e he
    have h1 := story.calls e (by rw [hes]; simp [he])
    cases e with
    | bit => cases h1
    | group => cases h1
    | flush => cases h1
    | resetPI => trivial
    | bits t l s =>
      obtain ⟨-, h2⟩ : l.length = 1 ∧ s < 1 := h1
      show s < 4
      omega
  obtain ⟨cEnd, hrun⟩ := story.run
  rw [hes, hrest2, List.append_assoc, List.append_assoc, run_run] at hrun
  obtain ⟨r0, h0, hrun⟩ := Option.bind_eq_some_iff.mp hrun
  obtain ⟨q1, h1, hq1⟩ := Option.map_eq_some_iff.mp hrun
  rw [run_run] at h1
  obtain ⟨r1, h2, h1⟩ := Option.bind_eq_some_iff.mp h1
  obtain ⟨q2, h3, hq2⟩ := Option.map_eq_some_iff.mp h1
  refine ⟨past, calls, linesOf r0.2, linesOf r1.2, linesOf q2.2, ⟨hval, ⟨pre, bit, g, hpast, hsync⟩, honly, hcalls, hsend,
    hrep, by rw [hpast]; exact htol⟩, ?_, ?_⟩
  · unfold linesDuring
    rw [h0]
    dsimp only [Option.bind_eq_bind, Option.bind_some]
    rw [h2]
    rfl
  · have := congrArg Prod.snd hq1
    rw [← hq2] at this
    dsimp only at this
    rw [← this]
    unfold linesOf
    rw [List.filterMap_append, List.filterMap_append, List.append_assoc]

/-- In the first 5 seconds there is no reset. -/
theorem ChannelStory.short {ar : Arith F} {L : Liquid F C} {env : Env} {delay : Nat → Int} {o : Options}
    {resampling : Bool} {now : Nat → Int} {num ch : Nat} {samples : List F} {tr : List Trace} {es : List ChannelEvent}
    (story : ChannelStory ar L env delay o resampling now num ch samples tr es)
    (hshort : (atTargetRate L resampling samples).length ≤ 855000) :
    numResets es = 0 ∧ ∀ n, n < num → ∃ b out, BiphaseDecoder.run ar (BiphaseDecoder.new ar)
        (((Front.new L).symbols L n 0 (atTargetRate L resampling samples)).map L.real) = some (b, out) ∧
      fedBits n es = (demodBits out).map (· != 0) := by
  obtain ⟨stretches, h1, h2, h3, h4⟩ := story.bits (by omega)
  have h0 : numResets es = 0 := by
    cases stretches with
    | nil => simp at h1
    | cons xs rest =>
      cases rest with
      | nil => simp at h1; omega
      | cons ys rest =>
        have := h3 xs (by rw [List.dropLast_cons_cons]; simp)
        have h5 := congrArg List.length h2
        rw [List.flatten_cons, List.length_append] at h5
        omega
  refine ⟨h0, ?_⟩
  rw [h0] at h1
  obtain ⟨xs, rfl⟩ := List.length_eq_one_iff.mp h1
  have hx : xs = atTargetRate L resampling samples := by simpa using h2
  subst hx
  intro n hn
  obtain ⟨b, out, e1, e2⟩ := h4 n hn
  have hov : (Front.new L).symbolsOver L n [atTargetRate L resampling samples] =
      (Front.new L).symbols L n 0 (atTargetRate L resampling samples) := by
    show _ ++ [] = _
    rw [List.append_nil]
  rw [hov] at e1
  exact ⟨b, out, e1, e2⟩

/-- **C73** with C61, up to 5 seconds: if the symbols of a stream are an ideal signal of the bits `sent`, there is no
reset, and these bits, after the first 65, are the bits of the channel. -/
theorem C73_ideal_symbols {C : Type} (L : Liquid Int C) (env : Env) (delay : Nat → Int) (o : Options) (resampling : Bool)
    (now : Nat → Int) (num ch : Nat) (samples : List Int) (tr : List Trace) (es : List ChannelEvent)
    (story : ChannelStory exactArith L env delay o resampling now num ch samples tr es)
    (hshort : (atTargetRate L resampling samples).length ≤ 855000) (n : Nat) (hn : n < num) (a : Int) (ha : 0 < a)
    (p : Bool) (sent : List Bool) (h65 : 65 ≤ sent.length)
    (hsym : ((Front.new L).symbols L n 0 (atTargetRate L resampling samples)).map L.real =
      biphaseEncode a (diffEncode p sent)) :
    numResets es = 0 ∧ (fedBits n es).length = sent.length ∧ (fedBits n es).drop 65 = sent.drop 65 := by
  obtain ⟨h0, h⟩ := story.short hshort
  refine ⟨h0, ?_⟩
  obtain ⟨b, out, e1, e2⟩ := h n hn
  obtain ⟨d', out', e3, e4, e5⟩ := C61_ideal_signal a ha p sent h65
  rw [hsym, e3] at e1
  cases e1
  rw [e2, List.length_map, ← List.map_drop]
  refine ⟨e4, ?_⟩
  rw [e5, List.map_map]
  conv => rhs; rw [← List.map_id (sent.drop 65)]
  congr 1
  funext b
  cases b <;> rfl

/-! ### Examples -/

theorem demo_quiet (x : Int) (rest : List Int) (k m : Nat) (f : Front demoLiquid) :
    ∀ j, 1 ≤ j → j + m = 24 → ∃ f', (f.symbols demoLiquid 0 (24 * k + j) (List.replicate m x ++ rest)) =
      Front.symbols demoLiquid 0 (24 * (k + 1)) f' rest := by
  induction m generalizing f with
  | zero =>
    intro j _ h
    exact ⟨f, by rw [show 24 * k + j = 24 * (k + 1) by omega]; rfl⟩
  | succ m ih =>
    intro j h1 h2
    rw [List.replicate_succ, List.cons_append, Front.symbols]
    obtain ⟨f', h⟩ := ih (f.step demoLiquid 0 (24 * k + j) x).1 (j + 1) (by omega) (by omega)
    refine ⟨f', ?_⟩
    have : (f.step demoLiquid 0 (24 * k + j) x).2 = none := by
      unfold Front.step
      dsimp only
      rw [if_neg (by omega)]
    rw [this, Nat.add_assoc, h]
    rfl

/-- The symbols of a signal whose symbols last 24 samples each. -/
theorem demo_symbols (ys : List Int) (k : Nat) (f : Front demoLiquid) :
    (f.symbols demoLiquid 0 (24 * k) (ys.flatMap fun y => List.replicate 24 y)).map demoLiquid.real = ys := by
  induction ys generalizing k f with
  | nil => rfl
  | cons y ys ih =>
    rw [List.flatMap_cons, List.replicate_succ, List.cons_append, Front.symbols]
    obtain ⟨f', h⟩ := demo_quiet y (ys.flatMap fun y => List.replicate 24 y) k 23
      (f.step demoLiquid 0 (24 * k) y).1 1 (by omega) (by omega)
    have : (f.step demoLiquid 0 (24 * k) y).2 = some y := by
      unfold Front.step
      dsimp only
      rw [if_pos (by omega)]
      show (some (y + ((0 : Nat) : Int)) : Option Int) = _
      simp
    rw [h, this]
    exact congrArg (y :: ·) (ih (k + 1) f')

/-- The bits of a station: groups by which the receiver synchronises, two groups more, and one bit. -/
def demoSentBits : List Bool :=
  demoBits ++ (demoBits ++ ((demoSent.take 2).flatMap fun q => (q.1.onAir 0x6204).damagedBits q.2) ++ [true])

/-- A recording with one channel that has these bits. -/
def demoRecording : List Int :=
  (biphaseEncode 5 (diffEncode true demoSentBits)).flatMap fun x => List.replicate 24 x

/-- The bits before the two groups, as they are received: 25 of the first 65 are wrong. -/
def demoReceived : List Bool :=
  (List.range 416).map fun i => demoSentBits.getD i false != [2, 3, 13, 14, 17, 18, 21, 22, 31, 32, 35, 36, 41, 42, 46, 47,
    48, 49, 52, 53, 54, 55, 61, 62, 64].contains i

theorem demo_received : ((BiphaseDecoder.run exactArith (BiphaseDecoder.new exactArith)
      (biphaseEncode 5 (diffEncode true demoSentBits))).map fun r => (demodBits r.2).map (· != 0)) =
    some (demoReceived ++ (((demoSent.take 2).flatMap fun q => (q.1.onAir 0x6204).damagedBits q.2) ++ [true])) := by
  decide +kernel

/-- The hypotheses of `C73_reception` hold for this recording. -/
example : ∃ tr samples es pre bit g, processMPXInput exactArith demoLiquid demoEnv (fun _ => 0) {} false (fun _ => 0)
      (fun _ _ => 0) (demoRecording.length + 2) 1 demoRecording = some tr ∧
    ChannelStory exactArith demoLiquid demoEnv (fun _ => 0) {} false (fun _ => 0) 1 0 samples (ofChannel 0 tr) es ∧
    fedBits 0 es = (pre ++ [bit]) ++ (((demoSent.take 2).flatMap fun q => (q.1.onAir 0x6204).damagedBits q.2) ++ [true]) ∧
    deliveredAt true pre bit = some g := by
  obtain ⟨tr, h1, h2⟩ := C73_channel_stories exactArith demoLiquid demoEnv demoEnv_keys (fun _ => 0) {} false
    (fun h => by cases h) (fun _ => 0) (fun _ _ => 0) 1 (by omega) (by omega) demoRecording
  obtain ⟨samples, es, h3, story⟩ := h2 0 (by omega)
  have hd : (deliveredAt true demoReceived.dropLast (demoReceived.getLastD false)).isSome = true := by decide +kernel
  obtain ⟨g, hg⟩ := Option.isSome_iff_exists.mp hd
  refine ⟨tr, samples, es, demoReceived.dropLast, demoReceived.getLastD false, g, h1, story, ?_, hg⟩
  -- the samples are those of the recording
  rw [(C42_single_channel demoRecording).1, (C42_single_channel demoRecording).2] at h3
  cases h3
  have hlen : demoRecording.length = 24 * (2 * 625) := by
    have h : ∀ ys : List Int, (ys.flatMap fun y => List.replicate 24 y).length = 24 * ys.length := by
      intro ys
      induction ys with
      | nil => rfl
      | cons y ys ih => rw [List.flatMap_cons, List.length_append, ih, List.length_replicate, List.length_cons]; omega
    unfold demoRecording
    have h625 : demoSentBits.length = 625 := by decide +kernel
    rw [h, biphaseEncode_length, diffEncode_length, h625]
  obtain ⟨-, hs⟩ := story.short (by
    show demoRecording.length ≤ 855000
    omega)
  obtain ⟨b, out, e5, e6⟩ := hs 0 (by decide)
  have hsym : ((Front.new demoLiquid).symbols demoLiquid 0 0 (atTargetRate demoLiquid false demoRecording)).map
      demoLiquid.real = biphaseEncode 5 (diffEncode true demoSentBits) := demo_symbols _ 0 _
  have hr := demo_received
  rw [← hsym, e5] at hr
  rw [e6]
  have := Option.some.inj hr
  dsimp only at this
  have hcut : demoReceived.dropLast ++ [demoReceived.getLastD false] = demoReceived := by decide +kernel
  rw [this, hcut]

end Redsea
