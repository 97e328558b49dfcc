import Verif.Spec.Demod
import Verif.Props.Dsp

/-
The demodulator: one subcarrier at a time, and chunks.
-/

namespace Redsea
open _root_.Redsea.Spec

variable {F C : Type} (ar : Arith F) (L : Liquid F C)

/-! ### One subcarrier -/

/-- The biphase decoder stays within its array. -/
def Demod.Ok (d : Demod L) : Prop := d.biphase.clock < d.biphase.history.length

theorem push_ok (d : BiphaseDecoder F) (h : d.clock < d.history.length) (s : F) :
    ∃ d' o, BiphaseDecoder.push ar d s = some (d', o) ∧ d'.clock < d'.history.length := by
  unfold BiphaseDecoder.push
  dsimp only
  rw [if_pos h]
  split
  · rename_i he
    refine ⟨_, _, rfl, ?_⟩
    rw [List.length_map, List.length_set]
    dsimp only
    omega
  · rename_i he
    refine ⟨_, _, rfl, ?_⟩
    rw [List.length_set] at he ⊢
    dsimp only
    omega

/-- One subcarrier alone; the first sample has number `k`. -/
def demodRun (n : Nat) : Nat → Demod L → List F → Option (Demod L × List Bool)
  | _, d, [] => some (d, [])
  | k, d, x :: xs => do
    let r ← d.sample ar L n x (k % 24 == 0)
    let rs ← demodRun n (k + 1) r.1 xs
    pure (rs.1, r.2 ++ rs.2)

/-- What a sample does to the front end, and to the decoders behind it. -/
theorem sample_front (d : Demod L) (hd : d.Ok L) (n k : Nat) (x : F) :
    ∃ d' b, d.sample ar L n x (k % 24 == 0) = some (d', b) ∧ d'.Ok L ∧
      (⟨d.agc, d.fir, d.sym, d.nco, d.modem⟩ : Front L).step L n k x =
        (⟨d'.agc, d'.fir, d'.sym, d'.nco, d'.modem⟩,
          ((⟨d.agc, d.fir, d.sym, d.nco, d.modem⟩ : Front L).step L n k x).2) ∧
      match ((⟨d.agc, d.fir, d.sym, d.nco, d.modem⟩ : Front L).step L n k x).2 with
      | none => b = [] ∧ d'.biphase = d.biphase ∧ d'.delta = d.delta
      | some c => ∃ data valid, BiphaseDecoder.push ar d.biphase (L.real c) = some (d'.biphase, data, valid) ∧
          (valid = true → b = [(deltaDecode d.delta (if data then 1 else 0)).1 != 0] ∧
            d'.delta = (deltaDecode d.delta (if data then 1 else 0)).2) ∧
          (valid = false → b = [] ∧ d'.delta = d.delta) := by
  unfold Demod.sample Front.step
  by_cases hk : k % 24 = 0
  · simp only [hk, if_true, beq_self_eq_true]
    unfold Demod.decimated
    dsimp only
    by_cases h1 : (L.symExecute d.sym (L.agcExecute d.agc (L.firExecute (L.firPush d.fir
        (L.mixDown d.nco x n))).2).2).2.2 = 1
    · simp only [h1, if_true]
      obtain ⟨d', o, hp, hok⟩ := push_ok ar d.biphase hd (L.real (L.symExecute d.sym (L.agcExecute d.agc
        (L.firExecute (L.firPush d.fir (L.mixDown d.nco x n))).2).2).2.1)
      rw [hp]
      dsimp only [Option.bind_eq_bind, Option.bind_some, Option.pure_def]
      obtain ⟨data, valid⟩ := o
      cases valid with
      | true =>
        refine ⟨_, _, rfl, hok, rfl, data, true, rfl, fun _ => ⟨rfl, rfl⟩, fun h => by cases h⟩
      | false =>
        refine ⟨_, _, rfl, hok, rfl, data, false, rfl, fun h => (by cases h), fun _ => ⟨rfl, rfl⟩⟩
    · simp only [h1, if_false]
      exact ⟨_, _, rfl, hd, rfl, rfl, rfl, rfl⟩
  · have hb : (k % 24 == 0) = false := beq_eq_false_iff_ne.mpr hk
    simp only [hk, if_false, hb]
    exact ⟨_, _, rfl, hd, rfl, rfl, rfl, rfl⟩

theorem demodRun_ok (n k : Nat) (d : Demod L) (hd : d.Ok L) (xs : List F) :
    ∃ d' b, demodRun ar L n k d xs = some (d', b) ∧ d'.Ok L := by
  induction xs generalizing k d with
  | nil => exact ⟨d, [], rfl, hd⟩
  | cons x xs ih =>
    obtain ⟨d1, b1, h1, hd1, -⟩ := sample_front ar L d hd n k x
    obtain ⟨d2, b2, h2, hd2⟩ := ih (k + 1) d1 hd1
    refine ⟨d2, b1 ++ b2, ?_, hd2⟩
    rw [demodRun, h1]
    dsimp only [Option.bind_eq_bind, Option.bind_some]
    rw [h2]
    rfl

theorem demodRun_append (n k : Nat) (d : Demod L) (xs ys : List F) (d1 : Demod L) (b1 : List Bool)
    (h : demodRun ar L n k d xs = some (d1, b1)) (d2 : Demod L) (b2 : List Bool)
    (h2 : demodRun ar L n (k + xs.length) d1 ys = some (d2, b2)) :
    demodRun ar L n k d (xs ++ ys) = some (d2, b1 ++ b2) := by
  induction xs generalizing k d b1 with
  | nil =>
    have := Option.some.inj h
    simp only [Prod.mk.injEq] at this
    obtain ⟨rfl, rfl⟩ := this
    exact h2
  | cons x xs ih =>
    rw [demodRun] at h
    obtain ⟨r, hr, h⟩ := Option.bind_eq_some_iff.mp h
    obtain ⟨q, hq, h⟩ := Option.bind_eq_some_iff.mp h
    have := Option.some.inj h
    simp only [Prod.mk.injEq] at this
    obtain ⟨rfl, rfl⟩ := this
    rw [List.cons_append, demodRun, hr]
    dsimp only [Option.bind_eq_bind, Option.bind_some]
    rw [ih (k + 1) r.1 q.2 hq (by rw [← h2]; congr 1; simp only [List.length_cons]; omega)]
    simp

/-- The differential decoder over the valid symbols, from any state. -/
def validBits (p : BitVec 32) (out : List (Bool × Bool)) : List (BitVec 32) :=
  deltaRun p ((out.filter fun o => o.2).map fun o => if o.1 then 1 else 0)

/-- The front end of a demodulator. -/
def Demod.front (d : Demod L) : Front L := ⟨d.agc, d.fir, d.sym, d.nco, d.modem⟩

/-- The bits of a subcarrier are those of its symbols. -/
theorem demodRun_symbols (n k : Nat) (d : Demod L) (hd : d.Ok L) (xs : List F) (d' : Demod L) (b : List Bool)
    (h : demodRun ar L n k d xs = some (d', b)) :
    ∃ out, BiphaseDecoder.run ar d.biphase (((d.front L).symbols L n k xs).map L.real) = some (d'.biphase, out) ∧
      b = (validBits d.delta out).map (· != 0) ∧ d'.front L = (d.front L).after L n k xs ∧
      ∀ more, validBits d.delta (out ++ more) = validBits d.delta out ++ validBits d'.delta more := by
  induction xs generalizing k d b with
  | nil =>
    have := Option.some.inj h
    simp only [Prod.mk.injEq] at this
    obtain ⟨rfl, rfl⟩ := this
    exact ⟨[], rfl, rfl, rfl, fun _ => rfl⟩
  | cons x xs ih =>
    obtain ⟨d1, b1, h1, hd1, hf, hm⟩ := sample_front ar L d hd n k x
    rw [demodRun, h1] at h
    dsimp only [Option.bind_eq_bind, Option.bind_some] at h
    obtain ⟨q, hq, h⟩ := Option.bind_eq_some_iff.mp h
    have := Option.some.inj h
    simp only [Prod.mk.injEq] at this
    obtain ⟨rfl, rfl⟩ := this
    obtain ⟨out, ho, hb, hfr, hmore⟩ := ih (k + 1) d1 hd1 q.2 hq
    rw [Front.symbols, Front.after]
    have hf1 : ((d.front L).step L n k x).1 = d1.front L := congrArg Prod.fst hf
    rw [hf1]
    change match ((d.front L).step L n k x).2 with
      | none => b1 = [] ∧ d1.biphase = d.biphase ∧ d1.delta = d.delta
      | some c => ∃ data valid, BiphaseDecoder.push ar d.biphase (L.real c) = some (d1.biphase, data, valid) ∧
          (valid = true → b1 = [(deltaDecode d.delta (if data then 1 else 0)).1 != 0] ∧
            d1.delta = (deltaDecode d.delta (if data then 1 else 0)).2) ∧
          (valid = false → b1 = [] ∧ d1.delta = d.delta) at hm
    cases hc : ((d.front L).step L n k x).2 with
    | none =>
      rw [hc] at hm
      obtain ⟨rfl, m2, m3⟩ := hm
      refine ⟨out, ?_, ?_, hfr, ?_⟩
      · rw [← m2]
        exact ho
      · rw [← m3]
        exact hb
      · rw [← m3]
        exact hmore
    | some c =>
      rw [hc] at hm
      obtain ⟨data, valid, m1, m2, m3⟩ := hm
      refine ⟨(data, valid) :: out, ?_, ?_, hfr, ?_⟩
      · rw [Option.toList_some, List.map_append, List.map_cons, List.map_nil, List.cons_append, List.nil_append,
          BiphaseDecoder.run, m1]
        dsimp only [Option.bind_eq_bind, Option.bind_some]
        rw [ho]
        rfl
      · cases valid with
        | true =>
          obtain ⟨rfl, e2⟩ := m2 rfl
          rw [hb, e2]
          rfl
        | false =>
          obtain ⟨rfl, e2⟩ := m3 rfl
          rw [hb, e2]
          rfl
      · intro more
        have := hmore more
        cases valid with
        | true =>
          obtain ⟨-, e2⟩ := m2 rfl
          rw [e2] at this
          exact congrArg ((deltaDecode d.delta (if data then 1 else 0)).1 :: ·) this
        | false =>
          obtain ⟨-, e2⟩ := m3 rfl
          rw [e2] at this
          exact this

/-! ### All subcarriers -/

theorem sampleStreams_spec (num : Nat) (x : F) (k : Nat) (i : Nat) (ds : List (Demod L)) (hd : ∀ d ∈ ds, d.Ok L) :
    ∃ ds' bs, sampleStreams ar L num x (k % 24 == 0) i ds = some (ds', bs) ∧ ds'.length = ds.length ∧
      bs.length = ds.length ∧ (∀ d ∈ ds', d.Ok L) ∧
      ∀ n d, i + n < num → ds[n]? = some d → ∃ d' b, d.sample ar L (i + n) x (k % 24 == 0) = some (d', b) ∧
        ds'[n]? = some d' ∧ bs[n]? = some b := by
  induction ds generalizing i with
  | nil => exact ⟨[], [], rfl, rfl, rfl, by simp, by intro n d _ h; simp at h⟩
  | cons d ds ih =>
    obtain ⟨ds', bs, h1, h2, h3, h4, h5⟩ := ih (i + 1) fun u hu => hd u (by simp [hu])
    obtain ⟨d1, b1, e1, hd1, -⟩ := sample_front ar L d (hd d (by simp)) i k x
    rw [sampleStreams]
    by_cases hi : i < num
    · rw [if_pos hi, e1]
      dsimp only [Option.bind_eq_bind, Option.bind_some]
      rw [h1]
      refine ⟨d1 :: ds', b1 :: bs, rfl, by simp [h2], by simp [h3], ?_, ?_⟩
      · intro u hu
        rcases List.mem_cons.mp hu with rfl | hu
        · exact hd1
        · exact h4 u hu
      · intro n u hn hu
        cases n with
        | zero =>
          simp only [List.getElem?_cons_zero, Option.some.injEq] at hu
          subst hu
          exact ⟨d1, b1, e1, rfl, rfl⟩
        | succ n =>
          rw [List.getElem?_cons_succ] at hu
          obtain ⟨d', b, q1, q2, q3⟩ := h5 n u (by omega) hu
          refine ⟨d', b, ?_, q2, q3⟩
          rw [← q1]
          congr 1
          omega
    · rw [if_neg hi]
      dsimp only [Option.bind_eq_bind, Option.bind_some]
      rw [h1]
      refine ⟨d :: ds', [] :: bs, rfl, by simp [h2], by simp [h3], ?_, ?_⟩
      · intro u hu
        rcases List.mem_cons.mp hu with rfl | hu
        · exact hd _ (by simp)
        · exact h4 u hu
      · intro n u hn
        omega

theorem sampleLoop_spec (num : Nat) (k : Nat) (s : SubcarrierSet L) (xs : List F) (hk : k + xs.length ≤ 2 ^ 32)
    (hs : s.sampleNum = BitVec.ofNat 32 k) (hd : ∀ d ∈ s.demods, d.Ok L) :
    ∃ s' bits, sampleLoop ar L num s xs = some (s', bits) ∧ s'.demods.length = s.demods.length ∧
      bits.length = s.demods.length ∧ (∀ d ∈ s'.demods, d.Ok L) ∧
      s'.sampleNum = BitVec.ofNat 32 (k + xs.length) ∧ s'.resampler = s.resampler ∧ s'.resampling = s.resampling ∧
      ∀ n d, n < num → s.demods[n]? = some d → ∃ d' b, s'.demods[n]? = some d' ∧ bits[n]? = some b ∧
        demodRun ar L n k d xs = some (d', b) := by
  induction xs generalizing k s with
  | nil =>
    refine ⟨s, _, rfl, rfl, by simp, hd, hs, rfl, rfl, ?_⟩
    intro n d _ hn
    exact ⟨d, [], hn, by rw [List.getElem?_map, hn]; rfl, rfl⟩
  | cons x xs ih =>
    rw [List.length_cons] at hk
    have hmod : s.sampleNum.toNat % kDecimateRatio = k % 24 := by
      have h32 : k % 2 ^ 32 = k := Nat.mod_eq_of_lt (by omega)
      rw [hs, BitVec.toNat_ofNat, h32]
      rfl
    obtain ⟨ds', bs, h1, h2, h3, h4, h5⟩ := sampleStreams_spec ar L num x k 0 s.demods hd
    obtain ⟨s', bits, r1, r2, r3, r4, r5, r6, r7, r8⟩ := ih (k + 1) { s with demods := ds', sampleNum := s.sampleNum + 1 }
      (by omega) (by
        dsimp only
        rw [hs]
        exact (BitVec.ofNat_add k 1).symm) h4
    refine ⟨s', List.zipWith (· ++ ·) bs bits, ?_, by rw [r2, h2], ?_, r4, ?_, r6, r7, ?_⟩
    · rw [sampleLoop, hmod, h1]
      dsimp only [Option.bind_eq_bind, Option.bind_some]
      rw [r1]
      rfl
    · rw [List.length_zipWith, h3, r3, h2, Nat.min_self]
    · rw [r5]
      congr 1
      simp only [List.length_cons]
      omega
    · intro n d hn hdn
      obtain ⟨d1, b1, q1, q2, q3⟩ := h5 n d (by omega) hdn
      rw [Nat.zero_add] at q1
      obtain ⟨d2, b2, p1, p2, p3⟩ := r8 n d1 hn q2
      refine ⟨d2, b1 ++ b2, p1, ?_, ?_⟩
      · rw [List.getElem?_zipWith, q3, p2]
      · rw [demodRun, q1]
        dsimp only [Option.bind_eq_bind, Option.bind_some]
        rw [p3]
        rfl

/-! ### Resampling -/

/-- The state of the resampler after some samples. -/
def resState : L.Res → List F → L.Res
  | r, [] => r
  | r, x :: xs => resState (L.resample r x).1 xs

theorem resampled_append (r : L.Res) (xs ys : List F) :
    resampled L r (xs ++ ys) = resampled L r xs ++ resampled L (resState L r xs) ys := by
  induction xs generalizing r with
  | nil => rfl
  | cons x xs ih => rw [List.cons_append, resampled, resampled, resState, ih, List.append_assoc]

theorem resampleLoop_spec (hL : KeepsRate L) (r : L.Res) (used : Nat) (xs : List F)
    (h : used + (resampled L r xs).length ≤ kBufferSize) :
    resampleLoop L r used xs = some (resState L r xs, resampled L r xs) := by
  induction xs generalizing r used with
  | nil => rfl
  | cons x xs ih =>
    rw [resampled, List.length_append] at h
    rw [resampleLoop]
    rw [if_neg (by
      have := hL.few r x
      omega), ih _ _ (by omega)]
    rfl

/-- The samples after resampling. -/
def SubcarrierSet.incoming (s : SubcarrierSet L) (xs : List F) : List F :=
  if s.resampling then resampled L s.resampler xs else xs

theorem processChunk_spec (num : Nat) (k : Nat) (s : SubcarrierSet L) (hL : s.resampling = true → KeepsRate L)
    (hnum : num ≤ s.demods.length) (chunk : List F) (hc : chunk.length ≤ 8192)
    (hk : k + (s.incoming L chunk).length ≤ 2 ^ 32)
    (hs : s.sampleNum = BitVec.ofNat 32 k) (hd : ∀ d ∈ s.demods, d.Ok L) :
    ∃ s' bits, s.processChunk ar L chunk num = some (s', bits) ∧ s'.demods.length = s.demods.length ∧
      bits.length = s.demods.length ∧ (∀ d ∈ s'.demods, d.Ok L) ∧
      s'.sampleNum = BitVec.ofNat 32 (k + (s.incoming L chunk).length) ∧
      (s.resampling = true → s'.resampler = resState L s.resampler chunk) ∧ s'.resampling = s.resampling ∧
      ∀ n d, n < num → s.demods[n]? = some d → ∃ d' b, s'.demods[n]? = some d' ∧ bits[n]? = some b ∧
        demodRun ar L n k d (s.incoming L chunk) = some (d', b) := by
  unfold SubcarrierSet.processChunk SubcarrierSet.resampleChunk
  rw [if_neg (by omega)]
  by_cases hr : s.resampling = true
  · have hinc : s.incoming L chunk = resampled L s.resampler chunk := by
      unfold SubcarrierSet.incoming
      rw [if_pos hr]
    rw [hinc] at hk ⊢
    have hlen := (hL hr).rate s.resampler chunk
    rw [if_pos hr, resampleLoop_spec L (hL hr) s.resampler 0 chunk (by
      have : kBufferSize = 10945 := by decide
      omega)]
    dsimp only [Option.bind_eq_bind, Option.bind_some, Option.pure_def]
    obtain ⟨s', bits, h1, h2, h3, h4, h5, h6, h7, h8⟩ := sampleLoop_spec ar L num k
      { s with resampler := resState L s.resampler chunk } (resampled L s.resampler chunk) hk hs hd
    exact ⟨s', bits, h1, h2, h3, h4, h5, fun _ => h6, h7, h8⟩
  · have hinc : s.incoming L chunk = chunk := by
      unfold SubcarrierSet.incoming
      rw [if_neg hr]
    rw [hinc] at hk ⊢
    rw [if_neg hr]
    dsimp only [Option.bind_eq_bind, Option.bind_some]
    obtain ⟨s', bits, h1, h2, h3, h4, h5, h6, h7, h8⟩ := sampleLoop_spec ar L num k s chunk hk hs hd
    exact ⟨s', bits, h1, h2, h3, h4, h5, fun h => absurd h hr, h7, h8⟩

theorem processChunks_spec (num : Nat) (k : Nat) (s : SubcarrierSet L) (hL : s.resampling = true → KeepsRate L)
    (hnum : num ≤ s.demods.length) (chunks : List (List F)) (hc : ∀ c ∈ chunks, c.length ≤ 8192)
    (hk : k + (s.incoming L chunks.flatten).length ≤ 2 ^ 32)
    (hs : s.sampleNum = BitVec.ofNat 32 k) (hd : ∀ d ∈ s.demods, d.Ok L) :
    ∃ s' bits, processChunks ar L num s chunks = some (s', bits) ∧ bits.length = chunks.length ∧
      (∀ b ∈ bits, b.length = s.demods.length) ∧
      ∀ n d, n < num → s.demods[n]? = some d → ∃ d',
        demodRun ar L n k d (s.incoming L chunks.flatten) = some (d', bits.flatMap fun b => b.getD n []) := by
  induction chunks generalizing k s with
  | nil =>
    refine ⟨s, [], rfl, rfl, by simp, fun n d _ _ => ⟨d, ?_⟩⟩
    have : s.incoming L ([] : List (List F)).flatten = [] := by
      unfold SubcarrierSet.incoming
      split <;> rfl
    rw [this]
    rfl
  | cons c cs ih =>
    have hinc : ∀ t : SubcarrierSet L, t.resampling = s.resampling →
        (s.resampling = true → t.resampler = resState L s.resampler c) →
        s.incoming L (c :: cs).flatten = s.incoming L c ++ t.incoming L cs.flatten := by
      intro t h1 h2
      unfold SubcarrierSet.incoming
      rw [List.flatten_cons, h1]
      by_cases hr : s.resampling = true
      · rw [if_pos hr, if_pos hr, if_pos hr, resampled_append, h2 hr]
      · rw [if_neg hr, if_neg hr, if_neg hr]
    have hk1 : k + (s.incoming L c).length ≤ 2 ^ 32 := by
      have := hinc { s with resampler := resState L s.resampler c } rfl fun _ => rfl
      rw [this, List.length_append] at hk
      omega
    obtain ⟨s1, b1, h1, h2, h3, h4, h5, h6, h7, h8⟩ := processChunk_spec ar L num k s hL hnum c (hc c (by simp)) hk1 hs hd
    rw [hinc s1 h7 h6] at hk ⊢
    rw [List.length_append] at hk
    obtain ⟨s2, bs, r1, r2, r3, r4⟩ := ih (k + (s.incoming L c).length) s1 (by rw [h7]; exact hL) (by rw [h2]; exact hnum)
      (fun u hu => hc u (by simp [hu])) (by omega) h5 h4
    refine ⟨s2, b1 :: bs, ?_, by simp [r2], ?_, ?_⟩
    · rw [processChunks, h1]
      dsimp only [Option.bind_eq_bind, Option.bind_some]
      rw [r1]
      rfl
    · intro b hb
      rcases List.mem_cons.mp hb with rfl | hb
      · exact h3
      · rw [r3 b hb, h2]
    · intro n d hn hdn
      obtain ⟨d1, b, q1, q2, q3⟩ := h8 n d hn hdn
      obtain ⟨d2, p⟩ := r4 n d1 hn q1
      refine ⟨d2, ?_⟩
      rw [demodRun_append ar L n k d _ _ d1 b q3 d2 _ p, List.flatMap_cons, List.getD_eq_getElem?_getD, q2]
      rfl

end Redsea
