import Verif.Lemmas.StreamStep

namespace Redsea
open Spec BlockStream

/-- The blocks of a group delivered after `bs`, with their positions. -/
def DeliveredFrom (fec : Bool) (bs : List Bool) (g : Group) : Prop :=
  ∃ f : BlockNum → Option Block, g = buildGroup f 4 ∧
    ∀ n b, f n = some b → Prov fec bs (bs.length - 26 * (3 - n.toNat)) n b

/-- A sync pulse of the buffer is real: `k` bits into the input (which is preceded by
zeros, the initial register content) the last 26 bits are a codeword with that offset. -/
def PulseAt (bs : List Bool) (p : SyncPulse) (k : Int) : Prop :=
  p.offset ≠ .invalid →
    1 ≤ k ∧ k ≤ bs.length ∧ p.bitPosition = BitVec.ofNat 32 k.toNat ∧
      ∃ (o : OffsetName) (d : BitVec 16), p.offset = toOffset o ∧
        EndsWith (List.replicate 26 false ++ bs.take k.toNat) (encode d o)

/-- All pulses of the buffer are real and in chronological order. -/
def PulsesReal (bs : List Bool) (b : SyncPulseBuffer) : Prop :=
  ∃ k0 k1 k2 k3 : Int, k0 < k1 ∧ k1 < k2 ∧ k2 < k3 ∧ k3 ≤ bs.length ∧
    PulseAt bs b.p0 k0 ∧ PulseAt bs b.p1 k1 ∧ PulseAt bs b.p2 k2 ∧ PulseAt bs b.p3 k3

/-- Invariant of the synchroniser after the bits `bs`; `log` is the ghost log of block
checks. -/
structure Inv (fec : Bool) (bs : List Bool) (log : List Nat) (s : BlockStream) : Prop where
  reg : RegHolds s.inputRegister bs
  cnt : s.bitcount = BitVec.ofNat 32 bs.length
  ready : s.hasGroupReady = false
  wf : s.blockErrorSum50.WF
  rot : s.blockErrorSum50.rot = errWindow log
  bits01 : ∀ x ∈ log, x ≤ 1
  outOfSync : s.isInSync = false → s.numBitsUntilNextBlock = 1 ∧ log = []
  inSync : s.isInSync = true →
    ∃ o : OffsetName, s.expectedOffset = toOffset o ∧ o ≠ .Cprime ∧
      1 ≤ s.numBitsUntilNextBlock.toNat ∧ s.numBitsUntilNextBlock.toNat ≤ 26 ∧
      52 ≤ bs.length + s.numBitsUntilNextBlock.toNat ∧
      s.blockErrorSum50.getSum ≤ 42 ∧
      ∃ f : BlockNum → Option Block, s.currentGroup = buildGroup f o.index ∧
        ∀ n b, n.toNat < o.index → f n = some b →
          Prov fec bs (bs.length + s.numBitsUntilNextBlock.toNat - 26
            - 26 * (o.index - 1 - n.toNat)) n b
  pulses : PulsesReal bs s.syncBuffer

theorem Inv.init (fec : Bool) : Inv fec [] [] {} where
  reg := by intro i hi; simp
  cnt := rfl
  ready := rfl
  wf := RunningSum.WF_init
  rot := RunningSum.rot_init
  bits01 := by simp
  outOfSync := fun _ => ⟨rfl, rfl⟩
  inSync := by intro h; cases h
  pulses := by
    refine ⟨-3, -2, -1, 0, by omega, by omega, by omega, by simp, ?_, ?_, ?_, ?_⟩ <;>
      intro h <;> exact absurd rfl h

theorem isInSync_shift (s : BlockStream) (b : Bool) : (shiftBit s b).isInSync = s.isInSync := rfl

theorem PulseAt.append {bs : List Bool} {p : SyncPulse} {k : Int} (h : PulseAt bs p k)
    (t : List Bool) : PulseAt (bs ++ t) p k := by
  intro hp
  obtain ⟨h1, h2, h3, o, d, h4, h5⟩ := h hp
  refine ⟨h1, by simp; omega, h3, o, d, h4, ?_⟩
  rwa [List.take_append_of_le_length (by omega)]

theorem PulsesReal.append {bs : List Bool} {b : SyncPulseBuffer} (h : PulsesReal bs b)
    (t : List Bool) : PulsesReal (bs ++ t) b := by
  obtain ⟨k0, k1, k2, k3, h01, h12, h23, h3, p0, p1, p2, p3⟩ := h
  exact ⟨k0, k1, k2, k3, h01, h12, h23, by simp; omega, p0.append t, p1.append t, p2.append t,
    p3.append t⟩

theorem RegHolds.padded {reg : BitVec 32} {bs : List Bool} (h : RegHolds reg bs) :
    RegHolds reg (List.replicate 26 false ++ bs) := by
  intro i hi
  rw [h i hi, List.reverse_append, List.getD_eq_getElem?_getD, List.getD_eq_getElem?_getD,
    List.getElem?_append]
  split <;> rename_i hl
  · rfl
  · rw [List.getElem?_eq_none (by omega)]
    simp only [List.reverse_replicate, Option.getD_none, List.getElem?_replicate]
    split <;> rfl

theorem RegHolds.codeword {reg : BitVec 32} {bs : List Bool} (h : RegHolds reg bs)
    {o : OffsetName} (ho : (registerBlock reg).offset = toOffset o) :
    ∃ d, EndsWith (List.replicate 26 false ++ bs) (encode d o) := by
  have := h.padded.endsWith (by simp)
  rw [C01_only_codewords reg o ho] at this
  exact ⟨_, this⟩

theorem PulsesReal.push {bs : List Bool} {b : SyncPulseBuffer} (bit : Bool) {reg : BitVec 32}
    (h : PulsesReal bs b) (hreg : RegHolds reg (bs ++ [bit])) {o : OffsetName}
    (ho : (registerBlock reg).offset = toOffset o) :
    PulsesReal (bs ++ [bit]) (b.push (toOffset o) (BitVec.ofNat 32 (bs.length + 1))) := by
  obtain ⟨k0, k1, k2, k3, h01, h12, h23, h3, p0, p1, p2, p3⟩ := h
  refine ⟨k1, k2, k3, bs.length + 1, h12, h23, by omega, by simp, p1.append _, p2.append _,
    p3.append _, ?_⟩
  intro _
  obtain ⟨d, hd⟩ := hreg.codeword ho
  refine ⟨by omega, by simp, rfl, o, d, rfl, ?_⟩
  have : ((bs.length : Int) + 1).toNat = (bs ++ [bit]).length := by simp
  rw [this, List.take_length]
  exact hd

/-- What `couldFollow` says about the true positions of two pulses. -/
theorem couldFollow_pos {p q : SyncPulse} {i j : Nat} (h : p.couldFollow q = true)
    (hp : p.bitPosition = BitVec.ofNat 32 i) (hq : q.bitPosition = BitVec.ofNat 32 j)
    (hji : j < i) (hi : i < 2 ^ 32) : (i - j) % 26 = 0 ∧ (i - j) / 26 ≤ 6 := by
  simp only [SyncPulse.couldFollow, Bool.and_eq_true, beq_iff_eq, decide_eq_true_eq] at h
  have hd : (p.bitPosition - q.bitPosition).toNat = i - j := by
    rw [hp, hq]
    simp [BitVec.toNat_sub]
    omega
  rw [hd] at h
  exact ⟨h.1.1.1.1, h.1.1.1.2⟩

theorem couldFollow_valid {p q : SyncPulse} (h : p.couldFollow q = true) :
    p.offset ≠ .invalid ∧ q.offset ≠ .invalid := by
  simp only [SyncPulse.couldFollow, Bool.and_eq_true, beq_iff_eq, decide_eq_true_eq,
    bne_iff_ne] at h
  exact ⟨h.1.1.2, h.1.2⟩

/-- Sync can only be found after at least 27 bits. -/
theorem found_length {bs : List Bool} {b : SyncPulseBuffer} (h : PulsesReal bs b)
    (hf : b.isSequenceFound = true) : 26 ≤ bs.length := by
  obtain ⟨k0, k1, k2, k3, h01, h12, h23, h3, p0, p1, p2, p3⟩ := h
  by_cases hbig : 2 ^ 32 ≤ bs.length
  · omega
  have key : ∀ (q : SyncPulse) (k : Int), k < k3 → PulseAt bs q k →
      b.p3.couldFollow q = true → 26 ≤ bs.length := by
    intro q k hk hq hc
    obtain ⟨hv3, hvq⟩ := couldFollow_valid hc
    obtain ⟨a1, a2, a3, _⟩ := p3 hv3
    obtain ⟨b1, b2, b3, _⟩ := hq hvq
    have := couldFollow_pos hc a3 b3 (by omega) (by omega)
    omega
  simp only [SyncPulseBuffer.isSequenceFound, Bool.or_eq_true, Bool.and_eq_true] at hf
  rcases hf with (⟨h1, _⟩ | ⟨h1, _⟩) | ⟨h1, _⟩
  · exact key _ k1 (by omega) p1 h1
  · exact key _ k2 (by omega) p2 h1
  · exact key _ k2 (by omega) p2 h1

/-- Effect of processing one block while in sync. -/
theorem process_inv {fec : Bool} {bs : List Bool} {log : List Nat} {s : BlockStream}
    (hsync : s.isInSync = true) (o : OffsetName) (ho : s.expectedOffset = toOffset o)
    (hreg : RegHolds s.inputRegister bs) (hcnt : s.bitcount = BitVec.ofNat 32 bs.length)
    (hready : s.hasGroupReady = false) (hwf : s.blockErrorSum50.WF)
    (hrot : s.blockErrorSum50.rot = errWindow log) (h01 : ∀ x ∈ log, x ≤ 1)
    (hpul : PulsesReal bs s.syncBuffer) (hlen : 26 ≤ bs.length)
    (f : BlockNum → Option Block) (hg : s.currentGroup = buildGroup f o.index)
    (hprov : ∀ n b, n.toNat < o.index → f n = some b →
      Prov fec bs (bs.length - 26 - 26 * (o.index - 1 - n.toNat)) n b)
    (t : BlockStream)
    (ht : t = { s.processInSync fec (registerBlock s.inputRegister) with
      numBitsUntilNextBlock :=
        if (s.processInSync fec (registerBlock s.inputRegister)).isInSync then 26 else 1 }) :
    Inv fec bs (if t.isInSync then log ++ [failFlag s] else []) { t with hasGroupReady := false } ∧
    (t.hasGroupReady = true → DeliveredFrom fec bs t.readyGroup) := by
  have hflag : failFlag s ≤ 1 := by unfold failFlag; split <;> omega
  have hrot' : (s.blockErrorSum50.push (failFlag s)).rot = errWindow (log ++ [failFlag s]) := by
    rw [RunningSum.rot_push hwf, errWindow_push, hrot]
  rw [processInSync_eq fec s o ho] at ht
  -- provenance of the newly stored block
  have hnew : ∀ b, storedBlock fec s.inputRegister
      (adjustName o (registerBlock s.inputRegister).offset) = some b →
      Prov fec bs bs.length (.nth o.index) b := by
    intro b hb
    unfold storedBlock at hb
    simp only [] at hb
    split at hb
    · rename_i hoff
      have := correctBlock_prov fec bs s.inputRegister _ hreg hlen hoff
      rw [← nth_index, adjustName_index] at this
      simp only [Option.some.injEq] at hb
      rw [← hb]; exact this
    · cases hb
  have hnum : getBlockNumberForOffset
      (toOffset (adjustName o (registerBlock s.inputRegister).offset)) = .nth o.index := by
    rw [← nth_index, adjustName_index]
  by_cases hdrop : (s.blockErrorSum50.push (failFlag s)).getSum > 42
  · -- sync dropped
    simp only [hdrop, if_true] at ht
    subst ht
    refine ⟨⟨hreg, hcnt, rfl, (hwf.push _).clear, ?_, by simp, ?_, ?_, hpul⟩, ?_⟩
    · simp only [RunningSum.rot_clear (hwf.push _)]; rfl
    · intro _; exact ⟨rfl, rfl⟩
    · intro h; cases h
    · intro h; simp [hready] at h
  · simp only [hdrop, if_false] at ht
    simp only [hnum, hg, buildGroup_extend f (index_lt o)] at ht
    have hbits : ∀ x ∈ log ++ [failFlag s], x ≤ 1 := by
      intro x hx
      rcases List.mem_append.1 hx with hx | hx
      · exact h01 x hx
      · simp at hx; omega
    have hprov' : ∀ n b, n.toNat < o.index + 1 →
        (if n.toNat = o.index then storedBlock fec s.inputRegister
          (adjustName o (registerBlock s.inputRegister).offset) else f n) = some b →
        Prov fec bs (bs.length - 26 * (o.index - n.toNat)) n b := by
      intro n b hn hb
      split at hb
      · rename_i he
        have : n = .nth o.index := by
          rw [← he]; cases n <;> rfl
        rw [he]; rw [this]
        simpa using hnew b hb
      · rename_i he
        have := hprov n b (by omega) hb
        have e : bs.length - 26 - 26 * (o.index - 1 - n.toNat) =
          bs.length - 26 * (o.index - n.toNat) := by omega
        rwa [e] at this
    by_cases hD : o = .D
    · -- group complete
      subst hD
      simp only [if_true, hsync] at ht
      subst ht
      simp only [if_true]
      refine ⟨⟨hreg, hcnt, rfl, hwf.push _, hrot', hbits, ?_, ?_, hpul⟩, ?_⟩
      · intro h; simp at h
      · intro _
        refine ⟨.A, rfl, by simp, by simp, by simp, by simp; omega, ?_, fun _ => none, rfl, ?_⟩
        · simpa using hdrop
        · intro n b hn; simp [OffsetName.index] at hn
      · intro _
        refine ⟨_, rfl, ?_⟩
        intro n b hb
        have := hprov' n b (by cases n <;> simp [BlockNum.toNat, OffsetName.index]) hb
        exact this
    · simp only [hD, if_false, hsync] at ht
      subst ht
      simp only [if_true]
      refine ⟨⟨hreg, hcnt, rfl, hwf.push _, hrot', hbits, ?_, ?_, hpul⟩, ?_⟩
      · intro h; simp at h
      · intro _
        refine ⟨nextName o, rfl, nextName_ne_Cprime o, by simp, by simp, by simp; omega, ?_,
          fun n => if n.toNat = o.index then storedBlock fec s.inputRegister
            (adjustName o (registerBlock s.inputRegister).offset) else f n, ?_, ?_⟩
        · simpa using hdrop
        · rw [nextName_index hD]
        · intro n b hn hb
          rw [nextName_index hD] at hn ⊢
          have := hprov' n b hn hb
          have e : bs.length + (26 : BitVec 32).toNat - 26 - 26 * (o.index + 1 - 1 - n.toNat) =
            bs.length - 26 * (o.index - n.toNat) := by simp
          change Prov fec bs (bs.length + (26 : BitVec 32).toNat - 26 -
            26 * (o.index + 1 - 1 - n.toNat)) n b
          rw [e]; exact this
      · intro h; simp [hready] at h

/-- The invariant is preserved by every bit, and delivered groups have provenance. -/
theorem pushBit_inv {fec : Bool} {bs : List Bool} {log : List Nat} {s : BlockStream}
    (h : Inv fec bs log s) (bit : Bool) :
    Inv fec (bs ++ [bit]) (nextLog fec s bit log)
      { s.pushBit fec bit with hasGroupReady := false } ∧
    ((s.pushBit fec bit).hasGroupReady = true →
      DeliveredFrom fec (bs ++ [bit]) (s.pushBit fec bit).readyGroup) := by
  have hreg' : RegHolds (shiftBit s bit).inputRegister (bs ++ [bit]) := h.reg.push bit
  have hcnt' : (shiftBit s bit).bitcount = BitVec.ofNat 32 (bs ++ [bit]).length := by
    simp [shiftBit, h.cnt, BitVec.ofNat_add]
  by_cases hsync : s.isInSync = true
  · obtain ⟨o, ho, hoC, hn1, hn2, hl, hsum, f, hg, hprov⟩ := h.inSync hsync
    by_cases hnb : (shiftBit s bit).numBitsUntilNextBlock = 0
    · -- a block ends here
      have hnb1 : s.numBitsUntilNextBlock = 1 := by
        simp only [shiftBit] at hnb
        bv_omega
      have hacq : (shiftBit s bit).acquireSync (registerBlock (shiftBit s bit).inputRegister) =
          shiftBit s bit := by
        simp [acquireSync, shiftBit, hsync]
      have hfind : (shiftBit s bit).findBlockInInputRegister fec =
          (shiftBit s bit).processInSync fec (registerBlock (shiftBit s bit).inputRegister) := by
        simp only [findBlockInInputRegister, hacq]
        simp [shiftBit, hsync]
      have key := process_inv (fec := fec) (bs := bs ++ [bit]) (log := log) (s := shiftBit s bit)
        hsync o ho hreg' hcnt' h.ready h.wf h.rot h.bits01 (h.pulses.append _)
        (by simp; rw [hnb1] at hl; simp at hl; omega) f hg
        (by
          intro n b hn hb
          have := (hprov n b hn hb).append [bit]
          rw [hnb1] at this
          have e : bs.length + (1 : BitVec 32).toNat - 26 = (bs ++ [bit]).length - 26 := by simp
          rw [e] at this
          exact this)
        (s.pushBit fec bit) (by rw [pushBit_eq, if_pos hnb, hfind])
      have hlog : nextLog fec s bit log =
          if (s.pushBit fec bit).isInSync then log ++ [failFlag (shiftBit s bit)] else [] := by
        simp only [nextLog, hnb, if_true, hacq, isInSync_shift, hsync]
        rw [pushBit_eq, if_pos hnb]
      rw [hlog]
      exact key
    · -- inside a block
      have hpb : s.pushBit fec bit = shiftBit s bit := by rw [pushBit_eq, if_neg hnb]
      have hnbn : (shiftBit s bit).numBitsUntilNextBlock.toNat =
          s.numBitsUntilNextBlock.toNat - 1 := by
        simp only [shiftBit]; bv_omega
      have hnb0 : (shiftBit s bit).numBitsUntilNextBlock.toNat ≠ 0 := by
        intro hc; apply hnb; apply BitVec.eq_of_toNat_eq; simpa using hc
      have hlog : nextLog fec s bit log = log := by simp only [nextLog, hnb, if_false]
      rw [hlog, hpb]
      refine ⟨⟨hreg', hcnt', rfl, h.wf, h.rot, h.bits01, ?_, ?_, h.pulses.append _⟩, ?_⟩
      · intro hc
        have : s.isInSync = false := hc
        rw [hsync] at this; cases this
      · intro _
        have e : (bs ++ [bit]).length + (shiftBit s bit).numBitsUntilNextBlock.toNat =
            bs.length + s.numBitsUntilNextBlock.toNat := by
          rw [hnbn]; simp; omega
        refine ⟨o, ho, hoC, ?_, ?_, ?_, hsum, f, hg, ?_⟩
        · change 1 ≤ (shiftBit s bit).numBitsUntilNextBlock.toNat; omega
        · change (shiftBit s bit).numBitsUntilNextBlock.toNat ≤ 26; omega
        · change 52 ≤ (bs ++ [bit]).length + (shiftBit s bit).numBitsUntilNextBlock.toNat; omega
        · intro n b hn hb
          change Prov fec (bs ++ [bit]) ((bs ++ [bit]).length +
            (shiftBit s bit).numBitsUntilNextBlock.toNat - 26 - _) n b
          rw [e]
          exact (hprov n b hn hb).append [bit]
      · intro hc
        have : s.hasGroupReady = true := hc
        rw [h.ready] at this; cases this
  · -- not in sync
    have hsync : s.isInSync = false := by simpa using hsync
    obtain ⟨hnb1, hlog0⟩ := h.outOfSync hsync
    have hnb : (shiftBit s bit).numBitsUntilNextBlock = 0 := by simp [shiftBit, hnb1]
    rw [pushBit_eq, if_pos hnb]
    simp only [nextLog, hnb, if_true]
    generalize hs1 : shiftBit s bit = s1 at *
    have e_sync : s1.isInSync = false := by rw [← hs1]; exact hsync
    have e_ready : s1.hasGroupReady = false := by rw [← hs1]; exact h.ready
    have e_wf : s1.blockErrorSum50.WF := by rw [← hs1]; exact h.wf
    have e_rot : s1.blockErrorSum50.rot = errWindow log := by rw [← hs1]; exact h.rot
    have e_buf : s1.syncBuffer = s.syncBuffer := by rw [← hs1]; rfl
    have hlen' : (bs ++ [bit]).length = bs.length + 1 := by simp
    by_cases hoff : (registerBlock s1.inputRegister).offset = .invalid
    · have hacq : s1.acquireSync (registerBlock s1.inputRegister) =
          { s1 with numBitsSinceSyncLost := s1.numBitsSinceSyncLost + 1 } := by
        simp [acquireSync, e_sync, hoff]
      have hfind : s1.findBlockInInputRegister fec =
          { s1 with numBitsSinceSyncLost := s1.numBitsSinceSyncLost + 1 } := by
        simp [findBlockInInputRegister, hacq, e_sync]
      rw [hacq, hfind]
      simp only [e_sync, Bool.false_eq_true, if_false]
      refine ⟨⟨hreg', hcnt', rfl, e_wf, e_rot, h.bits01, fun _ => ⟨rfl, hlog0⟩, ?_, ?_⟩, ?_⟩
      · intro hc; cases hc
      · rw [e_buf]; exact h.pulses.append _
      · intro hc; rw [e_ready] at hc; cases hc
    · obtain ⟨o, ho⟩ := offset_eq_toOffset hoff
      have hpr : PulsesReal (bs ++ [bit]) (s1.syncBuffer.push (toOffset o) s1.bitcount) := by
        rw [hcnt', hlen', e_buf]
        exact h.pulses.push bit hreg' ho
      by_cases hfound : (s1.syncBuffer.push (toOffset o) s1.bitcount).isSequenceFound = true
      · -- sync acquired
        have hlen : 26 ≤ (bs ++ [bit]).length := by
          exact found_length hpr hfound
        obtain ⟨s2, hs2⟩ : ∃ s2 : BlockStream, s2 =
            { s1 with
              syncBuffer := s1.syncBuffer.push (toOffset o) s1.bitcount
              isInSync := true
              expectedOffset := toOffset o
              currentGroup := {}
              numBitsSinceSyncLost := 0 } := ⟨_, rfl⟩
        have hacq : s1.acquireSync (registerBlock s1.inputRegister) = s2 := by
          rw [hs2]
          simp only [acquireSync, e_sync, Bool.false_eq_true, if_false]
          simp only [ho]
          have hne : toOffset o ≠ Offset.invalid := by rw [← ho]; exact hoff
          simp [hne, hfound]
        have hreg2 : s2.inputRegister = s1.inputRegister := by rw [hs2]
        have hfind : s1.findBlockInInputRegister fec =
            s2.processInSync fec (registerBlock s2.inputRegister) := by
          simp only [findBlockInInputRegister, hacq, hreg2]
          rw [hs2]; simp
        rw [hacq, hfind]
        have e2 : s2.isInSync = true := by rw [hs2]
        simp only [e2, if_true]
        have key := process_inv (fec := fec) (bs := bs ++ [bit]) (log := log) (s := s2)
          e2 o (by rw [hs2]) (by rw [hreg2]; exact hreg') (by rw [hs2]; exact hcnt')
          (by rw [hs2]; exact e_ready) (by rw [hs2]; exact e_wf) (by rw [hs2]; exact e_rot)
          h.bits01 (by rw [hs2]; exact hpr) hlen (fun _ => none)
          (by
            rw [hs2]
            simp only []
            have : ∀ k, buildGroup (fun _ => none) k = {} := by
              intro k; induction k with
              | zero => rfl
              | succ k ih => simp [buildGroup, addOpt, ih]
            rw [this])
          (by intro n b _ hb; cases hb) _ rfl
        rw [hlog0] at key ⊢
        exact key
      · -- pulse recorded, no sync yet
        have hfound : (s1.syncBuffer.push (toOffset o) s1.bitcount).isSequenceFound = false := by
          simpa using hfound
        have hacq : s1.acquireSync (registerBlock s1.inputRegister) =
            { s1 with
              numBitsSinceSyncLost := s1.numBitsSinceSyncLost + 1
              syncBuffer := s1.syncBuffer.push (toOffset o) s1.bitcount } := by
          simp only [acquireSync, e_sync, Bool.false_eq_true, if_false]
          simp only [ho]
          have hne : toOffset o ≠ Offset.invalid := by rw [← ho]; exact hoff
          simp [hne, hfound]
        have hfind : s1.findBlockInInputRegister fec =
            { s1 with
              numBitsSinceSyncLost := s1.numBitsSinceSyncLost + 1
              syncBuffer := s1.syncBuffer.push (toOffset o) s1.bitcount } := by
          simp only [findBlockInInputRegister, hacq]; simp [e_sync]
        rw [hacq, hfind]
        simp only [e_sync, Bool.false_eq_true, if_false]
        refine ⟨⟨hreg', hcnt', rfl, e_wf, e_rot, h.bits01, fun _ => ⟨rfl, hlog0⟩, ?_, hpr⟩, ?_⟩
        · intro hc; cases hc
        · intro hc; rw [e_ready] at hc; cases hc

theorem step_inv {fec : Bool} {bs : List Bool} {log : List Nat} {s : BlockStream}
    (h : Inv fec bs log s) (bit : Bool) :
    Inv fec (bs ++ [bit]) (nextLog fec s bit log) (s.step fec bit).1 ∧
    (∀ g, (s.step fec bit).2 = some g → DeliveredFrom fec (bs ++ [bit]) g) := by
  obtain ⟨h1, h2⟩ := pushBit_inv (fec := fec) h bit
  unfold step popGroup
  simp only []
  split
  · rename_i hr
    refine ⟨h1, ?_⟩
    intro g hg
    simp only [Option.some.injEq] at hg
    rw [← hg]; exact h2 hr
  · rename_i hr
    refine ⟨?_, by simp⟩
    have hr : (s.pushBit fec bit).hasGroupReady = false := by simpa using hr
    have e : { s.pushBit fec bit with hasGroupReady := false } = s.pushBit fec bit := by
      rw [← hr]
    rw [e] at h1
    exact h1

end Redsea
