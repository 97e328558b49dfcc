import Verif.Lemmas.StreamDeliver

/-
One-bit steps in closed form; the 104-bit phase of a synchronised decoder; the pulse buffer
of an unsynchronised one.
-/

namespace Redsea
open Spec BlockStream

theorem step_eq (fec : Bool) (s : BlockStream) (bit : Bool) :
    s.step fec bit =
      if (s.pushBit fec bit).hasGroupReady then
        ({ s.pushBit fec bit with hasGroupReady := false }, some (s.pushBit fec bit).readyGroup)
      else (s.pushBit fec bit, none) := rfl

theorem step_fst_fields (fec : Bool) (s : BlockStream) (bit : Bool) :
    (s.step fec bit).1.isInSync = (s.pushBit fec bit).isInSync ∧
    (s.step fec bit).1.numBitsUntilNextBlock = (s.pushBit fec bit).numBitsUntilNextBlock ∧
    (s.step fec bit).1.expectedOffset = (s.pushBit fec bit).expectedOffset ∧
    (s.step fec bit).1.syncBuffer = (s.pushBit fec bit).syncBuffer := by
  rw [step_eq]; split <;> exact ⟨rfl, rfl, rfl, rfl⟩

/-- In sync, inside a block. -/
theorem pushBit_inside {fec : Bool} {s : BlockStream} (bit : Bool)
    (hn : s.numBitsUntilNextBlock ≠ 1) : s.pushBit fec bit = shiftBit s bit := by
  rw [pushBit_eq, if_neg]
  simp only [shiftBit]; bv_omega

/-- In sync, at the last bit of a block. -/
theorem pushBit_block {fec : Bool} {s : BlockStream} (bit : Bool) (hs : s.isInSync = true)
    (hn : s.numBitsUntilNextBlock = 1) :
    s.pushBit fec bit =
      { (shiftBit s bit).processInSync fec (registerBlock (shiftBit s bit).inputRegister) with
        numBitsUntilNextBlock := if ((shiftBit s bit).processInSync fec
          (registerBlock (shiftBit s bit).inputRegister)).isInSync then 26 else 1 } := by
  have hnb : (shiftBit s bit).numBitsUntilNextBlock = 0 := by simp [shiftBit, hn]
  have hacq : (shiftBit s bit).acquireSync (registerBlock (shiftBit s bit).inputRegister) =
      shiftBit s bit := by
    simp [acquireSync, shiftBit, hs]
  have hfind : (shiftBit s bit).findBlockInInputRegister fec =
      (shiftBit s bit).processInSync fec (registerBlock (shiftBit s bit).inputRegister) := by
    simp only [findBlockInInputRegister, hacq]
    simp [shiftBit, hs]
  rw [pushBit_eq, if_pos hnb, hfind]

/-- Out of sync, one bit. -/
theorem pushBit_out {fec : Bool} {s : BlockStream} (bit : Bool) (hs : s.isInSync = false)
    (hn : s.numBitsUntilNextBlock = 1) :
    let o := (registerBlock (shiftBit s bit).inputRegister).offset
    let b := if o = .invalid then s.syncBuffer else s.syncBuffer.push o (s.bitcount + 1)
    (s.pushBit fec bit).syncBuffer = b ∧
    ((s.blockErrorSum50.push 0).getSum ≤ 42 →
      ((s.pushBit fec bit).isInSync = true ↔ o ≠ .invalid ∧ b.isSequenceFound = true) ∧
      ((s.pushBit fec bit).isInSync = true →
        (s.pushBit fec bit).numBitsUntilNextBlock = 26 ∧
        ∀ n, o = toOffset n → (s.pushBit fec bit).expectedOffset = toOffset (nextName n))) := by
  intro o b
  have hnb : (shiftBit s bit).numBitsUntilNextBlock = 0 := by simp [shiftBit, hn]
  rw [pushBit_eq, if_pos hnb]
  have e_sync : (shiftBit s bit).isInSync = false := hs
  have e_cnt : (shiftBit s bit).bitcount = s.bitcount + 1 := rfl
  have e_buf : (shiftBit s bit).syncBuffer = s.syncBuffer := rfl
  have e_sum : (shiftBit s bit).blockErrorSum50 = s.blockErrorSum50 := rfl
  have ho : (registerBlock (shiftBit s bit).inputRegister).offset = o := rfl
  clear_value o
  generalize hs1 : shiftBit s bit = s1 at *
  by_cases hoff : o = .invalid
  · have hacq : s1.acquireSync (registerBlock s1.inputRegister) =
        { s1 with numBitsSinceSyncLost := s1.numBitsSinceSyncLost + 1 } := by
      simp [acquireSync, e_sync, hoff, ho]
    have hfind : s1.findBlockInInputRegister fec =
        { s1 with numBitsSinceSyncLost := s1.numBitsSinceSyncLost + 1 } := by
      simp [findBlockInInputRegister, hacq, e_sync]
    rw [hfind]
    simp [hoff, e_sync, e_buf, b]
  · obtain ⟨n, hn'⟩ := offset_eq_toOffset hoff
    have hb : b = s1.syncBuffer.push o s1.bitcount := by
      simp only [b, hoff, if_false, e_cnt, e_buf]
    clear_value b
    subst hb
    by_cases hfound : (s1.syncBuffer.push o s1.bitcount).isSequenceFound = true
    · obtain ⟨s2, hs2⟩ : ∃ s2 : BlockStream, s2 =
          { s1 with
            syncBuffer := s1.syncBuffer.push o s1.bitcount
            isInSync := true
            expectedOffset := o
            currentGroup := {}
            numBitsSinceSyncLost := 0 } := ⟨_, rfl⟩
      have hacq : s1.acquireSync (registerBlock s1.inputRegister) = s2 := by
        rw [hs2]
        simp only [acquireSync, e_sync, Bool.false_eq_true, if_false]
        simp [ho, hoff, hfound]
      have hreg2 : s2.inputRegister = s1.inputRegister := by rw [hs2]
      have hfind : s1.findBlockInInputRegister fec =
          s2.processInSync fec (registerBlock s2.inputRegister) := by
        simp only [findBlockInInputRegister, hacq, hreg2]
        rw [hs2]; simp
      rw [hfind]
      have hexp : s2.expectedOffset = toOffset n := by rw [hs2]; exact hn'
      have hsum2 : s2.blockErrorSum50 = s.blockErrorSum50 := by rw [hs2]; exact e_sum
      have hflag : failFlag s2 = 0 := by
        unfold failFlag
        rw [hreg2, ho, hexp, hn']
        have : adjustExpected (toOffset n) (toOffset n) = toOffset n := by
          cases n <;> rfl
        simp [this]
      rw [processInSync_eq fec s2 n hexp, hflag, hsum2]
      have hsync2 : s2.isInSync = true := by rw [hs2]
      have hbuf2 : s2.syncBuffer = s1.syncBuffer.push o s1.bitcount := by rw [hs2]
      refine ⟨?_, ?_⟩
      · dsimp only; split
        · exact hbuf2
        · split <;> exact hbuf2
      · intro hle
        have : ¬ (s.blockErrorSum50.push 0).getSum > 42 := by omega
        simp only [this, if_false]
        by_cases hD : n = .D
        · subst hD
          simp [hsync2, hoff, hfound]
          intro n' hn2
          rw [hn'] at hn2
          rw [toOffset_injective hn2.symm]; rfl
        · simp [hsync2, hoff, hfound, hD]
          intro n' hn2
          rw [hn'] at hn2
          rw [toOffset_injective hn2.symm]
    · have hfound : (s1.syncBuffer.push o s1.bitcount).isSequenceFound = false := by
        simpa using hfound
      have hacq : s1.acquireSync (registerBlock s1.inputRegister) =
          { s1 with
            numBitsSinceSyncLost := s1.numBitsSinceSyncLost + 1
            syncBuffer := s1.syncBuffer.push o s1.bitcount } := by
        simp only [acquireSync, e_sync, Bool.false_eq_true, if_false]
        simp [hfound, hoff, ho]
      have hfind : s1.findBlockInInputRegister fec =
          { s1 with
            numBitsSinceSyncLost := s1.numBitsSinceSyncLost + 1
            syncBuffer := s1.syncBuffer.push o s1.bitcount } := by
        simp only [findBlockInInputRegister, hacq]; simp [e_sync]
      rw [hfind]
      simp [e_sync, hfound]

/-- Number of bits of the current group already passed (0..103), while in sync. -/
def phase (s : BlockStream) : Nat :=
  26 * (getBlockNumberForOffset s.expectedOffset).toNat + (26 - s.numBitsUntilNextBlock.toNat)

theorem nextName_phase (o : OffsetName) :
    26 * (getBlockNumberForOffset (toOffset (nextName o))).toNat =
      (26 * (getBlockNumberForOffset (toOffset o)).toNat + 26) % 104 := by
  cases o <;> rfl

/-- In sync, the phase advances by one modulo 104. -/
theorem phase_step {fec : Bool} {bs : List Bool} {log : List Nat} {s : BlockStream}
    (h : Inv fec bs log s) (bit : Bool) (hs : s.isInSync = true)
    (hs' : (s.step fec bit).1.isInSync = true) :
    phase s < 104 ∧ phase (s.step fec bit).1 = (phase s + 1) % 104 ∧
    ((s.step fec bit).2.isSome = true ↔ phase (s.step fec bit).1 = 0) := by
  obtain ⟨f1, f2, f3, _⟩ := step_fst_fields fec s bit
  obtain ⟨o, ho, hoC, hn1, hn2, _⟩ := h.inSync hs
  have hidx : (getBlockNumberForOffset (toOffset o)).toNat < 4 := by cases o <;> decide
  have hlt : phase s < 104 := by unfold phase; rw [ho]; omega
  have hsome := step_isSome_iff h bit
  have hstep : phase (s.step fec bit).1 = (phase s + 1) % 104 := by
    unfold phase
    rw [f2, f3]
    by_cases hnb : s.numBitsUntilNextBlock = 1
    · have hp := pushBit_block (fec := fec) bit hs hnb
      have e1 : (shiftBit s bit).expectedOffset = toOffset o := ho
      rw [f1] at hs'
      rw [hp] at hs' ⊢
      rw [processInSync_eq fec _ o e1] at hs' ⊢
      split
      · rename_i hd; simp [hd] at hs'
      · rename_i hd
        have esync : (shiftBit s bit).isInSync = true := hs
        have := nextName_phase o
        by_cases hD : o = .D
        · subst hD
          simp [esync, hnb, ho, getBlockNumberForOffset, BlockNum.toNat, toOffset]
        · simp only [hD, if_false, esync, if_true, hnb, ho]
          rw [this]; simp
    · rw [pushBit_inside bit hnb]
      have e : (shiftBit s bit).numBitsUntilNextBlock.toNat = s.numBitsUntilNextBlock.toNat - 1 := by
        simp only [shiftBit]; bv_omega
      have e2 : s.numBitsUntilNextBlock.toNat ≠ 1 := by
        intro hc; apply hnb; apply BitVec.eq_of_toNat_eq; simpa using hc
      have e3 : (shiftBit s bit).expectedOffset = toOffset o := ho
      rw [e, ho, e3]
      rw [Nat.mod_eq_of_lt (by omega)]; omega
  refine ⟨hlt, hstep, ?_⟩
  rw [hsome]
  obtain ⟨o', ho', _, hn1', hn2', _⟩ := (step_inv h bit).1.inSync hs'
  constructor
  · rintro ⟨_, h2, h3⟩
    unfold phase; rw [h2, h3]; rfl
  · intro hp
    unfold phase at hp
    rw [ho'] at hp ⊢
    have h26 : (s.step fec bit).1.numBitsUntilNextBlock.toNat = 26 := by omega
    refine ⟨hs', BitVec.eq_of_toNat_eq (by rw [h26]; rfl), ?_⟩
    rw [toOffset_eq_A]
    have : (getBlockNumberForOffset (toOffset o')).toNat = 0 := by omega
    cases o' <;> first | rfl | simp [toOffset, getBlockNumberForOffset, BlockNum.toNat] at this

/-- The offset found in the register, in terms of the input. -/
theorem register_offset_iff {reg : BitVec 32} {bs : List Bool} (h : RegHolds reg bs)
    (o : OffsetName) :
    (registerBlock reg).offset = toOffset o ↔
      ∃ d, EndsWith (List.replicate 26 false ++ bs) (encode d o) := by
  constructor
  · exact fun ho => h.codeword ho
  · rintro ⟨d, hd⟩
    have := EndsWith.unique (h.padded.endsWith (by simp)) hd
    have h2 := registerBlock_offset_of (reg := reg) (d := d) (o := o) (e := 0) (by
      simpa using this)
    rw [h2.1]
    have hz : calculateSyndrome ((0 : BitVec 26).setWidth 32) = 0 :=
      calculateSyndrome_additive.zero
    rw [hz, BitVec.ofNat_eq_ofNat, BitVec.xor_zero, getOffset_offsetSyndrome]

theorem register_offset_iff_long {reg : BitVec 32} {bs : List Bool} (h : RegHolds reg bs)
    (hl : 26 ≤ bs.length) (o : OffsetName) :
    (registerBlock reg).offset = toOffset o ↔ ∃ d, EndsWith bs (encode d o) := by
  rw [register_offset_iff h]
  constructor
  · rintro ⟨d, p, hp⟩
    refine ⟨d, bs.take (bs.length - 26), ?_⟩
    have h1 : (List.replicate 26 false ++ bs.take (bs.length - 26)) ++ bs.drop (bs.length - 26) =
        p ++ bitsMSB (encode d o) := by
      rw [List.append_assoc, List.take_append_drop]; exact hp
    have := List.append_inj_right' h1 (by rw [bitsMSB_length]; simp; omega)
    rw [← this, List.take_append_drop]
  · rintro ⟨d, p, hp⟩
    exact ⟨d, List.replicate 26 false ++ p, by rw [hp, List.append_assoc]⟩

end Redsea
