import Verif.Lemmas.StreamBlock

namespace Redsea
open Spec BlockStream

/-- When a group is ready after pushing a bit: exactly when a D slot just ended. -/
theorem pushBit_ready_iff {fec : Bool} {bs : List Bool} {log : List Nat} {s : BlockStream}
    (h : Inv fec bs log s) (bit : Bool) :
    (s.pushBit fec bit).hasGroupReady = true ↔
      ((s.pushBit fec bit).isInSync = true ∧ (s.pushBit fec bit).numBitsUntilNextBlock = 26 ∧
        (s.pushBit fec bit).expectedOffset = .A) := by
  have hproc : ∀ (s2 : BlockStream) (o : OffsetName), s2.isInSync = true →
      s2.expectedOffset = toOffset o → s2.hasGroupReady = false →
      ((s2.processInSync fec (registerBlock s2.inputRegister)).hasGroupReady = true ↔
        ((s2.processInSync fec (registerBlock s2.inputRegister)).isInSync = true ∧
         (s2.processInSync fec (registerBlock s2.inputRegister)).expectedOffset = .A)) := by
    intro s2 o h1 h2 h3
    rw [processInSync_eq fec s2 o h2]
    split
    · simp [h3]
    · dsimp only
      split
      · simp [h1]
      · rename_i hD
        simp [h3, toOffset_eq_A, nextName_eq_A, hD]
  by_cases hnb : (shiftBit s bit).numBitsUntilNextBlock = 0
  · rw [pushBit_eq, if_pos hnb]
    dsimp only
    by_cases hsync : s.isInSync = true
    · obtain ⟨o, ho, _⟩ := h.inSync hsync
      have hacq : (shiftBit s bit).acquireSync (registerBlock (shiftBit s bit).inputRegister) =
          shiftBit s bit := by
        simp [acquireSync, shiftBit, hsync]
      have hfind : (shiftBit s bit).findBlockInInputRegister fec =
          (shiftBit s bit).processInSync fec (registerBlock (shiftBit s bit).inputRegister) := by
        simp only [findBlockInInputRegister, hacq]
        simp [shiftBit, hsync]
      rw [hfind, hproc (shiftBit s bit) o hsync ho h.ready]
      constructor
      · rintro ⟨a, b⟩; simp [a, b]
      · rintro ⟨a, _, b⟩; exact ⟨a, b⟩
    · have hsync : s.isInSync = false := by simpa using hsync
      generalize hs1 : shiftBit s bit = s1 at *
      have e_sync : s1.isInSync = false := by rw [← hs1]; exact hsync
      have e_ready : s1.hasGroupReady = false := by rw [← hs1]; exact h.ready
      simp only [findBlockInInputRegister]
      by_cases hs2 : (s1.acquireSync (registerBlock s1.inputRegister)).isInSync = true
      · simp only [hs2, if_true]
        have hreg : (s1.acquireSync (registerBlock s1.inputRegister)).inputRegister =
            s1.inputRegister := by
          unfold acquireSync; dsimp only; split <;> (try split) <;> (try split) <;> rfl
        have hready : (s1.acquireSync (registerBlock s1.inputRegister)).hasGroupReady = false := by
          unfold acquireSync; dsimp only
          split <;> (try split) <;> (try split) <;> exact e_ready
        have hexp : ∃ o, (s1.acquireSync (registerBlock s1.inputRegister)).expectedOffset =
            toOffset o := by
          unfold acquireSync at hs2 ⊢
          simp only [e_sync, Bool.false_eq_true, if_false] at hs2 ⊢
          split
          · rename_i hoff
            split
            · exact offset_eq_toOffset hoff
            · rename_i hnf
              simp [hoff, hnf] at hs2
          · rename_i hoff
            simp [hoff] at hs2
        obtain ⟨o, ho⟩ := hexp
        generalize hg : s1.acquireSync (registerBlock s1.inputRegister) = s2 at *
        have := hproc s2 o hs2 ho hready
        rw [hreg] at this
        rw [this]
        constructor
        · rintro ⟨a, b⟩; simp [a, b]
        · rintro ⟨a, _, b⟩; exact ⟨a, b⟩
      · have hs2 : (s1.acquireSync (registerBlock s1.inputRegister)).isInSync = false := by
          simpa using hs2
        simp only [hs2, Bool.false_eq_true, if_false, false_and, iff_false]
        unfold acquireSync; dsimp only
        split <;> (try split) <;> (try split) <;> simp [e_ready]
  · rw [pushBit_eq, if_neg hnb]
    constructor
    · intro hc
      have : s.hasGroupReady = true := hc
      rw [h.ready] at this; cases this
    · rintro ⟨h1, h2, h3⟩
      exfalso
      have hsync : s.isInSync = true := h1
      obtain ⟨o, _, _, hn1, hn2, _⟩ := h.inSync hsync
      simp only [shiftBit] at h2
      bv_omega

theorem step_isSome_iff {fec : Bool} {bs : List Bool} {log : List Nat} {s : BlockStream}
    (h : Inv fec bs log s) (bit : Bool) :
    (s.step fec bit).2.isSome = true ↔
      ((s.step fec bit).1.isInSync = true ∧ (s.step fec bit).1.numBitsUntilNextBlock = 26 ∧
        (s.step fec bit).1.expectedOffset = .A) := by
  have := pushBit_ready_iff (fec := fec) h bit
  unfold step popGroup
  dsimp only
  split
  · rename_i hr
    simpa using this.1 hr
  · rename_i hr
    simp only [Option.isSome_none, Bool.false_eq_true, false_iff]
    exact fun hc => hr (this.2 hc)

/-- After a delivery the decoder is at a group boundary. -/
theorem delivered_boundary {fec : Bool} {bs : List Bool} {bit : Bool} {g : Group}
    (h : deliveredAt fec bs bit = some g) :
    AtSlot (stateAfter fec (bs ++ [bit])) .A ∧
    (stateAfter fec (bs ++ [bit])).currentGroup = {} ∧
    (stateAfter fec (bs ++ [bit])).blockErrorSum50.getSum ≤ 42 := by
  have hi := inv_stateAfter fec bs
  have hi' := inv_stateAfter fec (bs ++ [bit])
  have hb := (step_isSome_iff hi bit).1 (by
    have : ((stateAfter fec bs).step fec bit).2 = some g := h
    rw [this]; rfl)
  rw [← stateAfter_snoc] at hb
  obtain ⟨h1, h2, h3⟩ := hb
  obtain ⟨o, ho, _, _, _, _, hsum, f, hg, _⟩ := hi'.inSync h1
  have hoA : o = .A := by rw [h3] at ho; exact (toOffset_eq_A o).1 ho.symm
  subst hoA
  exact ⟨⟨h1, hi'.ready, h2, h3, hi'.wf⟩, hg, hsum⟩

end Redsea
