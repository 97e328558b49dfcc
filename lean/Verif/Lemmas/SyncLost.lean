import Verif.Lemmas.StreamDeliver
import Verif.Lemmas.StreamPhase
import Verif.Lemmas.ListAux

/-
The counter of bits without synchronisation.
-/

namespace Redsea
open _root_.Spec BlockStream

theorem advance_lost (s : BlockStream) : s.advance.numBitsSinceSyncLost = s.numBitsSinceSyncLost := by
  unfold advance
  dsimp only
  by_cases h : getNextOffsetFor s.expectedOffset = Offset.A
  · rw [if_pos h]
    rfl
  · rw [if_neg h]

theorem storeBlock_lost (s : BlockStream) (b : Block) :
    (s.storeBlock b).numBitsSinceSyncLost = s.numBitsSinceSyncLost := by
  unfold storeBlock
  dsimp only
  split <;> rfl

theorem processInSync_lost (fec : Bool) (s : BlockStream) (b : Block) :
    (s.processInSync fec b).numBitsSinceSyncLost = s.numBitsSinceSyncLost := by
  unfold processInSync
  dsimp only
  generalize s.blockErrorSum50.push _ = sum
  by_cases h : sum.getSum > kMaxErrorsToleratedOver50Blocks
  · rw [if_pos h]
  · rw [if_neg h, advance_lost, storeBlock_lost]

theorem acquireSync_lost (s : BlockStream) (b : Block) (h : s.isInSync = false) :
    ((s.acquireSync b).isInSync = true ∧ (s.acquireSync b).numBitsSinceSyncLost = 0) ∨
      ((s.acquireSync b).isInSync = false ∧
        (s.acquireSync b).numBitsSinceSyncLost = s.numBitsSinceSyncLost + 1) := by
  unfold acquireSync
  rw [h]
  simp only [Bool.false_eq_true, if_false]
  split
  · split
    · exact .inl ⟨rfl, rfl⟩
    · exact .inr ⟨rfl, rfl⟩
  · exact .inr ⟨rfl, rfl⟩

/-- One bit either leaves the counter at 0, or it is one more bit out of synchronisation. -/
theorem lost_step {fec : Bool} {bs : List Bool} {log : List Nat} {s : BlockStream} (h : Inv fec bs log s)
    (h0 : s.isInSync = true → s.numBitsSinceSyncLost = 0) (bit : Bool) :
    (s.step fec bit).1.numBitsSinceSyncLost = 0 ∨
      ((s.step fec bit).1.isInSync = false ∧
        (s.step fec bit).1.numBitsSinceSyncLost = s.numBitsSinceSyncLost + 1) := by
  have hf : (s.step fec bit).1.isInSync = (s.pushBit fec bit).isInSync ∧
      (s.step fec bit).1.numBitsSinceSyncLost = (s.pushBit fec bit).numBitsSinceSyncLost := by
    rw [step_eq]
    split <;> exact ⟨rfl, rfl⟩
  rw [hf.1, hf.2]
  cases hs : s.isInSync with
  | true =>
    left
    by_cases hn : s.numBitsUntilNextBlock = 1
    · rw [pushBit_block bit hs hn]
      dsimp only
      rw [processInSync_lost]
      exact h0 hs
    · rw [pushBit_inside bit hn]
      exact h0 hs
  | false =>
    have hn := (h.outOfSync hs).1
    have hnb : (shiftBit s bit).numBitsUntilNextBlock = 0 := by simp [shiftBit, hn]
    rw [pushBit_eq, if_pos hnb]
    dsimp only
    unfold findBlockInInputRegister
    dsimp only
    rcases acquireSync_lost (shiftBit s bit) (registerBlock (shiftBit s bit).inputRegister) hs with ⟨h1, h2⟩ | ⟨h1, h2⟩
    · left
      rw [if_pos h1, processInSync_lost, h2]
    · right
      rw [if_neg (by rw [h1]; decide)]
      exact ⟨h1, h2⟩

/-- If the counter is above `j`, then there was no synchronisation for `j + 1` bits. -/
theorem lost_span (fec : Bool) (bs : List Bool) :
    ((stateAfter fec bs).isInSync = true → (stateAfter fec bs).numBitsSinceSyncLost = 0) ∧
      ∀ j, j < (stateAfter fec bs).numBitsSinceSyncLost.toNat →
        j < bs.length ∧ (stateAfter fec (bs.take (bs.length - j))).isInSync = false := by
  refine snocInduction (motive := fun bs =>
    ((stateAfter fec bs).isInSync = true → (stateAfter fec bs).numBitsSinceSyncLost = 0) ∧
      ∀ j, j < (stateAfter fec bs).numBitsSinceSyncLost.toNat →
        j < bs.length ∧ (stateAfter fec (bs.take (bs.length - j))).isInSync = false) bs ?_ ?_
  · refine ⟨fun _ => rfl, fun j hj => ?_⟩
    have : (stateAfter fec []).numBitsSinceSyncLost.toNat = 0 := rfl
    omega
  · intro bs bit ih
    have hst := lost_step (inv_stateAfter fec bs) ih.1 bit
    rw [← stateAfter_snoc] at hst
    rcases hst with h | ⟨h1, h2⟩
    · refine ⟨fun _ => h, fun j hj => ?_⟩
      rw [h] at hj
      exact absurd hj (by simp)
    · refine ⟨fun h => absurd h (by rw [h1]; decide), fun j hj => ?_⟩
      rw [List.length_append, List.length_singleton]
      cases j with
      | zero =>
        refine ⟨by omega, ?_⟩
        rw [Nat.sub_zero, List.take_of_length_le (by simp)]
        exact h1
      | succ j =>
        have hle : (stateAfter fec (bs ++ [bit])).numBitsSinceSyncLost.toNat ≤
            (stateAfter fec bs).numBitsSinceSyncLost.toNat + 1 := by
          rw [h2, BitVec.toNat_add]
          exact Nat.mod_le _ _
        obtain ⟨e1, e2⟩ := ih.2 j (by omega)
        refine ⟨by omega, ?_⟩
        rw [show bs.length + 1 - (j + 1) = bs.length - j by omega, List.take_append_of_le_length (by omega)]
        exact e2

end Redsea
