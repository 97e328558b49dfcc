import Verif.Lemmas.StreamInv
import Verif.Lemmas.Running

namespace Redsea
open Spec BlockStream

/-- First three statements of `pushBit`. -/
def shiftBit (s : BlockStream) (bit : Bool) : BlockStream :=
  { s with
    inputRegister := (s.inputRegister <<< 1) + (if bit then 1#32 else 0#32)
    numBitsUntilNextBlock := s.numBitsUntilNextBlock - 1
    bitcount := s.bitcount + 1 }

theorem pushBit_eq (fec : Bool) (s : BlockStream) (bit : Bool) :
    s.pushBit fec bit =
      if (shiftBit s bit).numBitsUntilNextBlock = 0 then
        { (shiftBit s bit).findBlockInInputRegister fec with
          numBitsUntilNextBlock :=
            if ((shiftBit s bit).findBlockInInputRegister fec).isInSync then 26 else 1 }
      else shiftBit s bit := rfl

/-- Whether a block failed its check, as a number. -/
def failFlag (s : BlockStream) : Nat :=
  if (registerBlock s.inputRegister).offset !=
    adjustExpected s.expectedOffset (registerBlock s.inputRegister).offset then 1 else 0

/-- Ghost log of the block check results since the window was last cleared:
extended whenever a block is processed in sync, emptied when sync is dropped. -/
def nextLog (fec : Bool) (s : BlockStream) (bit : Bool) (log : List Nat) : List Nat :=
  let s1 := shiftBit s bit
  if s1.numBitsUntilNextBlock = 0 then
    let s2 := s1.acquireSync (registerBlock s1.inputRegister)
    if s2.isInSync then
      if (s1.findBlockInInputRegister fec).isInSync then log ++ [failFlag s2] else []
    else log
  else log

/-- The next offset name in transmission order (`C` stands for the third slot). -/
def nextName : OffsetName → OffsetName
  | .A => .B | .B => .C | .C => .D | .Cprime => .D | .D => .A

theorem getNextOffsetFor_toOffset (o : OffsetName) :
    getNextOffsetFor (toOffset o) = toOffset (nextName o) := by cases o <;> rfl

theorem nextName_eq_A (o : OffsetName) : nextName o = .A ↔ o = .D := by
  cases o <;> simp [nextName]

theorem nextName_index {o : OffsetName} (h : o ≠ .D) : (nextName o).index = o.index + 1 := by
  cases o <;> first | rfl | exact absurd rfl h

theorem nextName_ne_Cprime (o : OffsetName) : nextName o ≠ .Cprime := by
  cases o <;> simp [nextName]

theorem toOffset_eq_A (o : OffsetName) : toOffset o = .A ↔ o = .A := by
  cases o <;> simp [toOffset]

/-- The name-level version of `adjustExpected`. -/
def adjustName (o : OffsetName) (found : Offset) : OffsetName :=
  if o = .C ∧ found = .Cprime then .Cprime else o

theorem adjustExpected_toOffset (o : OffsetName) (found : Offset) :
    adjustExpected (toOffset o) found = toOffset (adjustName o found) := by
  unfold adjustExpected adjustName
  cases o <;> simp [toOffset]
  split <;> rfl

theorem adjustName_index (o : OffsetName) (found : Offset) :
    (adjustName o found).index = o.index := by
  unfold adjustName
  split
  · rename_i h; rw [h.1]; rfl
  · rfl

theorem adjustName_eq_D (o : OffsetName) (found : Offset) : adjustName o found = .D ↔ o = .D := by
  unfold adjustName
  split
  · rename_i h; simp [h.1]
  · rfl

theorem nextName_adjustName (o : OffsetName) (found : Offset) :
    nextName (adjustName o found) = nextName o := by
  unfold adjustName
  split
  · rename_i h; rw [h.1]; rfl
  · rfl

theorem index_lt (o : OffsetName) : o.index < 4 := by cases o <;> decide

theorem nth_index (o : OffsetName) :
    BlockNum.nth o.index = getBlockNumberForOffset (toOffset o) := by cases o <;> rfl

theorem toNat_nth {k : Nat} (hk : k < 4) : (BlockNum.nth k).toNat = k := by
  have : k = 0 ∨ k = 1 ∨ k = 2 ∨ k = 3 := by omega
  rcases this with rfl | rfl | rfl | rfl <;> rfl

/-- Extending an assembled group by one slot. -/
theorem buildGroup_extend (f : BlockNum → Option Block) {k : Nat} (hk : k < 4) (ob : Option Block) :
    addOpt (buildGroup f k) (.nth k) ob =
      buildGroup (fun n => if n.toNat = k then ob else f n) (k + 1) := by
  simp only [buildGroup, toNat_nth hk, if_true]
  congr 1
  apply buildGroup_congr (by omega)
  intro n hn
  have : ¬ n.toNat = k := by omega
  simp [this]

/-- The block that `processInSync` stores, if any. -/
def storedBlock (fec : Bool) (reg : BitVec 32) (o : OffsetName) : Option Block :=
  let b := correctBlock fec { registerBlock reg with
    hadErrors := (registerBlock reg).offset != toOffset o } (toOffset o)
  if b.offset = toOffset o then some { b with isReceived := true } else none

/-- Closed form of `processInSync` on a register block. -/
theorem processInSync_eq (fec : Bool) (s : BlockStream) (o : OffsetName)
    (ho : s.expectedOffset = toOffset o) :
    s.processInSync fec (registerBlock s.inputRegister) =
      if (s.blockErrorSum50.push (failFlag s)).getSum > 42 then
        { s with
          expectedOffset := toOffset (adjustName o (registerBlock s.inputRegister).offset)
          isInSync := false
          blockErrorSum50 := (s.blockErrorSum50.push (failFlag s)).clear }
      else
        let o' := adjustName o (registerBlock s.inputRegister).offset
        let g := addOpt s.currentGroup (getBlockNumberForOffset (toOffset o'))
          (storedBlock fec s.inputRegister o')
        if o = .D then
          { s with
            expectedOffset := .A
            blockErrorSum50 := s.blockErrorSum50.push (failFlag s)
            currentGroup := {}, readyGroup := g, hasGroupReady := true }
        else
          { s with
            expectedOffset := toOffset (nextName o)
            blockErrorSum50 := s.blockErrorSum50.push (failFlag s)
            currentGroup := g } := by
  unfold processInSync
  have hflag : (if (registerBlock s.inputRegister).offset !=
        adjustExpected s.expectedOffset (registerBlock s.inputRegister).offset then 1 else 0) =
      failFlag s := rfl
  simp only [ho, adjustExpected_toOffset] at hflag ⊢
  simp only [hflag]
  have h42 : kMaxErrorsToleratedOver50Blocks = 42 := rfl
  rw [h42]
  split
  · rfl
  · simp only [storeBlock, storedBlock]
    set_option linter.unusedSimpArgs false in
    by_cases hst : (correctBlock fec { registerBlock s.inputRegister with
        hadErrors := (registerBlock s.inputRegister).offset !=
          toOffset (adjustName o (registerBlock s.inputRegister).offset) }
        (toOffset (adjustName o (registerBlock s.inputRegister).offset))).offset =
        toOffset (adjustName o (registerBlock s.inputRegister).offset)
    all_goals
      simp only [hst, if_true, if_false, addOpt, advance, getNextOffsetFor_toOffset,
        nextName_adjustName, toOffset_eq_A, nextName_eq_A]
      by_cases hD : o = .D
      · subst hD
        simp [handleNewlyReceivedGroup, nextName, toOffset]
      · simp [hD]

end Redsea
