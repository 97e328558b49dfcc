import Verif.Model.BlockSync

/-
The ring buffers of src/util.hh refine "the last N values".
-/

namespace Redsea

namespace RunningSum

/-- Contents in chronological order, oldest first. -/
def rot (r : RunningSum) : List Nat := r.history.drop r.pointer ++ r.history.take r.pointer

/-- Well-formedness: 50 entries, pointer inside. -/
def WF (r : RunningSum) : Prop := r.history.length = 50 ∧ r.pointer < 50

theorem WF_init : WF init := ⟨by decide, by decide⟩

theorem WF.push {r : RunningSum} (h : WF r) (x : Nat) : WF (r.push x) := by
  obtain ⟨h1, h2⟩ := h
  refine ⟨by simp [RunningSum.push, h1], ?_⟩
  simp only [RunningSum.push, h1]
  exact Nat.mod_lt _ (by omega)

theorem WF.clear {r : RunningSum} (h : WF r) : WF r.clear := by
  obtain ⟨h1, h2⟩ := h
  exact ⟨by simp [RunningSum.clear, h1], h2⟩

theorem sum_rot (r : RunningSum) : r.rot.sum = r.getSum := by
  unfold rot getSum
  rw [List.sum_append, Nat.add_comm, ← List.sum_append, List.take_append_drop]

theorem rot_init : rot init = List.replicate 50 0 := by decide

theorem rot_clear {r : RunningSum} (h : WF r) : r.clear.rot = List.replicate 50 0 := by
  obtain ⟨h1, h2⟩ := h
  simp only [rot, RunningSum.clear, h1, List.drop_replicate, List.take_replicate,
    List.replicate_append_replicate]
  congr 1; omega

theorem rot_push {r : RunningSum} (h : WF r) (x : Nat) :
    (r.push x).rot = r.rot.tail ++ [x] := by
  obtain ⟨h1, h2⟩ := h
  have hd : r.history.drop r.pointer =
      r.history[r.pointer]'(by omega) :: r.history.drop (r.pointer + 1) :=
    List.drop_eq_getElem_cons (by omega)
  simp only [rot, RunningSum.push, h1]
  rw [hd]
  simp only [List.cons_append, List.tail_cons]
  by_cases he : r.pointer + 1 = 50
  · have hm : (r.pointer + 1) % 50 = 0 := by omega
    rw [hm]
    have hp : r.pointer = 49 := by omega
    have : r.history.drop (r.pointer + 1) = [] := by
      apply List.drop_eq_nil_of_le; omega
    rw [this]
    simp only [List.drop_zero, List.take_zero, List.append_nil, List.nil_append]
    rw [List.set_eq_take_append_cons_drop]
    simp only [h1, h2, if_true]
    rw [this]
  · have hm : (r.pointer + 1) % 50 = r.pointer + 1 := by omega
    rw [hm, List.drop_set_of_lt (by omega), List.append_assoc]
    congr 1
    rw [List.take_succ_eq_append_getElem (by simp; omega)]
    rw [List.take_set_of_le (by omega)]
    simp

end RunningSum

/-- The last 50 entries of a history that starts with 50 zeros. -/
def errWindow (log : List Nat) : List Nat := (List.replicate 50 0 ++ log).drop log.length

theorem errWindow_push (log : List Nat) (x : Nat) :
    errWindow (log ++ [x]) = (errWindow log).tail ++ [x] := by
  unfold errWindow
  rw [← List.append_assoc, List.length_append, List.tail_drop]
  simp only [List.length_singleton]
  rw [List.drop_append_of_le_length]
  simp

theorem errWindow_sum (log : List Nat) :
    (errWindow log).sum = (log.drop (log.length - 50)).sum := by
  unfold errWindow
  rw [List.drop_append]
  simp only [List.length_replicate, List.drop_replicate, List.sum_append, List.sum_replicate_nat]
  simp

end Redsea
