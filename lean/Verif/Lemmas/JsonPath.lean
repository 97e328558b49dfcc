import Verif.Lemmas.Json

/-
What stands at a path of a JSON object after a list of operations.
-/

namespace Redsea

/-- The value at a path, if it exists. -/
def J.at? : List String → J → Option J
  | [], j => some j
  | k :: p, j => (j.get? k).bind (J.at? p)

/-- Neither path leads to or through the other. -/
def diverge : List String → List String → Bool
  | a :: p, b :: q => if a = b then diverge p q else true
  | _, _ => false

theorem get_null (k : String) : J.get? k .null = none := rfl

/-- An operation on an object acts on one member. -/
theorem get_update_self (k : String) (path : List String) (f : J → Option J) (j j' : J)
    (h : J.update (k :: path) f j = some j') :
    ∃ v, J.update path f ((j.get? k).getD .null) = some v ∧ j'.get? k = some v := by
  cases j with
  | null =>
    rw [J.update, Option.map_eq_some_iff] at h
    obtain ⟨l', hl, rfl⟩ := h
    obtain ⟨-, v, h1, h2⟩ := lookup_updateMember k _ _ _ hl k
    exact ⟨v, by simpa [J.get?] using h1, h2⟩
  | obj l =>
    rw [J.update, Option.map_eq_some_iff] at h
    obtain ⟨l', hl, rfl⟩ := h
    obtain ⟨-, v, h1, h2⟩ := lookup_updateMember k _ _ _ hl k
    exact ⟨v, h1, h2⟩
  | bool => simp [J.update] at h
  | int => simp [J.update] at h
  | float => simp [J.update] at h
  | str => simp [J.update] at h
  | arr => simp [J.update] at h

/-- Operations elsewhere leave a value alone. -/
theorem at_update_other (q p : List String) (f : J → Option J) (j j' : J)
    (h : J.update q f j = some j') (hd : diverge p q = true) : j'.at? p = j.at? p := by
  induction q generalizing p j j' with
  | nil => cases p <;> simp [diverge] at hd
  | cons k q ih =>
    cases p with
    | nil => simp [diverge] at hd
    | cons a p =>
      simp only [J.at?]
      by_cases hak : a = k
      · subst hak
        rw [diverge, if_pos rfl] at hd
        obtain ⟨v, h1, h2⟩ := get_update_self a q f j j' h
        rw [h2, Option.bind_some, ih p _ v h1 hd]
        cases hg : j.get? a with
        | some x => rfl
        | none =>
          cases p with
          | nil => simp [diverge] at hd
          | cons b p => rfl
      · rw [get_update k a q f j j' h hak]

/-- The operated value itself. -/
theorem at_update_self (p : List String) (f : J → Option J) (j j' : J)
    (h : J.update p f j = some j') : ∃ v, f ((j.at? p).getD .null) = some v ∧ j'.at? p = some v := by
  induction p generalizing j j' with
  | nil => exact ⟨j', h, rfl⟩
  | cons k p ih =>
    obtain ⟨v, h1, h2⟩ := get_update_self k p f j j' h
    obtain ⟨w, h3, h4⟩ := ih _ _ h1
    refine ⟨w, ?_, by rw [J.at?, h2, Option.bind_some, h4]⟩
    cases hg : j.get? k with
    | some x => rw [hg] at h3; rw [J.at?, hg]; exact h3
    | none =>
      rw [hg] at h3
      have : (J.at? (k :: p) j).getD .null = (J.at? p .null).getD .null := by
        rw [J.at?, hg]
        cases p with
        | nil => rfl
        | cons => rfl
      rw [this]
      exact h3

/-- The operation is elsewhere. -/
def JOp.Away (p : List String) (op : JOp) : Prop := diverge p op.path = true

theorem at_apply_other (op : JOp) (p : List String) (j j' : J) (hd : op.Away p)
    (h : op.apply j = some j') : j'.at? p = j.at? p := by
  cases op with
  | set q v => exact at_update_other q p _ j j' h hd
  | push q v => exact at_update_other q p _ j j' h hd
  | touch q => exact at_update_other q p _ j j' h hd

theorem at_build_other (p : List String) (ops : List JOp) (j j' : J)
    (ho : ∀ op ∈ ops, op.Away p) (h : J.build ops j = some j') : j'.at? p = j.at? p := by
  induction ops generalizing j with
  | nil =>
    have : j = j' := by simpa [J.build] using h
    rw [this]
  | cons op ops ih =>
    rw [build_cons, Option.bind_eq_some_iff] at h
    obtain ⟨j1, h1, h2⟩ := h
    rw [ih j1 (fun o ho' => ho o (List.mem_cons_of_mem _ ho')) h2]
    exact at_apply_other op p j j1 (ho op (by simp)) h1

/-- A value that is set and not touched afterwards. -/
theorem at_build_set (p : List String) (v : J) (pre post : List JOp) (j j' : J)
    (ho : ∀ op ∈ post, op.Away p) (h : J.build (pre ++ JOp.set p v :: post) j = some j') :
    j'.at? p = some v := by
  rw [build_append, Option.bind_eq_some_iff] at h
  obtain ⟨j1, -, h⟩ := h
  rw [build_cons, Option.bind_eq_some_iff] at h
  obtain ⟨j2, h2, h3⟩ := h
  rw [at_build_other p post j2 j' ho h3]
  obtain ⟨w, h4, h5⟩ := at_update_self p _ j1 j2 h2
  cases h4
  exact h5

/-- Values that are appended one after the other, starting from nothing. -/
theorem at_build_pushes (p : List String) (vs : List J) (j j' : J) (l : List J)
    (hj : j.at? p = some (.arr l)) (h : J.build (vs.map (JOp.push p)) j = some j') :
    j'.at? p = some (.arr (l ++ vs)) := by
  induction vs generalizing j l with
  | nil =>
    have : j = j' := by simpa [J.build] using h
    rw [← this, hj, List.append_nil]
  | cons v vs ih =>
    rw [List.map_cons, build_cons, Option.bind_eq_some_iff] at h
    obtain ⟨j1, h1, h2⟩ := h
    obtain ⟨w, h4, h5⟩ := at_update_self p _ j j1 h1
    rw [hj] at h4
    cases h4
    rw [ih j1 (l ++ [v]) h5 h2, List.append_assoc]
    rfl

theorem at_build_pushes_new (p : List String) (vs : List J) (hv : vs ≠ []) (j j' : J)
    (hj : j.at? p = none) (h : J.build (vs.map (JOp.push p)) j = some j') :
    j'.at? p = some (.arr vs) := by
  cases vs with
  | nil => exact absurd rfl hv
  | cons v vs =>
    rw [List.map_cons, build_cons, Option.bind_eq_some_iff] at h
    obtain ⟨j1, h1, h2⟩ := h
    obtain ⟨w, h4, h5⟩ := at_update_self p _ j j1 h1
    rw [hj] at h4
    cases h4
    exact at_build_pushes p vs j1 j' [v] h5 h2

/-- What stands at a path depends on the operations and what stood there only. -/
theorem at_apply_congr (op : JOp) (k : String) (i i' j j' : J) (he : i.get? k = j.get? k)
    (hi : op.apply i = some i') (hj : op.apply j = some j') (hp : op.path ≠ []) :
    i'.get? k = j'.get? k := by
  have key : ∀ (q : List String) (f : J → Option J), q ≠ [] → J.update q f i = some i' →
      J.update q f j = some j' → i'.get? k = j'.get? k := by
    intro q f hq h1 h2
    cases q with
    | nil => exact absurd rfl hq
    | cons a q =>
      by_cases hak : k = a
      · subst hak
        obtain ⟨v, h3, h4⟩ := get_update_self k q f i i' h1
        obtain ⟨w, h5, h6⟩ := get_update_self k q f j j' h2
        rw [he, h5] at h3
        rw [h4, h6, Option.some.inj h3]
      · rw [get_update a k q f i i' h1 hak, get_update a k q f j j' h2 hak, he]
  cases op with
  | set q v => exact key q _ hp hi hj
  | push q v => exact key q _ hp hi hj
  | touch q => exact key q _ hp hi hj

theorem get_build_congr (ops : List JOp) (k : String) (i i' j j' : J) (he : i.get? k = j.get? k)
    (hp : ∀ op ∈ ops, op.path ≠ []) (hi : J.build ops i = some i') (hj : J.build ops j = some j') :
    i'.get? k = j'.get? k := by
  induction ops generalizing i j with
  | nil =>
    have h1 : i = i' := by simpa [J.build] using hi
    have h2 : j = j' := by simpa [J.build] using hj
    rw [← h1, ← h2, he]
  | cons op ops ih =>
    rw [build_cons, Option.bind_eq_some_iff] at hi hj
    obtain ⟨i1, a1, a2⟩ := hi
    obtain ⟨j1, b1, b2⟩ := hj
    exact ih i1 j1 (at_apply_congr op k i i1 j j1 he a1 b1 (hp op (by simp)))
      (fun o ho => hp o (List.mem_cons_of_mem _ ho)) a2 b2

end Redsea
