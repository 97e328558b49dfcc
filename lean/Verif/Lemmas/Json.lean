import Verif.Model.Station

/-
JSON operations that follow a fixed plan of paths never throw.
-/

namespace Redsea

/-- Paths that lead to nested objects. -/
def objectPaths : List (List String) := [
  [], ["di"], ["alt_frequencies_b"], ["prog_item_started"], ["other_network"],
  ["other_network", "prog_item_started"], ["open_data_app"], ["transparent_data"],
  ["unknown_oda"], ["dab"], ["radiotext_plus"], ["ert_plus"],
  ["rft"], ["rft", "data"], ["rft", "file_info"], ["rft", "crc_info"],
  ["tmc"], ["tmc", "system_info"], ["tmc", "other_network"], ["tmc", "message"]]

/-- Paths that lead to arrays. -/
def arrayPaths : List (List String) := [
  ["debug"], ["alt_frequencies_a"], ["partial_alt_frequencies"],
  ["alt_frequencies_b", "same_programme"], ["alt_frequencies_b", "regional_variants"],
  ["in_house_data"], ["other_network", "alt_frequencies"],
  ["radiotext_plus", "tags"], ["ert_plus", "tags"],
  ["tmc", "system_info", "scope"], ["tmc", "other_network", "scope"],
  ["tmc", "other_network", "frequencies_khz"], ["tmc", "other_network", "pi_codes"]]

/-- A value that may stand at a path: at an object path null or an object (whose members fit,
see below), at an array path null or an array. -/
def fitsAt (p : List String) : J → Prop
  | .null => True
  | .obj l => p ∉ arrayPaths ∧ (p ∈ objectPaths → ∀ m ∈ l, fitsAt (p ++ [m.1]) m.2)
  | .arr _ => p ∉ objectPaths
  | .bool _ => p ∉ objectPaths ∧ p ∉ arrayPaths
  | .int _ => p ∉ objectPaths ∧ p ∉ arrayPaths
  | .float _ => p ∉ objectPaths ∧ p ∉ arrayPaths
  | .str _ => p ∉ objectPaths ∧ p ∉ arrayPaths
termination_by j => sizeOf j
decreasing_by
  rename_i hm
  have h1 : sizeOf m < sizeOf l := List.sizeOf_lt_of_mem hm
  have h2 : sizeOf m.2 < sizeOf m := by cases m; simp; omega
  simp only [J.obj.sizeOf_spec]; omega

/-- All prefixes of `pre ++ path` from `pre` on, without the full path, are object paths. -/
def prefixesOk (pre : List String) : List String → Bool
  | [] => true
  | k :: rest => decide (pre ∈ objectPaths) && prefixesOk (pre ++ [k]) rest

mutual
/-- No object in a value has two members of the same name. -/
def J.Distinct : J → Prop
  | .arr l => J.DistinctList l
  | .obj l => (l.map Prod.fst).Nodup ∧ J.DistinctMembers l
  | _ => True
/-- … for the elements of an array -/
def J.DistinctList : List J → Prop
  | [] => True
  | j :: l => j.Distinct ∧ J.DistinctList l
/-- … for the members of an object -/
def J.DistinctMembers : List (String × J) → Prop
  | [] => True
  | m :: l => m.2.Distinct ∧ J.DistinctMembers l
end

theorem distinctList_iff (l : List J) : J.DistinctList l ↔ ∀ j ∈ l, j.Distinct := by
  induction l with
  | nil => simp [J.DistinctList]
  | cons j l ih => simp [J.DistinctList, ih]

theorem distinctMembers_iff (l : List (String × J)) : J.DistinctMembers l ↔ ∀ m ∈ l, m.2.Distinct := by
  induction l with
  | nil => simp [J.DistinctMembers]
  | cons j l ih => simp [J.DistinctMembers, ih]

theorem distinct_map {α : Type} (l : List α) (f : α → J) (h : ∀ a, (f a).Distinct) : (J.arr (l.map f)).Distinct := by
  rw [J.Distinct, distinctList_iff]
  intro j hj
  obtain ⟨a, -, rfl⟩ := List.mem_map.mp hj
  exact h a

theorem distinct_str (s : Str) : (J.str s).Distinct := by simp [J.Distinct]
theorem distinct_int (i : Int) : (J.int i).Distinct := by simp [J.Distinct]
theorem distinct_float (b : BitVec 32) : (J.float b).Distinct := by simp [J.Distinct]
theorem distinct_pair (k k' : String) (v v' : J) (hk : k ≠ k') (hv : v.Distinct) (hv' : v'.Distinct) :
    (J.obj [(k, v), (k', v')]).Distinct := by
  simp [J.Distinct, J.DistinctMembers, hk, hv, hv']

/-- Operations that follow the plan. -/
def JOp.Planned : JOp → Prop
  | .set p v => prefixesOk [] p ∧ fitsAt p v ∧ v.Distinct
  | .push p v => prefixesOk [] p ∧ p ∈ arrayPaths ∧ v.Distinct
  | .touch p => prefixesOk [] p

/-- Members that are only written before a group is decoded. -/
def reservedKeys : List String := [
  "stream", "pi", "callsign", "callsign_uncertain", "rx_time", "bler", "channel", "raw_data", "group",
  "tp", "prog_type"]

/-- The path does not start with a reserved member. -/
def freePath : List String → Bool
  | [] => false
  | k :: _ => decide (k ∉ reservedKeys)

/-- Operations of decoders: they follow the plan and leave reserved members alone. -/
def JOp.Ok (op : JOp) : Prop := op.Planned ∧ freePath op.path = true

theorem updateMember_ok (P : String → J → Prop) (k : String) (f : J → Option J) (l : List (String × J))
    (hf : ∀ v, P k v → ∃ v', f v = some v' ∧ P k v') (h0 : P k .null)
    (hl : ∀ m ∈ l, P m.1 m.2) :
    ∃ l', updateMember k f l = some l' ∧ ∀ m ∈ l', P m.1 m.2 := by
  induction l with
  | nil =>
    obtain ⟨v, hv, hP⟩ := hf _ h0
    exact ⟨[(k, v)], by simp [updateMember, hv], by simp [hP]⟩
  | cons m l ih =>
    obtain ⟨k', v⟩ := m
    by_cases h : k' = k
    · subst h
      obtain ⟨v', hv, hP⟩ := hf v (hl (k', v) (by simp))
      refine ⟨(k', v') :: l, by simp [updateMember, hv], ?_⟩
      intro m hm
      rcases List.mem_cons.1 hm with rfl | hm
      · exact hP
      · exact hl m (List.mem_cons_of_mem _ hm)
    · obtain ⟨l', hl', hP⟩ := ih fun m hm => hl m (List.mem_cons_of_mem _ hm)
      refine ⟨(k', v) :: l', by simp [updateMember, h, hl'], ?_⟩
      intro m hm
      rcases List.mem_cons.1 hm with rfl | hm
      · exact hl (k', v) (by simp)
      · exact hP m hm

theorem fitsAt_null (p : List String) : fitsAt p .null := by simp [fitsAt]

theorem object_not_array (p : List String) (h : p ∈ objectPaths) : p ∉ arrayPaths := by
  have : ∀ p ∈ objectPaths, p ∉ arrayPaths := by decide
  exact this p h

theorem fitsAt_obj (p : List String) (hp : p ∈ objectPaths) (l : List (String × J)) :
    fitsAt p (.obj l) ↔ ∀ m ∈ l, fitsAt (p ++ [m.1]) m.2 := by
  rw [fitsAt]
  exact ⟨fun h => h.2 hp, fun h => ⟨object_not_array p hp, fun _ => h⟩⟩

theorem update_ok (path pre : List String) (f : J → Option J) (j : J) (hp : prefixesOk pre path)
    (hf : ∀ v, fitsAt (pre ++ path) v → ∃ v', f v = some v' ∧ fitsAt (pre ++ path) v')
    (hj : fitsAt pre j) : ∃ j', J.update path f j = some j' ∧ fitsAt pre j' := by
  induction path generalizing pre j with
  | nil => simpa [J.update] using hf j (by simpa using hj)
  | cons k path ih =>
    have hpre : pre ∈ objectPaths := by
      rw [prefixesOk, Bool.and_eq_true] at hp; exact of_decide_eq_true hp.1
    have hrest : prefixesOk (pre ++ [k]) path := by
      rw [prefixesOk, Bool.and_eq_true] at hp; exact hp.2
    have hk : ∀ v, fitsAt (pre ++ [k]) v →
        ∃ v', J.update path f v = some v' ∧ fitsAt (pre ++ [k]) v' := fun v hv =>
      ih (pre ++ [k]) v hrest (by simpa using hf) hv
    cases j with
    | null =>
      obtain ⟨l', h1, h2⟩ := updateMember_ok (fun k v => fitsAt (pre ++ [k]) v) k
        (J.update path f) [] hk (fitsAt_null _) (by simp)
      exact ⟨.obj l', by simp [J.update, h1], (fitsAt_obj pre hpre l').2 h2⟩
    | obj l =>
      obtain ⟨l', h1, h2⟩ := updateMember_ok (fun k v => fitsAt (pre ++ [k]) v) k
        (J.update path f) l hk (fitsAt_null _) ((fitsAt_obj pre hpre l).1 hj)
      exact ⟨.obj l', by simp [J.update, h1], (fitsAt_obj pre hpre l').2 h2⟩
    | bool => exact absurd hpre (by rw [fitsAt] at hj; exact hj.1)
    | int => exact absurd hpre (by rw [fitsAt] at hj; exact hj.1)
    | float => exact absurd hpre (by rw [fitsAt] at hj; exact hj.1)
    | str => exact absurd hpre (by rw [fitsAt] at hj; exact hj.1)
    | arr => exact absurd hpre (by rw [fitsAt] at hj; exact hj)

theorem apply_ok (op : JOp) (h : op.Planned) (j : J) (hj : fitsAt [] j) :
    ∃ j', op.apply j = some j' ∧ fitsAt [] j' := by
  cases op with
  | set p v => exact update_ok p [] _ j h.1 (fun _ _ => ⟨v, rfl, h.2.1⟩) hj
  | touch p => exact update_ok p [] _ j h (fun v hv => ⟨v, rfl, hv⟩) hj
  | push p v =>
    refine update_ok p [] _ j h.1 (fun w hw => ?_) hj
    have hp : p ∈ arrayPaths := h.2.1
    have hno : p ∉ objectPaths := fun h => object_not_array p h hp
    simp only [List.nil_append] at hw ⊢
    cases w with
    | null => exact ⟨_, rfl, by rw [fitsAt]; exact hno⟩
    | arr l => exact ⟨_, rfl, by rw [fitsAt]; exact hno⟩
    | bool => exact absurd hp (by rw [fitsAt] at hw; exact hw.2)
    | int => exact absurd hp (by rw [fitsAt] at hw; exact hw.2)
    | float => exact absurd hp (by rw [fitsAt] at hw; exact hw.2)
    | str => exact absurd hp (by rw [fitsAt] at hw; exact hw.2)
    | obj => exact absurd hp (by rw [fitsAt] at hw; exact hw.1)

/-- Operations that follow the plan can be performed on every object that fits. -/
theorem build_ok (ops : List JOp) (h : ∀ op ∈ ops, op.Planned) (j : J) (hj : fitsAt [] j) :
    ∃ j', J.build ops j = some j' ∧ fitsAt [] j' := by
  induction ops generalizing j with
  | nil => exact ⟨j, rfl, hj⟩
  | cons op ops ih =>
    obtain ⟨j1, h1, h2⟩ := apply_ok op (h op (by simp)) j hj
    obtain ⟨j2, h3, h4⟩ := ih (fun op hop => h op (List.mem_cons_of_mem _ hop)) j1 h2
    refine ⟨j2, ?_, h4⟩
    simp only [J.build, List.foldlM_cons] at h3 ⊢
    rw [h1]
    exact h3

theorem updateMember_names (k : String) (f : J → Option J) (l l' : List (String × J))
    (h : updateMember k f l = some l') :
    l'.map Prod.fst = if k ∈ l.map Prod.fst then l.map Prod.fst else l.map Prod.fst ++ [k] := by
  induction l generalizing l' with
  | nil =>
    rw [updateMember, Option.map_eq_some_iff] at h
    obtain ⟨v, -, rfl⟩ := h
    rfl
  | cons m l ih =>
    obtain ⟨k0, v0⟩ := m
    rw [updateMember] at h
    split at h
    · rename_i hk
      rw [Option.map_eq_some_iff] at h
      obtain ⟨v, -, rfl⟩ := h
      subst hk
      simp
    · rename_i hk
      rw [Option.map_eq_some_iff] at h
      obtain ⟨l1, hl1, rfl⟩ := h
      have hk' : k ≠ k0 := fun h => hk h.symm
      rw [List.map_cons, ih l1 hl1]
      simp only [List.map_cons, List.mem_cons, hk', false_or]
      split <;> rfl

theorem updateMember_distinct (k : String) (f : J → Option J)
    (hf : ∀ v v', f v = some v' → v.Distinct → v'.Distinct) (l l' : List (String × J))
    (h : updateMember k f l = some l') (hl : (J.obj l).Distinct) : (J.obj l').Distinct := by
  rw [J.Distinct] at hl ⊢
  refine ⟨?_, ?_⟩
  · rw [updateMember_names k f l l' h]
    split
    · exact hl.1
    · rename_i hk
      rw [List.nodup_append]
      refine ⟨hl.1, by simp, ?_⟩
      intro a ha b hb he
      rw [List.mem_singleton.mp hb] at he
      exact hk (he ▸ ha)
  · have hm := hl.2
    clear hl
    rw [distinctMembers_iff] at hm ⊢
    induction l generalizing l' with
    | nil =>
      rw [updateMember, Option.map_eq_some_iff] at h
      obtain ⟨v, hv, rfl⟩ := h
      intro m hmem
      rw [List.mem_singleton.mp hmem]
      exact hf _ _ hv (by simp [J.Distinct])
    | cons m l ih =>
      obtain ⟨k0, v0⟩ := m
      rw [updateMember] at h
      split at h
      · rw [Option.map_eq_some_iff] at h
        obtain ⟨v, hv, rfl⟩ := h
        intro m hmem
        rcases List.mem_cons.mp hmem with rfl | hmem
        · exact hf _ _ hv (hm _ List.mem_cons_self)
        · exact hm m (List.mem_cons_of_mem _ hmem)
      · rw [Option.map_eq_some_iff] at h
        obtain ⟨l1, hl1, rfl⟩ := h
        intro m hmem
        rcases List.mem_cons.mp hmem with rfl | hmem
        · exact hm _ List.mem_cons_self
        · exact ih l1 hl1 (fun m hm' => hm m (List.mem_cons_of_mem _ hm')) m hmem

theorem update_distinct (path : List String) (f : J → Option J)
    (hf : ∀ v v', f v = some v' → v.Distinct → v'.Distinct) (j j' : J) (h : J.update path f j = some j')
    (hj : j.Distinct) : j'.Distinct := by
  induction path generalizing j j' with
  | nil => exact hf j j' h hj
  | cons k path ih =>
    cases j with
    | null =>
      rw [J.update, Option.map_eq_some_iff] at h
      obtain ⟨l', hl, rfl⟩ := h
      exact updateMember_distinct k _ ih _ _ hl (by simp [J.Distinct, J.DistinctMembers])
    | obj l =>
      rw [J.update, Option.map_eq_some_iff] at h
      obtain ⟨l', hl, rfl⟩ := h
      exact updateMember_distinct k _ ih _ _ hl hj
    | bool => simp [J.update] at h
    | int => simp [J.update] at h
    | float => simp [J.update] at h
    | str => simp [J.update] at h
    | arr => simp [J.update] at h

/-- Operations that follow the plan never make two members of the same name. -/
theorem build_distinct (ops : List JOp) (h : ∀ op ∈ ops, op.Planned) (j j' : J) (hb : J.build ops j = some j')
    (hj : j.Distinct) : j'.Distinct := by
  induction ops generalizing j with
  | nil =>
    have : j = j' := by simpa [J.build] using hb
    rw [← this]
    exact hj
  | cons op ops ih =>
    simp only [J.build, List.foldlM_cons] at hb
    obtain ⟨j1, h1, h2⟩ := Option.bind_eq_some_iff.mp hb
    refine ih (fun op hop => h op (List.mem_cons_of_mem _ hop)) j1 h2 ?_
    have hp := h op List.mem_cons_self
    cases op with
    | set p v => exact update_distinct p _ (fun _ _ he _ => Option.some.inj he ▸ hp.2.2) j j1 h1 hj
    | touch p => exact update_distinct p _ (fun _ _ he hv => Option.some.inj he ▸ hv) j j1 h1 hj
    | push p v =>
      refine update_distinct p _ (fun w w' he hw => ?_) j j1 h1 hj
      cases w with
      | null =>
        cases Option.some.inj he
        simp [J.Distinct, J.DistinctList, hp.2.2]
      | arr l =>
        cases Option.some.inj he
        rw [J.Distinct, distinctList_iff] at hw ⊢
        intro x hx
        rcases List.mem_append.mp hx with hx | hx
        · exact hw x hx
        · rw [List.mem_singleton.mp hx]
          exact hp.2.2
      | bool => cases he
      | int => cases he
      | float => cases he
      | str => cases he
      | obj => cases he

/-- All operations follow the plan. -/
def OpsOk (ops : List JOp) : Prop := ∀ op ∈ ops, op.Ok

theorem opsOk_nil : OpsOk [] := by simp [OpsOk]
theorem opsOk_cons (op : JOp) (ops : List JOp) : OpsOk (op :: ops) ↔ op.Ok ∧ OpsOk ops := by
  simp [OpsOk]
theorem opsOk_append (a b : List JOp) : OpsOk (a ++ b) ↔ OpsOk a ∧ OpsOk b := by
  simp [OpsOk, or_imp, forall_and]
theorem opsOk_map {α : Type} (l : List α) (f : α → JOp) (h : ∀ a, (f a).Ok) :
    OpsOk (l.map f) := by
  intro op hop
  obtain ⟨a, _, rfl⟩ := List.mem_map.1 hop
  exact h a
theorem opsOk_ite (c : Prop) [Decidable c] (a b : List JOp) (ha : OpsOk a) (hb : OpsOk b) :
    OpsOk (if c then a else b) := by split <;> assumption
theorem opsOk_toList {α : Type} (o : Option α) (f : α → JOp) (h : ∀ a, (f a).Ok) :
    OpsOk (o.map f).toList := by
  cases o <;> simp [OpsOk, h]

/-- A path to a value that is neither an object nor an array. -/
def leafPath (p : List String) : Bool :=
  prefixesOk [] p && decide (p ∉ objectPaths) && decide (p ∉ arrayPaths)

theorem planned_scalar {p : List String} (h : leafPath p = true) :
    (∀ s, (JOp.set p (.str s)).Planned) ∧ (∀ i, (JOp.set p (.int i)).Planned) ∧
      (∀ b, (JOp.set p (.bool b)).Planned) ∧ (∀ l, (J.arr l).Distinct → (JOp.set p (.arr l)).Planned) := by
  rw [leafPath, Bool.and_eq_true, Bool.and_eq_true, decide_eq_true_eq, decide_eq_true_eq] at h
  obtain ⟨⟨h1, h2⟩, h3⟩ := h
  refine ⟨fun s => ⟨h1, ?_, by simp [J.Distinct]⟩, fun s => ⟨h1, ?_, by simp [J.Distinct]⟩,
    fun s => ⟨h1, ?_, by simp [J.Distinct]⟩, fun s hs => ⟨h1, ?_, hs⟩⟩ <;>
    rw [fitsAt]
  · exact ⟨h2, h3⟩
  · exact ⟨h2, h3⟩
  · exact ⟨h2, h3⟩
  · exact h2

/-- A path to a value that is neither an object nor an array, and not reserved. -/
def freeLeaf (p : List String) : Bool := leafPath p && freePath p

theorem ok_scalar {p : List String} (h : freeLeaf p = true) :
    (∀ s, (JOp.set p (.str s)).Ok) ∧ (∀ i, (JOp.set p (.int i)).Ok) ∧
      (∀ b, (JOp.set p (.bool b)).Ok) ∧ (∀ l, (J.arr l).Distinct → (JOp.set p (.arr l)).Ok) := by
  rw [freeLeaf, Bool.and_eq_true] at h
  obtain ⟨h1, h2, h3, h4⟩ := planned_scalar h.1
  exact ⟨fun s => ⟨h1 s, h.2⟩, fun s => ⟨h2 s, h.2⟩, fun s => ⟨h3 s, h.2⟩, fun s hs => ⟨h4 s hs, h.2⟩⟩

theorem ok_str {p : List String} (s : Str) (h : freeLeaf p = true) : (JOp.set p (.str s)).Ok :=
  (ok_scalar h).1 s
theorem ok_int {p : List String} (i : Int) (h : freeLeaf p = true) : (JOp.set p (.int i)).Ok :=
  (ok_scalar h).2.1 i
theorem ok_bool {p : List String} (b : Bool) (h : freeLeaf p = true) : (JOp.set p (.bool b)).Ok :=
  (ok_scalar h).2.2.1 b
theorem ok_arr {p : List String} (l : List J) (h : freeLeaf p = true) (hl : (J.arr l).Distinct) :
    (JOp.set p (.arr l)).Ok := (ok_scalar h).2.2.2 l hl
theorem ok_push {p : List String} (v : J) (hv : v.Distinct)
    (h : (prefixesOk [] p && decide (p ∈ arrayPaths) && freePath p) = true) :
    (JOp.push p v).Ok := by
  rw [Bool.and_eq_true, Bool.and_eq_true, decide_eq_true_eq] at h
  exact ⟨⟨h.1.1, h.1.2, hv⟩, h.2⟩

/-! ### Members -/

theorem lookup_updateMember (k : String) (f : J → Option J) (l l' : List (String × J))
    (h : updateMember k f l = some l') (k' : String) :
    (k' ≠ k → l'.lookup k' = l.lookup k') ∧
    ∃ v, f ((l.lookup k).getD .null) = some v ∧ l'.lookup k = some v := by
  induction l generalizing l' with
  | nil =>
    rw [updateMember, Option.map_eq_some_iff] at h
    obtain ⟨v, hv, rfl⟩ := h
    refine ⟨fun hne => ?_, v, by simpa using hv, by simp⟩
    have : (k' == k) = false := by simpa using hne
    simp [List.lookup_cons, this]
  | cons m l ih =>
    obtain ⟨k0, v0⟩ := m
    rw [updateMember] at h
    split at h
    · rename_i hk
      subst hk
      rw [Option.map_eq_some_iff] at h
      obtain ⟨v, hv, rfl⟩ := h
      refine ⟨fun hne => ?_, v, by simpa using hv, by simp⟩
      have : (k' == k0) = false := by simpa using hne
      simp [List.lookup_cons, this]
    · rename_i hk
      rw [Option.map_eq_some_iff] at h
      obtain ⟨l1, hl1, rfl⟩ := h
      obtain ⟨h1, v, h2, h3⟩ := ih l1 hl1
      have hk' : (k == k0) = false := by simpa using fun h => hk h.symm
      refine ⟨fun hne => ?_, v, by simpa [List.lookup_cons, hk'] using h2,
        by simpa [List.lookup_cons, hk'] using h3⟩
      simp only [List.lookup_cons]
      split
      · rfl
      · exact h1 hne

/-- Operations on other members leave a member alone. -/
theorem get_update (k k' : String) (path : List String) (f : J → Option J) (j j' : J)
    (h : J.update (k :: path) f j = some j') (hne : k' ≠ k) : j'.get? k' = j.get? k' := by
  cases j with
  | null =>
    rw [J.update, Option.map_eq_some_iff] at h
    obtain ⟨l', hl, rfl⟩ := h
    have := (lookup_updateMember k _ _ _ hl k').1 hne
    simpa [J.get?] using this
  | obj l =>
    rw [J.update, Option.map_eq_some_iff] at h
    obtain ⟨l', hl, rfl⟩ := h
    have := (lookup_updateMember k _ _ _ hl k').1 hne
    simpa [J.get?] using this
  | bool => simp [J.update] at h
  | int => simp [J.update] at h
  | float => simp [J.update] at h
  | str => simp [J.update] at h
  | arr => simp [J.update] at h

/-- The first member name of a path. -/
def JOp.key (op : JOp) : Option String := op.path.head?

theorem get_apply_other (op : JOp) (k k' : String) (j j' : J) (hk : op.key = some k)
    (h : op.apply j = some j') (hne : k' ≠ k) : j'.get? k' = j.get? k' := by
  have hp : ∃ rest, op.path = k :: rest := by
    rw [JOp.key] at hk
    cases hp : op.path with
    | nil => simp [hp] at hk
    | cons a rest => rw [hp] at hk; simp at hk; exact ⟨rest, by rw [hk]⟩
  obtain ⟨rest, hrest⟩ := hp
  cases op with
  | set p v => rw [JOp.path] at hrest; subst hrest; exact get_update k k' rest _ j j' h hne
  | push p v => rw [JOp.path] at hrest; subst hrest; exact get_update k k' rest _ j j' h hne
  | touch p => rw [JOp.path] at hrest; subst hrest; exact get_update k k' rest _ j j' h hne

theorem get_apply_set (k : String) (v : J) (j j' : J) (h : (JOp.set [k] v).apply j = some j') :
    j'.get? k = some v := by
  rw [JOp.apply] at h
  cases j with
  | null =>
    rw [J.update, Option.map_eq_some_iff] at h
    obtain ⟨l', hl, rfl⟩ := h
    obtain ⟨-, w, hw, hl'⟩ := lookup_updateMember k _ _ _ hl k
    have : v = w := by simpa [J.update] using hw
    subst this
    exact hl'
  | obj l =>
    rw [J.update, Option.map_eq_some_iff] at h
    obtain ⟨l', hl, rfl⟩ := h
    obtain ⟨-, w, hw, hl'⟩ := lookup_updateMember k _ _ _ hl k
    have : v = w := by simpa [J.update] using hw
    subst this
    exact hl'
  | bool => simp [J.update] at h
  | int => simp [J.update] at h
  | float => simp [J.update] at h
  | str => simp [J.update] at h
  | arr => simp [J.update] at h

theorem build_append (a b : List JOp) (j : J) :
    J.build (a ++ b) j = (J.build a j).bind (J.build b) := by
  simp only [J.build, List.foldlM_append]
  rfl

theorem build_cons (op : JOp) (ops : List JOp) (j : J) :
    J.build (op :: ops) j = (op.apply j).bind (J.build ops) := rfl

/-- A member that no operation touches is unchanged. -/
theorem get_build_other (k : String) (ops : List JOp) (j j' : J)
    (ho : ∀ op ∈ ops, ∃ k', op.key = some k' ∧ k ≠ k') (h : J.build ops j = some j') :
    j'.get? k = j.get? k := by
  induction ops generalizing j with
  | nil =>
    have : j = j' := by simpa [J.build] using h
    rw [this]
  | cons op ops ih =>
    rw [build_cons, Option.bind_eq_some_iff] at h
    obtain ⟨j1, h1, h2⟩ := h
    obtain ⟨k', hk, hne⟩ := ho op (by simp)
    rw [ih j1 (fun o ho' => ho o (List.mem_cons_of_mem _ ho')) h2]
    exact get_apply_other op k' k j j1 hk h1 hne

/-- A member that is set and not touched afterwards. -/
theorem get_build_set (k : String) (v : J) (pre post : List JOp) (j j' : J)
    (ho : ∀ op ∈ post, ∃ k', op.key = some k' ∧ k ≠ k')
    (h : J.build (pre ++ JOp.set [k] v :: post) j = some j') : j'.get? k = some v := by
  rw [build_append, Option.bind_eq_some_iff] at h
  obtain ⟨j1, -, h⟩ := h
  rw [build_cons, Option.bind_eq_some_iff] at h
  obtain ⟨j2, h2, h3⟩ := h
  rw [get_build_other k post j2 j' ho h3]
  exact get_apply_set k v j1 j2 h2

theorem free_key {op : JOp} (h : freePath op.path = true) {k : String} (hk : k ∈ reservedKeys) :
    ∃ k', op.key = some k' ∧ k ≠ k' := by
  rw [JOp.key]
  cases hp : op.path with
  | nil => rw [hp] at h; simp [freePath] at h
  | cons a rest =>
    rw [hp, freePath, decide_eq_true_eq] at h
    exact ⟨a, rfl, fun he => h (he ▸ hk)⟩

end Redsea
