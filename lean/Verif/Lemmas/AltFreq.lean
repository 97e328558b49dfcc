import Verif.Model.AltFreq
import Verif.Spec.AltFreq
import Verif.Lemmas.ListAux

namespace Redsea

open Spec

/-- What can happen to a frequency list: a code is inserted, or the list is cleared. -/
inductive AfOp where
  | ins (code : Nat)
  | clear
  deriving DecidableEq, Repr

def AltFreqList.op (l : AltFreqList) : AfOp → Option AltFreqList
  | .ins c => l.insert c
  | .clear => some l.clear

/-- The list after a history, `none` if there was an invalid access. -/
def afAfter (ops : List AfOp) : Option AltFreqList :=
  ops.foldl (fun l o => l.bind (·.op o)) (some {})

theorem afAfter_snoc (ops : List AfOp) (o : AfOp) :
    afAfter (ops ++ [o]) = (afAfter ops).bind (·.op o) := by simp [afAfter]

/-- Bounds, and the received frequencies are frequencies. -/
structure AfWF (l : AltFreqList) : Prop where
  len : l.freqs.length = 25
  rec_le : l.numReceived ≤ l.numExpected
  exp_le : l.numExpected ≤ 25
  range : ∀ f ∈ l.freqs.take l.numReceived, 153 ≤ f ∧ f ≤ 107900

theorem afWF_clear {l : AltFreqList} (h : AfWF l) : AfWF l.clear :=
  ⟨h.len, Nat.le_refl _, Nat.zero_le _, by simp [AltFreqList.clear]⟩

theorem khz_range (b : Bool) (c : Nat) (h1 : 1 ≤ c) (h2 : c ≤ (if b then 135 else 204)) :
    153 ≤ (if b then lfMfKhz c else fmKhz c) ∧ (if b then lfMfKhz c else fmKhz c) ≤ 107900 := by
  cases b
  · simp only [Bool.false_eq_true, if_false] at h2 ⊢
    unfold fmKhz
    omega
  · simp only [if_true] at h2 ⊢
    unfold lfMfKhz
    split <;> omega

theorem mem_take_set {l : List Int} {n : Nat} {x f : Int} (h : f ∈ (l.set n x).take (n + 1)) :
    f = x ∨ f ∈ l.take n := by
  obtain ⟨i, hi, rfl⟩ := List.getElem_of_mem h
  simp only [List.length_take, List.length_set] at hi
  rw [List.getElem_take, List.getElem_set]
  split
  · exact .inl rfl
  · refine .inr ?_
    have hi2 : i < (l.take n).length := by rw [List.length_take]; omega
    rw [← List.getElem_take (h := hi2)]
    exact List.getElem_mem _

theorem isValid_iff (c : Nat) (b : Bool) :
    (CarrierFrequency.isValid { code := c, band := if b then .lfMf else .fm }) = true ↔
      1 ≤ c ∧ c ≤ (if b then 135 else 204) := by
  cases b <;> simp [CarrierFrequency.isValid]

theorem kHz_fm (c : Nat) (h1 : 1 ≤ c) (h2 : c ≤ 204) :
    CarrierFrequency.kHz { code := c, band := .fm } = fmKhz c := by
  have : CarrierFrequency.isValid { code := c, band := .fm } = true := (isValid_iff c false).2 ⟨h1, h2⟩
  simp only [CarrierFrequency.kHz, this, if_true, fmKhz]
  omega

theorem kHz_lfMf (c : Nat) (h1 : 1 ≤ c) (h2 : c ≤ 135) :
    CarrierFrequency.kHz { code := c, band := .lfMf } = lfMfKhz c := by
  have : CarrierFrequency.isValid { code := c, band := .lfMf } = true := (isValid_iff c true).2 ⟨h1, h2⟩
  simp only [CarrierFrequency.kHz, this, if_true, lfMfKhz]
  split <;> omega

/-- The five cases of `insert`, in terms of the codes. -/
theorem insert_cases (l : AltFreqList) (c : Nat) (wf : AfWF l) :
    -- a frequency
    (1 ≤ c ∧ c ≤ (if l.lfMfFollows then 135 else 204) ∧ l.numReceived < l.numExpected ∧
      l.insert c = some { l with
        freqs := l.freqs.set l.numReceived (if l.lfMfFollows then lfMfKhz c else fmKhz c)
        numReceived := l.numReceived + 1, lfMfFollows := false }) ∨
    -- no room for the frequency, or an invalid code
    (l.insert c = some { l with numExpected := 0, numReceived := 0, lfMfFollows := false } ∧
      ((1 ≤ c ∧ c ≤ (if l.lfMfFollows then 135 else 204) ∧ l.numReceived = l.numExpected) ∨
        (¬ (1 ≤ c ∧ c ≤ (if l.lfMfFollows then 135 else 204)) ∧ c ≠ 205 ∧ c ≠ 224 ∧
          ¬ (225 ≤ c ∧ c ≤ 249) ∧ c ≠ 250))) ∨
    -- filler
    ((c = 205 ∨ c = 224) ∧ l.insert c = some { l with lfMfFollows := false }) ∨
    -- announcement
    (225 ≤ c ∧ c ≤ 249 ∧
      l.insert c = some { l with numExpected := c - 224, numReceived := 0, lfMfFollows := false }) ∨
    -- LF/MF follows
    (c = 250 ∧ l.insert c = some { l with lfMfFollows := true }) := by
  obtain ⟨len, rle, ele, -⟩ := wf
  by_cases hv : 1 ≤ c ∧ c ≤ (if l.lfMfFollows then 135 else 204)
  · have hiv := (isValid_iff c l.lfMfFollows).2 hv
    by_cases he : l.numExpected > 0
    · by_cases hr : l.numReceived < l.numExpected
      · left
        refine ⟨hv.1, hv.2, hr, ?_⟩
        have hk : CarrierFrequency.kHz { code := c, band := if l.lfMfFollows then .lfMf else .fm } =
            (if l.lfMfFollows then lfMfKhz c else fmKhz c) := by
          cases hb : l.lfMfFollows
          · simp only [hb, Bool.false_eq_true, if_false] at hv ⊢; exact kHz_fm c hv.1 hv.2
          · simp only [hb, if_true] at hv ⊢; exact kHz_lfMf c hv.1 hv.2
        simp only [AltFreqList.insert, hiv, he, decide_true, Bool.and_self, if_true, hr, hk]
        rw [if_pos (by omega)]
      · right; left
        refine ⟨?_, .inl ⟨hv.1, hv.2, by omega⟩⟩
        simp only [AltFreqList.insert, hiv, he, decide_true, Bool.and_self, if_true, hr, if_false,
          AltFreqList.clear]
    · right; left
      refine ⟨?_, .inl ⟨hv.1, hv.2, by omega⟩⟩
      have h1 : ¬ (c = 205 ∨ c = 224) := by split at hv <;> omega
      have h2 : ¬ (225 ≤ c ∧ c ≤ 249) := by split at hv <;> omega
      have h3 : ¬ c = 250 := by split at hv <;> omega
      simp only [AltFreqList.insert, hiv, he, decide_false, Bool.and_false, Bool.false_eq_true,
        if_false, h1, h2, h3, AltFreqList.clear]
  · have hiv : CarrierFrequency.isValid { code := c, band := if l.lfMfFollows then .lfMf else .fm } = false := by
      rw [← Bool.not_eq_true, isValid_iff]; exact hv
    by_cases h1 : c = 205 ∨ c = 224
    · right; right; left
      refine ⟨h1, ?_⟩
      simp only [AltFreqList.insert, hiv, Bool.false_and, Bool.false_eq_true, if_false, h1, if_true]
    · by_cases h2 : 225 ≤ c ∧ c ≤ 249
      · right; right; right; left
        refine ⟨h2.1, h2.2, ?_⟩
        simp only [AltFreqList.insert, hiv, Bool.false_and, Bool.false_eq_true, if_false, h1, h2, if_true,
          and_self]
      · by_cases h3 : c = 250
        · right; right; right; right
          refine ⟨h3, ?_⟩
          simp only [AltFreqList.insert, hiv, Bool.false_and, Bool.false_eq_true, if_false, h1, h2]
          rw [if_pos h3]
        · right; left
          refine ⟨?_, .inr ⟨hv, by omega, by omega, h2, h3⟩⟩
          simp only [AltFreqList.insert, hiv, Bool.false_and, Bool.false_eq_true, if_false, h1, h2, h3,
            AltFreqList.clear]

theorem afWF_insert {l : AltFreqList} (wf : AfWF l) (c : Nat) :
    ∃ l', l.insert c = some l' ∧ AfWF l' := by
  rcases insert_cases l c wf with h | h | h | h | h
  · refine ⟨_, h.2.2.2, by simp [wf.len], by have := h.2.2.1; simp; omega, wf.exp_le, ?_⟩
    intro f hf
    rcases mem_take_set hf with rfl | hf
    · exact khz_range l.lfMfFollows c h.1 h.2.1
    · exact wf.range f hf
  · exact ⟨_, h.1, wf.len, Nat.le_refl _, Nat.zero_le _, by simp⟩
  · exact ⟨_, h.2, wf.len, wf.rec_le, wf.exp_le, wf.range⟩
  · exact ⟨_, h.2.2, wf.len, Nat.zero_le _, by simp; omega, by simp⟩
  · exact ⟨_, h.2, wf.len, wf.rec_le, wf.exp_le, wf.range⟩

theorem afWF_op {l : AltFreqList} (wf : AfWF l) (o : AfOp) : ∃ l', l.op o = some l' ∧ AfWF l' := by
  cases o with
  | ins c => exact afWF_insert wf c
  | clear => exact ⟨_, rfl, afWF_clear wf⟩

theorem afAfter_wf (ops : List AfOp) : ∃ l, afAfter ops = some l ∧ AfWF l := by
  induction ops using snocInduction with
  | nil => exact ⟨{}, rfl, by simp, Nat.le_refl _, by decide, by simp⟩
  | snoc ops o ih =>
    obtain ⟨l, h, wf⟩ := ih
    rw [afAfter_snoc, h]
    exact afWF_op wf o

/-- The method B loop, from an odd index. -/
theorem methodBLoop_spec {l : AltFreqList} (wf : AfWF l) (tuned : Int) (fuel i : Nat)
    (hi : i % 2 = 1) (hf : l.numReceived ≤ i + fuel) :
    ∃ r, l.methodBLoop tuned fuel i = some r ∧
      (r = true ↔ ∀ j, i ≤ j → j % 2 = 1 → j < l.numReceived →
        l.freqs[j]? = some tuned ∨ l.freqs[j + 1]? = some tuned) := by
  obtain ⟨len, rle, ele, -⟩ := wf
  induction fuel generalizing i with
  | zero =>
    refine ⟨true, rfl, ?_⟩
    simp only [true_iff]
    intro j h1 _ h3
    omega
  | succ fuel ih =>
    rw [AltFreqList.methodBLoop]
    by_cases hr : i < l.numReceived
    · rw [if_pos hr]
      have h1 : i < l.freqs.length := by omega
      have h2 : i + 1 < l.freqs.length := by omega
      rw [List.getElem?_eq_getElem h1, List.getElem?_eq_getElem h2]
      dsimp only
      by_cases hne : l.freqs[i] ≠ tuned ∧ l.freqs[i + 1] ≠ tuned
      · rw [if_pos hne]
        refine ⟨false, rfl, ?_⟩
        simp only [Bool.false_eq_true, false_iff]
        intro hall
        have := hall i (Nat.le_refl _) hi hr
        rw [List.getElem?_eq_getElem h1, List.getElem?_eq_getElem h2] at this
        simp only [Option.some.injEq] at this
        rcases this with h | h
        · exact hne.1 h
        · exact hne.2 h
      · rw [if_neg hne]
        obtain ⟨r, hr1, hr2⟩ := ih (i + 2) (by omega) (by omega)
        refine ⟨r, hr1, hr2.trans ?_⟩
        constructor
        · intro hall j hj1 hj2 hj3
          by_cases hji : j = i
          · subst hji
            rw [List.getElem?_eq_getElem h1, List.getElem?_eq_getElem h2]
            simp only [Option.some.injEq]
            by_cases he : l.freqs[j] = tuned
            · exact .inl he
            · exact .inr (Classical.not_not.1 fun h => hne ⟨he, h⟩)
          · exact hall j (by omega) hj2 hj3
        · intro hall j hj1 hj2 hj3
          exact hall j (by omega) hj2 hj3
    · rw [if_neg hr]
      refine ⟨true, rfl, ?_⟩
      simp only [true_iff]
      intro j h1 _ h3
      omega

theorem isMethodB_some {l : AltFreqList} (wf : AfWF l) : ∃ r, l.isMethodB = some r := by
  unfold AltFreqList.isMethodB
  split
  · exact ⟨_, rfl⟩
  · have h0 : 0 < l.freqs.length := by have := wf.len; omega
    rw [List.getElem?_eq_getElem h0]
    obtain ⟨r, hr, _⟩ := methodBLoop_spec wf l.freqs[0] l.numReceived 1 (by omega) (by omega)
    exact ⟨r, hr⟩

/-- A list of pairs, flattened. -/
def flattenPairs (ps : List (Int × Int)) : List Int := ps.flatMap fun p => [p.1, p.2]

theorem exists_pairs (n : Nat) : ∀ l : List Int, l.length = 2 * n →
    ∃ ps : List (Int × Int), l = flattenPairs ps ∧ ps.length = n := by
  induction n with
  | zero =>
    intro l h
    exact ⟨[], by simpa [flattenPairs] using List.length_eq_zero_iff.1 (by omega), rfl⟩
  | succ n ih =>
    intro l h
    match l, h with
    | a :: b :: l, h =>
      obtain ⟨ps, h1, h2⟩ := ih l (by simp at h; omega)
      exact ⟨(a, b) :: ps, by simp [flattenPairs, h1], by simp [h2]⟩

theorem flattenPairs_getElem (ps : List (Int × Int)) (k : Nat) (h : k < ps.length) :
    (flattenPairs ps)[2 * k]? = some ps[k].1 ∧ (flattenPairs ps)[2 * k + 1]? = some ps[k].2 := by
  induction ps generalizing k with
  | nil => simp at h
  | cons p ps ih =>
    cases k with
    | zero => simp [flattenPairs]
    | succ k =>
      have := ih k (by simpa using h)
      simp only [flattenPairs, List.flatMap_cons, List.cons_append, List.nil_append] at this ⊢
      rw [show 2 * (k + 1) = 2 * k + 2 by omega, show 2 * k + 2 + 1 = 2 * k + 1 + 2 by omega]
      simpa using this

/-- The frequency of a pair which is not the tuned one. -/
def nonTuned (tuned : Int) (p : Int × Int) : Int := if p.1 = tuned then p.2 else p.1

theorem methodBPairs_flatten (tuned : Int) (ps : List (Int × Int)) :
    methodBPairs tuned (flattenPairs ps) =
      some ((ps.filter fun p => decide (p.1 < p.2)).map (nonTuned tuned),
        (ps.filter fun p => !decide (p.1 < p.2)).map (nonTuned tuned)) := by
  induction ps with
  | nil => rfl
  | cons p ps ih =>
    have : flattenPairs (p :: ps) = p.1 :: p.2 :: flattenPairs ps := by simp [flattenPairs]
    rw [this, methodBPairs, ih]
    by_cases h : p.1 < p.2 <;> simp [h, nonTuned]

theorem uniqueCount_le (l : List Int) : uniqueCount l ≤ l.length := by
  induction l with
  | nil => simp [uniqueCount]
  | cons a l ih => simp only [uniqueCount]; split <;> simp <;> omega

theorem uniqueCount_eq_length (l : List Int) : uniqueCount l = l.length ↔ l.Nodup := by
  induction l with
  | nil => simp [uniqueCount]
  | cons a l ih =>
    have := uniqueCount_le l
    simp only [uniqueCount, List.nodup_cons, List.length_cons]
    by_cases h : l.contains a = true
    · rw [if_pos h]
      simp only [List.contains_iff_mem] at h
      simp [h]; omega
    · rw [if_neg h]
      simp only [List.contains_iff_mem] at h
      simp [h, ih]

/-- A complete list classified as method B: structure of the raw list. -/
theorem methodB_structure {l : AltFreqList} (wf : AfWF l) (hc : l.isComplete = true)
    (hb : l.isMethodB = some true) :
    ∃ tuned ps, l.getRawList = some (tuned :: flattenPairs ps) ∧ 1 ≤ ps.length ∧
      (∀ p ∈ ps, p.1 = tuned ∨ p.2 = tuned) := by
  simp only [AltFreqList.isComplete, Bool.and_eq_true, beq_iff_eq, decide_eq_true_eq] at hc
  unfold AltFreqList.isMethodB at hb
  split at hb
  · simp at hb
  · rename_i hodd
    have h0 : 0 < l.freqs.length := by have := wf.len; omega
    rw [List.getElem?_eq_getElem h0] at hb
    dsimp only at hb
    obtain ⟨r, hr1, hr2⟩ := methodBLoop_spec wf l.freqs[0] l.numReceived 1 (by omega) (by omega)
    rw [hr1] at hb
    simp only [Option.some.injEq] at hb
    have hall := hr2.1 hb
    have hle : l.numReceived ≤ l.freqs.length := by
      have := wf.len; have := wf.rec_le; have := wf.exp_le; omega
    have hraw : l.freqs.take l.numReceived =
        l.freqs[0] :: (l.freqs.take l.numReceived).tail := by
      have hlen : 0 < (l.freqs.take l.numReceived).length := by rw [List.length_take]; omega
      conv => lhs; rw [← List.drop_zero (l := l.freqs.take l.numReceived), List.drop_eq_getElem_cons hlen]
      simp
    have htl : (l.freqs.take l.numReceived).tail.length = 2 * ((l.numReceived - 1) / 2) := by
      rw [List.length_tail, List.length_take]; omega
    obtain ⟨ps, hps, hpl⟩ := exists_pairs _ _ htl
    refine ⟨l.freqs[0], ps, ?_, by omega, ?_⟩
    · rw [AltFreqList.getRawList, if_pos hle, hraw, hps]
    · intro p hp
      obtain ⟨k, hk, rfl⟩ := List.getElem_of_mem hp
      obtain ⟨g1, g2⟩ := flattenPairs_getElem ps k hk
      rw [← hps, List.getElem?_tail, List.getElem?_take, if_pos (by omega)] at g1 g2
      have := hall (2 * k + 1) (by omega) (by omega) (by omega)
      rw [g1, show 2 * k + 1 + 1 = 2 * k + 1 + 1 from rfl, g2] at this
      simpa using this

end Redsea
