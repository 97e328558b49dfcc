import Verif.Props.TmcEvents
import Verif.Lemmas.ListAux

/-
A check of the rows of the event list that the kernel can evaluate.
-/

namespace Redsea

open _root_.Redsea.Spec

/-- The pieces of a line. -/
def splitCells (d : Byte) : Str → List Str
  | [] => [[]]
  | c :: rest =>
    if c = d then [] :: splitCells d rest
    else match splitCells d rest with
      | [] => [[c]]
      | f :: fs => (c :: f) :: fs

theorem splitCells_spec (d : Byte) (s : Str) :
    joinCells d (splitCells d s) = s ∧ splitCells d s ≠ [] ∧ ∀ c ∈ splitCells d s, d ∉ c := by
  induction s with
  | nil => exact ⟨joinCells_one d [], by simp [splitCells], by simp [splitCells]⟩
  | cons c s ih =>
    obtain ⟨h1, h2, h3⟩ := ih
    unfold splitCells
    split
    · rename_i hc
      refine ⟨?_, by simp, ?_⟩
      · cases hs : splitCells d s with
        | nil => exact absurd hs h2
        | cons f fs =>
          rw [joinCells_cons, ← hs, h1, hc]
          rfl
      · intro x hx
        rcases List.mem_cons.mp hx with rfl | hx
        · simp
        · exact h3 x hx
    · rename_i hc
      cases hs : splitCells d s with
      | nil => exact absurd hs h2
      | cons f fs =>
        rw [hs] at h1 h3
        refine ⟨?_, by simp, ?_⟩
        · show joinCells d ((c :: f) :: fs) = c :: s
          rw [← h1]
          cases fs with
          | nil => rw [joinCells_one, joinCells_one]
          | cons g gs => rw [joinCells_cons, joinCells_cons]; rfl
        · intro x hx
          rcases List.mem_cons.mp hx with rfl | hx
          · intro hm
            rcases List.mem_cons.mp hm with e | hm
            · exact hc e.symm
            · exact h3 f List.mem_cons_self hm
          · exact h3 x (List.mem_cons_of_mem _ hx)

/-- Digits with a given value before them. -/
def numberFrom (v : Nat) : Str → Option Nat
  | [] => some v
  | c :: s =>
    if 0x30 ≤ c.toNat ∧ c.toNat ≤ 0x39 then numberFrom (v * 10 + (c.toNat - 0x30)) s else none

/-- A number without leading zeros. -/
def readNumber : Str → Option Nat
  | [] => none
  | [c] => numberFrom 0 [c]
  | c :: s => if c.toNat = 0x30 then none else numberFrom 0 (c :: s)

theorem ofNat_digit (c : Byte) (h : 0x30 ≤ c.toNat ∧ c.toNat ≤ 0x39) : BitVec.ofNat 8 (0x30 + (c.toNat - 0x30)) = c := by
  rw [Nat.add_sub_cancel' h.1, BitVec.ofNat_toNat, BitVec.setWidth_eq]

theorem numberFrom_decimal {s : Str} {v n : Nat} (hv : 0 < v) (h : numberFrom v s = some n) :
    decimal n = decimal v ++ s := by
  induction s generalizing v with
  | nil => rw [Option.some.inj h, List.append_nil]
  | cons c s ih =>
    unfold numberFrom at h
    split at h
    · rename_i hc
      rw [ih (by omega) h, decimal_rec (v * 10 + (c.toNat - 0x30)), if_neg (by omega),
        show (v * 10 + (c.toNat - 0x30)) / 10 = v by omega, show (v * 10 + (c.toNat - 0x30)) % 10 = c.toNat - 0x30 by omega,
        ofNat_digit c hc, List.append_assoc]
      rfl
    · cases h

theorem readNumber_decimal {s : Str} {n : Nat} (h : readNumber s = some n) : decimal n = s := by
  have one : ∀ c : Byte, (0x30 ≤ c.toNat ∧ c.toNat ≤ 0x39) → decimal (c.toNat - 0x30) = [c] := by
    intro c hc
    rw [decimal_rec, if_pos (by omega), ofNat_digit c hc]
  match s, h with
  | [c], h =>
    have h : (if 0x30 ≤ c.toNat ∧ c.toNat ≤ 0x39 then some (0 * 10 + (c.toNat - 0x30)) else none) = some n := h
    split at h
    · rename_i hc
      rw [← Option.some.inj h, Nat.zero_mul, Nat.zero_add]
      exact one c hc
    · cases h
  | c :: c' :: s, h =>
    have h : (if c.toNat = 0x30 then none else if 0x30 ≤ c.toNat ∧ c.toNat ≤ 0x39 then
      numberFrom (0 * 10 + (c.toNat - 0x30)) (c' :: s) else none) = some n := h
    split at h
    · cases h
    · rename_i h0
      split at h
      · rename_i hc
        rw [numberFrom_decimal (by omega) h, Nat.zero_mul, Nat.zero_add, one c hc]
        rfl
      · cases h

/-- An empty cell or a number. -/
def readOptNumber (s : Str) : Option (Option Nat) :=
  match s with
  | [] => some none
  | s => (readNumber s).map some

theorem readOptNumber_decimal {s : Str} {o : Option Nat} (h : readOptNumber s = some o) : optDecimal o = s := by
  unfold readOptNumber at h
  split at h
  · rw [← Option.some.inj h]; rfl
  · obtain ⟨n, hn, rfl⟩ := Option.map_eq_some_iff.mp h
    exact readNumber_decimal hn

/-- No line end in the line. -/
def noLineEnd (s : Str) : Bool := s.all fun c => c.toNat != 0x0D && c.toNat != 0x0A

/-- The row of a line of the event list. -/
def eventRowOf (l : Str) : Option EventRow :=
  match splitCells 0x3B l with
  | [code, text, textWithQ, nature, q, duration, d, urgency, cls, reference] =>
    match readNumber code, readOptNumber q, readOptNumber d, readNumber cls with
    | some code, some q, some d, some cls =>
      if code < 2 ^ 16 ∧ q.getD 0 ≤ 12 ∧ d.getD 0 < 2 ^ 16 ∧ cls < 2 ^ 16 ∧ noLineEnd l then
        some { code := code, text := text, textWithQ := textWithQ, nature := nature, quantifier := q
               duration := duration, directions := d, urgency := urgency, updateClass := cls, reference := reference }
      else none
    | _, _, _, _ => none
  | _ => none

theorem noLineEnd_spec {s : Str} (h : noLineEnd s = true) : (0x0D : Byte) ∉ s ∧ (0x0A : Byte) ∉ s := by
  unfold noLineEnd at h
  rw [List.all_eq_true] at h
  constructor <;> intro hm <;> have := h _ hm <;> revert this <;> decide

theorem sub_joinCells {d : Byte} {cells : List Str} {c : Str} (hc : c ∈ cells) : ∀ x ∈ c, x ∈ joinCells d cells := by
  induction cells with
  | nil => cases hc
  | cons a l ih =>
    intro x hx
    cases l with
    | nil => rw [joinCells_one]; rwa [List.mem_singleton.mp hc] at hx
    | cons b l =>
      rw [joinCells_cons]
      rcases List.mem_cons.mp hc with rfl | hc
      · exact List.mem_append_left _ hx
      · exact List.mem_append_right _ (List.mem_cons_of_mem _ (ih hc x hx))

theorem eventRowOf_spec {l : Str} {r : EventRow} (h : eventRowOf l = some r) : r.line = l ∧ r.Valid := by
  obtain ⟨h1, -, h3⟩ := splitCells_spec 0x3B l
  unfold eventRowOf at h
  split at h
  · rename_i code text textWithQ nature q duration d urgency cls reference hs
    split at h
    · rename_i code' q' d' cls' e1 e2 e3 e4
      split at h
      · rename_i hc
        obtain ⟨b1, b2, b3, b4, b5⟩ := hc
        have b5 := noLineEnd_spec b5
        rw [hs] at h1 h3
        have hclean : ∀ c ∈ [code, text, textWithQ, nature, q, duration, d, urgency, cls, reference], CleanCell 0x3B c := by
          intro c hc
          refine ⟨h3 c hc, fun hm => ?_, fun hm => ?_⟩
          · exact b5.1 (h1 ▸ sub_joinCells hc _ hm)
          · exact b5.2 (h1 ▸ sub_joinCells hc _ hm)
        rw [← Option.some.inj h]
        refine ⟨?_, ?_⟩
        · unfold EventRow.line EventRow.cells
          dsimp only
          rw [readNumber_decimal e1, readOptNumber_decimal e2, readOptNumber_decimal e3, readNumber_decimal e4]
          exact h1
        · constructor
          · exact b1
          · intro v hv
            dsimp only at hv
            rw [Option.mem_def.mp hv] at b2
            exact b2
          · intro v hv
            dsimp only at hv
            rw [Option.mem_def.mp hv] at b3
            exact b3
          · exact b4
          all_goals exact hclean _ (by simp)
      · cases h
    · cases h
  · cases h

/-- "(Q)" is in the text. -/
def hasMark : Str → Bool
  | 0x28#8 :: 0x51#8 :: 0x29#8 :: _ => true
  | _ :: rest => hasMark rest
  | [] => false

theorem hasMark_spec {s : Str} (h : hasMark s = true) : ∃ a b, s = a ++ ascii "(Q)" ++ b := by
  induction s with
  | nil => cases h
  | cons c s ih =>
    unfold hasMark at h
    split at h
    · rename_i rest heq
      exact ⟨[], rest, heq⟩
    · rename_i h1 h2
      obtain ⟨rfl, rfl⟩ := List.cons.inj h2
      obtain ⟨a, b, rfl⟩ := ih h
      exact ⟨_ :: a, b, rfl⟩
    · cases h

/-- The events that take a quantifier but have no place for it in their text. -/
def eventsWithoutMark : List Nat :=
  [417, 418, 419, 420, 421, 422, 445, 446, 447, 448, 449, 450, 496, 499, 583, 584, 585, 586, 587, 588, 606, 616,
    655, 930, 1519, 1533, 1547, 1573, 1822]

/-- There is a place for the quantifier if there is one in the text, with the given exceptions. -/
def markOk (r : EventRow) : Bool :=
  r.textWithQ.isEmpty || hasMark r.textWithQ || eventsWithoutMark.elem r.code

/-- All lines are rows, with codes that increase. The result is the last code. -/
def scanEvents (last : Nat) : List Str → Option Nat
  | [] => some last
  | l :: ls => match eventRowOf l with
    | none => none
    | some r => if last < r.code ∧ markOk r = true then scanEvents r.code ls else none

theorem scanEvents_append {a b : List Str} {last m : Nat} (h : scanEvents last a = some m) :
    scanEvents last (a ++ b) = scanEvents m b := by
  induction a generalizing last with
  | nil => rw [← Option.some.inj h]; rfl
  | cons l a ih =>
    rw [List.cons_append, scanEvents]
    unfold scanEvents at h
    split at h
    · cases h
    · split at h
      · rename_i hl
        rw [if_pos hl]
        exact ih h
      · cases h

theorem scanEvents_spec {ls : List Str} {last m : Nat} (h : scanEvents last ls = some m) :
    ∃ rows : List EventRow, ls = rows.map EventRow.line ∧ (∀ r ∈ rows, r.Valid) ∧
      (rows.map EventRow.code).Pairwise (· < ·) ∧ (∀ r ∈ rows, last < r.code ∧ r.code ≤ m ∧ markOk r = true) ∧ last ≤ m := by
  induction ls generalizing last with
  | nil => exact ⟨[], rfl, by simp, by simp, by simp, Nat.le_of_eq (Option.some.inj h)⟩
  | cons l ls ih =>
    unfold scanEvents at h
    split at h
    · cases h
    · rename_i r hr
      split at h
      · rename_i hl
        obtain ⟨h1, h2⟩ := eventRowOf_spec hr
        obtain ⟨rows, i1, i2, i3, i4, i5⟩ := ih h
        refine ⟨r :: rows, by rw [i1, List.map_cons, h1], ?_, ?_, ?_, by omega⟩
        · intro x hx
          rcases List.mem_cons.mp hx with rfl | hx
          · exact h2
          · exact i2 x hx
        · rw [List.map_cons, List.pairwise_cons]
          refine ⟨?_, i3⟩
          intro c hc
          obtain ⟨x, hx, rfl⟩ := List.mem_map.mp hc
          exact (i4 x hx).1
        · intro x hx
          rcases List.mem_cons.mp hx with rfl | hx
          · exact ⟨hl.1, i5, hl.2⟩
          · have := i4 x hx
            exact ⟨by omega, this.2⟩
      · cases h

/-! ### Supplementary information -/

/-- A row of two cells. -/
def supplementaryLine (r : Nat × Str) : Str := joinCells 0x3B [decimal r.1, r.2]

theorem supplementary_read (rows : List (Nat × Str)) (hv : ∀ r ∈ rows, r.1 < 2 ^ 16 ∧ CleanCell 0x3B r.2) :
    loadSupplementary (rows.map supplementaryLine) = some (rows.map fun r => (BitVec.ofNat 16 r.1, r.2)) := by
  induction rows with
  | nil => rfl
  | cons r rows ih =>
    obtain ⟨h1, h2⟩ := hv r List.mem_cons_self
    have hclean : CleanRow 0x3B [decimal r.1, r.2] := by
      refine ⟨by simp, ?_⟩
      intro c hc
      simp only [List.mem_cons, List.not_mem_nil, or_false] at hc
      rcases hc with rfl | rfl
      · exact (decimal_clean _).1
      · exact h2
    have hd : (0x3B : Byte) ≠ 0x0D ∧ (0x3B : Byte) ≠ 0x0A := by decide
    rw [List.map_cons, loadSupplementary, ih fun r hr => hv r (List.mem_cons_of_mem _ hr)]
    unfold supplementaryLine
    rw [if_neg (by rw [row_length hd hclean]; simp), row_at hd hclean, row_at hd hclean]
    have e0 : [decimal r.1, r.2][0]? = some (decimal r.1) := rfl
    have e1 : [decimal r.1, r.2][1]? = some r.2 := rfl
    rw [e0, e1]
    simp only [Option.bind_eq_bind, Option.bind_some, stoi_decimal r.1 (by omega), ofInt_natCast]
    rfl

/-- The row of a line. -/
def supplementaryOf (l : Str) : Option (Nat × Str) :=
  match splitCells 0x3B l with
  | [code, text] => match readNumber code with
    | some code => if code < 2 ^ 16 ∧ noLineEnd l then some (code, text) else none
    | none => none
  | _ => none

theorem supplementaryOf_spec {l : Str} {r : Nat × Str} (h : supplementaryOf l = some r) :
    supplementaryLine r = l ∧ r.1 < 2 ^ 16 ∧ CleanCell 0x3B r.2 := by
  obtain ⟨h1, -, h3⟩ := splitCells_spec 0x3B l
  unfold supplementaryOf at h
  split at h
  · rename_i code text hs
    split at h
    · rename_i code' e1
      split at h
      · rename_i hc
        have b5 := noLineEnd_spec hc.2
        rw [hs] at h1 h3
        rw [← Option.some.inj h]
        have hm : text ∈ [code, text] := by simp
        refine ⟨?_, hc.1, h3 text hm, fun hx => ?_, fun hx => ?_⟩
        · unfold supplementaryLine
          rw [readNumber_decimal e1]
          exact h1
        · exact b5.1 (h1 ▸ sub_joinCells hm _ hx)
        · exact b5.2 (h1 ▸ sub_joinCells hm _ hx)
      · cases h
    · cases h
  · cases h

/-- All lines are rows, with codes that increase. -/
def scanSupplementary (last : Nat) : List Str → Option Nat
  | [] => some last
  | l :: ls => match supplementaryOf l with
    | none => none
    | some r => if last < r.1 then scanSupplementary r.1 ls else none

theorem scanSupplementary_append {a b : List Str} {last m : Nat} (h : scanSupplementary last a = some m) :
    scanSupplementary last (a ++ b) = scanSupplementary m b := by
  induction a generalizing last with
  | nil => rw [← Option.some.inj h]; rfl
  | cons l a ih =>
    rw [List.cons_append, scanSupplementary]
    unfold scanSupplementary at h
    split at h
    · cases h
    · split at h
      · rename_i hl
        rw [if_pos hl]
        exact ih h
      · cases h

theorem scanSupplementary_spec {ls : List Str} {last m : Nat} (h : scanSupplementary last ls = some m) :
    ∃ rows : List (Nat × Str), ls = rows.map supplementaryLine ∧ (∀ r ∈ rows, r.1 < 2 ^ 16 ∧ CleanCell 0x3B r.2) ∧
      (rows.map (·.1)).Pairwise (· < ·) ∧ (∀ r ∈ rows, last < r.1 ∧ r.1 ≤ m) ∧ last ≤ m := by
  induction ls generalizing last with
  | nil => exact ⟨[], rfl, by simp, by simp, by simp, Nat.le_of_eq (Option.some.inj h)⟩
  | cons l ls ih =>
    unfold scanSupplementary at h
    split at h
    · cases h
    · rename_i r hr
      split at h
      · rename_i hl
        obtain ⟨h1, h2⟩ := supplementaryOf_spec hr
        obtain ⟨rows, i1, i2, i3, i4, i5⟩ := ih h
        refine ⟨r :: rows, by rw [i1, List.map_cons, h1], ?_, ?_, ?_, by omega⟩
        · intro x hx
          rcases List.mem_cons.mp hx with rfl | hx
          · exact h2
          · exact i2 x hx
        · rw [List.map_cons, List.pairwise_cons]
          refine ⟨?_, i3⟩
          intro c hc
          obtain ⟨x, hx, rfl⟩ := List.mem_map.mp hc
          exact (i4 x hx).1
        · intro x hx
          rcases List.mem_cons.mp hx with rfl | hx
          · exact ⟨hl, i5⟩
          · have := i4 x hx
            exact ⟨by omega, this.2⟩
      · cases h

end Redsea
