import Verif.Lemmas.Text

namespace Redsea

open Spec

theorem inOrder_snoc (k : Nat) (bs : List Byte) (b : Byte) :
    inOrder k (bs ++ [b]) = inOrder k bs ++ [.recv (k + bs.length) b] := by
  induction bs generalizing k with
  | nil => simp [inOrder]
  | cons c bs ih => simp [inOrder, ih]; omega

theorem findIdx_terminator (bs rest : List Byte) (b : Byte) (h : (0x0D : Byte) ∉ bs) :
    (b = 0x0D → (bs ++ b :: rest).findIdx (· == kStringTerminator) = bs.length) ∧
    (b ≠ 0x0D → bs.length < (bs ++ b :: rest).findIdx (· == kStringTerminator)) := by
  have h1 : bs.findIdx (· == kStringTerminator) = bs.length := by
    rw [List.findIdx_eq_length]
    intro x hx
    simp only [kStringTerminator, beq_eq_false_iff_ne, ne_eq]
    rintro rfl
    exact h hx
  rw [List.findIdx_append, h1, if_neg (Nat.lt_irrefl _), List.findIdx_cons]
  constructor
  · rintro rfl; simp [kStringTerminator]
  · intro hb
    have : (b == kStringTerminator) = false := by simpa [kStringTerminator] using hb
    simp [this]

/-- Completeness of a buffer whose first `bs.length + 1` bytes were received. -/
theorem isComplete_prefix (s : RDSString) (bs rest : List Byte) (b : Byte)
    (hd : s.data = bs ++ b :: rest) (hs : s.seqLen = bs.length + 1) (h : (0x0D : Byte) ∉ bs) :
    s.isComplete = true ↔ (b = 0x0D ∨ rest = []) := by
  rw [isComplete_iff, hs, RDSString.getExpectedLength, hd]
  obtain ⟨h1, h2⟩ := findIdx_terminator bs rest b h
  simp only [List.length_append, List.length_cons]
  by_cases hb : b = 0x0D
  · rw [h1 hb]
    exact ⟨fun _ => .inl hb, fun _ => by omega⟩
  · have := h2 hb
    cases rest with
    | nil => simp only [List.length_nil, or_true, iff_true]; omega
    | cons r rest =>
      simp only [List.length_cons, reduceCtorEq, or_false, hb, iff_false]; omega

theorem expectedLength_of_complete (s : RDSString) (bs rest : List Byte) (b : Byte)
    (hd : s.data = bs ++ b :: rest) (h : (0x0D : Byte) ∉ bs) (hc : b = 0x0D ∨ rest = []) :
    s.getExpectedLength = bs.length + 1 := by
  rw [RDSString.getExpectedLength, hd]
  obtain ⟨h1, h2⟩ := findIdx_terminator bs rest b h
  simp only [List.length_append, List.length_cons]
  by_cases hb : b = 0x0D
  · rw [h1 hb]; omega
  · have := h2 hb
    rcases hc with hc | hc
    · exact absurd hc hb
    · subst hc; simp only [List.length_nil]; omega

/-- What the state is after in-order reception of `bs`. -/
structure InOrderState (e : Encoding) (old : List Byte) (bs : List Byte) (s : RDSString) : Prop where
  data : s.data = bs ++ old.drop bs.length
  seq : s.seqLen = bs.length
  prev : s.prevPos + 1 = bs.length
  enc : s.encoding = e

theorem set_eq (ucs2 : Ucs2Decoder) (s : RDSString) (pos : Nat) (b : Byte)
    (hpos : pos < s.data.length) : s.set ucs2 pos b =
      if (s.store pos b).isComplete then
        match (s.store pos b).str ucs2 with
        | none => (s.store pos b).clear
        | some t => { s.store pos b with
            lastCompleteString := t, lastCompleteData := (s.store pos b).getData, prevPos := pos }
      else { s.store pos b with prevPos := pos } := by
  simp only [RDSString.set]
  rw [if_neg (by omega)]
  rfl

theorem inOrder_state (ucs2 : Ucs2Decoder) (s0 : RDSString) (bs : List Byte) (b : Byte)
    (hlen : bs.length < s0.data.length) (hterm : (0x0D : Byte) ∉ bs) :
    let s := s0.ops ucs2 (inOrder 0 (bs ++ [b]))
    (b = 0x0D ∨ bs.length + 1 = s0.data.length →
      ∀ t, RDSString.decode ucs2 s0.encoding ((bs ++ [b]).map display) = some t →
        InOrderState s0.encoding s0.data (bs ++ [b]) s ∧ s.isComplete = true ∧
          s.lastCompleteData = (bs ++ [b]).map display ∧ s.lastCompleteString = t) ∧
    (¬ (b = 0x0D ∨ bs.length + 1 = s0.data.length) →
      InOrderState s0.encoding s0.data (bs ++ [b]) s ∧ s.isComplete = false) := by
  -- one reception on top of a good state
  have key : ∀ (bs : List Byte) (b : Byte) (s : RDSString), bs.length < s0.data.length →
      (0x0D : Byte) ∉ bs → s.encoding = s0.encoding →
      s.data = bs ++ s0.data.drop bs.length →
      (bs.length = 0 ∨ (bs.length = s.prevPos + 1 ∧ s.seqLen = bs.length)) →
      (b = 0x0D ∨ bs.length + 1 = s0.data.length →
        ∀ t, RDSString.decode ucs2 s0.encoding ((bs ++ [b]).map display) = some t →
          InOrderState s0.encoding s0.data (bs ++ [b]) (s.set ucs2 bs.length b) ∧
            (s.set ucs2 bs.length b).isComplete = true ∧
            (s.set ucs2 bs.length b).lastCompleteData = (bs ++ [b]).map display ∧
            (s.set ucs2 bs.length b).lastCompleteString = t) ∧
      (¬ (b = 0x0D ∨ bs.length + 1 = s0.data.length) →
        InOrderState s0.encoding s0.data (bs ++ [b]) (s.set ucs2 bs.length b) ∧
          (s.set ucs2 bs.length b).isComplete = false) := by
    intro bs b s hlen hterm henc hdata hpos
    have hsl : s.data.length = s0.data.length := by rw [hdata]; simp; omega
    have hst : (s.store bs.length b).data = bs ++ b :: s0.data.drop (bs.length + 1) := by
      simp only [RDSString.store, hdata]
      rw [List.set_append_right _ _ (Nat.le_refl _), Nat.sub_self]
      rw [List.drop_eq_getElem_cons hlen, List.set_cons_zero]
    have hsq : (s.store bs.length b).seqLen = bs.length + 1 := by
      simp only [RDSString.store]
      rw [if_pos hpos]
    have hse : (s.store bs.length b).encoding = s0.encoding := henc
    rw [set_eq ucs2 s _ b (by omega)]
    generalize s.store bs.length b = s' at *
    have hcm := isComplete_prefix s' bs _ b hst hsq hterm
    have hrest : s0.data.drop (bs.length + 1) = [] ↔ bs.length + 1 = s0.data.length := by
      rw [List.drop_eq_nil_iff]; omega
    rw [hrest] at hcm
    have hgood : ∀ s'' : RDSString, s''.data = s'.data → s''.seqLen = s'.seqLen →
        s''.prevPos = bs.length → s''.encoding = s'.encoding →
        InOrderState s0.encoding s0.data (bs ++ [b]) s'' := by
      intro s'' h1 h2 h3 h4
      refine ⟨?_, ?_, ?_, ?_⟩
      · rw [h1, hst]; simp
      · rw [h2, hsq]; simp
      · rw [h3]; simp
      · rw [h4, hse]
    constructor
    · intro hw t ht
      have hc := hcm.2 hw
      have hdat : s'.getData = (bs ++ [b]).map display := by
        rw [getData_of_complete s' hc, expectedLength_of_complete s' bs _ b hst hterm
          (hw.imp id hrest.2), hst]
        congr 1
        rw [List.take_append]
        simp [List.take_of_length_le]
      have hstr : s'.str ucs2 = some t := by
        rw [RDSString.str, hdat, hse, ht]
      rw [if_pos hc, hstr]
      dsimp only
      exact ⟨hgood _ rfl rfl rfl rfl, hc, hdat, rfl⟩
    · intro hw
      have hc : ¬ s'.isComplete = true := fun h => hw (hcm.1 h)
      rw [if_neg hc]
      exact ⟨hgood _ rfl rfl rfl rfl, Bool.not_eq_true _ ▸ hc⟩
  -- prefixes by induction
  have pre : ∀ bs : List Byte, bs.length < s0.data.length → (0x0D : Byte) ∉ bs →
      (bs = [] ∨ InOrderState s0.encoding s0.data bs (s0.ops ucs2 (inOrder 0 bs))) := by
    intro bs
    induction bs using snocInduction with
    | nil => intro _ _; left; rfl
    | snoc bs b ih =>
      intro hl ht
      right
      simp only [List.length_append, List.length_singleton, List.mem_append, List.mem_singleton,
        not_or] at hl ht
      have ih := ih (by omega) ht.1
      rw [inOrder_snoc, RDSString.ops_snoc]
      simp only [RDSString.op, Nat.zero_add]
      rcases ih with rfl | ih
      · exact ((key [] b _ (by simpa using by omega) (by simp) rfl (by simp)
          (.inl rfl)).2 (by
            simp only [List.length_nil, Nat.zero_add] at *
            rintro (h | h)
            · exact ht.2 h.symm
            · omega)).1
      · exact ((key bs b _ (by omega) ht.1 ih.enc ih.data (.inr ⟨ih.prev.symm, ih.seq⟩)).2 (by
            rintro (h | h)
            · exact ht.2 h.symm
            · omega)).1
  intro s
  have hs : s = (s0.ops ucs2 (inOrder 0 bs)).set ucs2 bs.length b := by
    simp only [s]
    rw [inOrder_snoc, RDSString.ops_snoc]
    simp [RDSString.op]
  rw [hs]
  rcases pre bs hlen hterm with rfl | ih
  · exact key [] b _ hlen hterm rfl (by simp [inOrder, RDSString.ops]) (.inl rfl)
  · exact key bs b _ hlen hterm ih.enc ih.data (.inr ⟨ih.prev.symm, ih.seq⟩)

end Redsea
