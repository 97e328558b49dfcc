import Verif.Lemmas.TextInOrder

/-
Properties C24, C25, C26, C28: received texts.
-/

namespace Redsea

open Spec

/-- **C24.** For every text field of size `n` and every history of receptions and clears: if
the text is reported complete, then there are received bytes `bs`, forming a whole text (the
field is full or ends at the first 0x0D), each of which is the byte latest received for its
position, received at or after the most recent reception of position 0 and after the
most recent clear; the text shown is the decoding of exactly these bytes. -/
theorem C24_complete_text_latest_bytes (ucs2 : Ucs2Decoder) (n : Nat) (hn : 0 < n)
    (e : Encoding) (h : List TextOp) :
    let s := ({ RDSString.new n with encoding := e } : RDSString).ops ucs2 h
    s.isComplete = true →
      ∃ bs : List Byte, WholeText n bs ∧ (∀ i b, bs[i]? = some b → LatestByte h i b) ∧
        s.lastCompleteData = bs.map display ∧
        RDSString.decode ucs2 e (bs.map display) = some s.lastCompleteString := by
  intro s hc
  have inv := textInv ucs2 n hn e h
  change TextInv ucs2 n e h s at inv
  obtain ⟨len, enc, seq, bytes, complete⟩ := inv
  refine ⟨s.data.take s.getExpectedLength, ?_, ?_, ?_, ?_⟩
  · have := wholeText_take s (by omega)
    rwa [len] at this
  · intro i b hb
    rw [isComplete_iff] at hc
    rw [List.getElem?_take] at hb
    split at hb
    · obtain ⟨c, hc1, hc2⟩ := bytes i (by omega)
      rw [hc1] at hb
      cases hb
      exact hc2
    · cases hb
  · rw [(complete hc).1, getData_of_complete s hc]
  · rw [← getData_of_complete s hc, ← enc]
    exact (complete hc).2

/-- An 8-character text, received with a repeated segment in the middle, is complete. -/
example : (({ RDSString.new 4 with encoding := .basic } : RDSString).ops (fun _ => none)
    [.recv 2 0x58, .clear, .recv 0 0x41, .recv 1 0x42, .recv 1 0x43, .recv 2 0x44,
      .recv 3 0x45]).lastCompleteString = ascii "ACDE" := by decide

/-- **C25.** Whatever was received before (any buffer contents and counters), receiving a
whole text in order makes the text complete at its last byte and not earlier, and the
text shown is exactly the decoding of the received bytes (0x0D and 0x00 as blanks). The
hypothesis on `decode` can only fail for UCS-2 text which iconv rejects. -/
theorem C25_in_order_text_complete (ucs2 : Ucs2Decoder) (s0 : RDSString) (bs : List Byte)
    (hw : WholeText s0.data.length bs) (t : Str)
    (ht : RDSString.decode ucs2 s0.encoding (bs.map display) = some t) :
    let s := s0.ops ucs2 (inOrder 0 bs)
    s.isComplete = true ∧ s.lastCompleteData = bs.map display ∧ s.lastCompleteString = t ∧
      ∀ k, 0 < k → k < bs.length → (s0.ops ucs2 (inOrder 0 (bs.take k))).isComplete = false := by
  obtain ⟨h0, hlen, hend, hterm⟩ := hw
  -- split off the last byte
  obtain ⟨bs', b, rfl⟩ : ∃ bs' b, bs = bs' ++ [b] :=
    ⟨bs.dropLast, bs.getLast (List.ne_nil_of_length_pos h0), (List.dropLast_concat_getLast _).symm⟩
  simp only [List.dropLast_concat, List.length_append, List.length_singleton, List.getLast?_concat,
    Option.some.injEq] at *
  have hmain := (inOrder_state ucs2 s0 bs' b (by omega) hterm).1 (hend.symm) t ht
  refine ⟨hmain.2.1, hmain.2.2.1, hmain.2.2.2, ?_⟩
  intro k hk0 hk
  rw [List.take_append_of_le_length (by omega)]
  obtain ⟨k, rfl⟩ : ∃ j, k = j + 1 := ⟨k - 1, by omega⟩
  rw [List.take_succ_eq_append_getElem (by omega : k < bs'.length)]
  have hsub : ∀ x ∈ bs'.take k, x ∈ bs' := fun x hx => List.mem_of_mem_take hx
  have hlk : (bs'.take k).length = k := by rw [List.length_take]; omega
  refine ((inOrder_state ucs2 s0 (bs'.take k) bs'[k] (by omega)
    (fun hx => hterm (hsub _ hx))).2 ?_).2
  rw [hlk]
  rintro (hh | hh)
  · exact hterm (hh ▸ List.getElem_mem _)
  · omega

/-- A buffer that holds the whole text `bs ++ [b]`. -/
structure HoldsText (ucs2 : Ucs2Decoder) (e : Encoding) (bs : List Byte) (b : Byte) (t : Str) (s : RDSString) :
    Prop where
  data : ∃ rest, s.data = bs ++ b :: rest ∧ (b = 0x0D ∨ rest = [])
  seq : bs.length + 1 ≤ s.seqLen
  enc : s.encoding = e
  last : s.lastCompleteData = (bs ++ [b]).map display ∧ s.lastCompleteString = t

theorem HoldsText.complete {ucs2 : Ucs2Decoder} {e : Encoding} {bs : List Byte} {b : Byte} {t : Str}
    {s : RDSString} (hb : (0x0D : Byte) ∉ bs) (h : HoldsText ucs2 e bs b t s) :
    s.isComplete = true ∧ s.getData = (bs ++ [b]).map display := by
  obtain ⟨rest, hd, hr⟩ := h.data
  have he := expectedLength_of_complete s bs rest b hd hb hr
  have hc : s.isComplete = true := by rw [isComplete_iff, he]; exact h.seq
  refine ⟨hc, ?_⟩
  rw [getData_of_complete s hc, he, hd]
  congr 1
  rw [List.take_append]
  simp [List.take_of_length_le]

theorem HoldsText.step {ucs2 : Ucs2Decoder} {e : Encoding} {bs : List Byte} {b : Byte} {t : Str}
    {s : RDSString} (hb : (0x0D : Byte) ∉ bs)
    (ht : RDSString.decode ucs2 e ((bs ++ [b]).map display) = some t)
    (h : HoldsText ucs2 e bs b t s) (pos : Nat) (c : Byte) (hp : bs.length + 1 ≤ pos) :
    HoldsText ucs2 e bs b t (s.set ucs2 pos c) := by
  by_cases hpos : pos < s.data.length
  · obtain ⟨rest, hd, hr⟩ := h.data
    have hst : HoldsText ucs2 e bs b t (s.store pos c) := by
      refine ⟨⟨rest.set (pos - (bs.length + 1)) c, ?_, ?_⟩, ?_, h.enc, h.last⟩
      · simp only [RDSString.store, hd]
        rw [List.set_append_right _ _ (by omega)]
        obtain ⟨k, hk⟩ : ∃ k, pos - bs.length = k + 1 := ⟨pos - bs.length - 1, by omega⟩
        rw [hk, List.set_cons_succ, show pos - (bs.length + 1) = k by omega]
      · refine hr.imp id fun hr => ?_
        rw [hr]; rfl
      · simp only [RDSString.store]
        have := h.seq
        split <;> omega
    obtain ⟨hc, hg⟩ := hst.complete hb
    have hstr : (s.store pos c).str ucs2 = some t := by
      rw [RDSString.str, hg, hst.enc, ht]
    rw [set_eq ucs2 s pos c hpos, if_pos hc, hstr]
    exact ⟨hst.data, hst.seq, hst.enc, hg, rfl⟩
  · have : s.set ucs2 pos c = s := by simp [RDSString.set]; omega
    rw [this]; exact h

/-- **C25**, with characters after the end. After a whole text in order, further receptions at
later positions (such as the blanks that fill the last group after 0x0D) change nothing: the text
stays complete, and what is shown is the decoding of exactly the bytes of the text. -/
theorem C25_characters_after_the_end (ucs2 : Ucs2Decoder) (s0 : RDSString) (bs : List Byte)
    (hw : WholeText s0.data.length bs) (t : Str)
    (ht : RDSString.decode ucs2 s0.encoding (bs.map display) = some t) (later : List (Nat × Byte))
    (hl : ∀ x ∈ later, bs.length ≤ x.1) :
    let s := s0.ops ucs2 (inOrder 0 bs ++ later.map fun x => .recv x.1 x.2)
    s.isComplete = true ∧ s.lastCompleteData = bs.map display ∧ s.lastCompleteString = t := by
  obtain ⟨h0, hlen, hend, hterm⟩ := hw
  obtain ⟨bs', b, rfl⟩ : ∃ bs' b, bs = bs' ++ [b] :=
    ⟨bs.dropLast, bs.getLast (List.ne_nil_of_length_pos h0), (List.dropLast_concat_getLast _).symm⟩
  simp only [List.dropLast_concat, List.length_append, List.length_singleton, List.getLast?_concat,
    Option.some.injEq] at *
  obtain ⟨i, -, h2, h3⟩ := (inOrder_state ucs2 s0 bs' b (by omega) hterm).1 hend.symm t ht
  have hold : HoldsText ucs2 s0.encoding bs' b t (s0.ops ucs2 (inOrder 0 (bs' ++ [b]))) := by
    refine ⟨⟨s0.data.drop (bs'.length + 1), ?_, ?_⟩, ?_, i.enc, h2, h3⟩
    · rw [i.data]
      simp
    · refine hend.symm.imp id fun h => ?_
      rw [List.drop_eq_nil_iff]; omega
    · rw [i.seq]; simp
  rw [RDSString.ops_append]
  generalize s0.ops ucs2 (inOrder 0 (bs' ++ [b])) = s1 at hold
  have key : ∀ (l : List (Nat × Byte)) (s : RDSString), (∀ x ∈ l, bs'.length + 1 ≤ x.1) →
      HoldsText ucs2 s0.encoding bs' b t s →
      HoldsText ucs2 s0.encoding bs' b t (s.ops ucs2 (l.map fun x => .recv x.1 x.2)) := by
    intro l
    induction l with
    | nil => intro s _ h; exact h
    | cons a l ih =>
      intro s hl h
      exact ih _ (fun x hx => hl x (by simp [hx])) (h.step hterm ht a.1 a.2 (hl a (by simp)))
  have := key later s1 hl hold
  exact ⟨(this.complete hterm).1, this.last⟩

/-- "AB" with 0x0D and blanks after it, in a field of 8. -/
example : (({ RDSString.new 8 with encoding := .basic } : RDSString).ops (fun _ => none)
    (inOrder 0 [0x41, 0x42, 0x0D] ++ [(3, 0x20), (4, 0x58)].map fun x => .recv x.1 x.2)).lastCompleteString =
      ascii "AB " := by decide

/-- The RDS character set and UTF-8 never fail to decode. -/
theorem decode_total (ucs2 : Ucs2Decoder) (e : Encoding) (he : e ≠ .ucs2) (bs : List Byte) :
    ∃ t, RDSString.decode ucs2 e bs = some t := by
  cases e
  · exact ⟨_, rfl⟩
  · exact absurd rfl he
  · exact ⟨_, rfl⟩

example : WholeText 8 [0x59, 0x4C, 0x45, 0x20, 0x0D] := by
  refine ⟨by decide, by decide, by decide, by decide⟩

/-- **C26** (partial). If the text is complete, and the last transmission began with a
received position 0 (everything after it belonging to that transmission), then every byte
shown was received in that transmission. Missing for the full property: transmissions
whose beginning was lost, see `C26_mixing_violated`. -/
theorem C26_no_mixing_partial (ucs2 : Ucs2Decoder) (n : Nat) (hn : 0 < n) (e : Encoding)
    (earlier current : List TextOp) (b0 : Byte) :
    let s := ({ RDSString.new n with encoding := e } : RDSString).ops ucs2
      (earlier ++ .recv 0 b0 :: current)
    s.isComplete = true →
      ∃ bs : List Byte, WholeText n bs ∧
        (∀ i b, bs[i]? = some b → .recv i b ∈ TextOp.recv 0 b0 :: current) ∧
        RDSString.decode ucs2 e (bs.map display) = some s.lastCompleteString := by
  intro s hc
  obtain ⟨bs, hw, hl, _, hd⟩ := C24_complete_text_latest_bytes ucs2 n hn e _ hc
  refine ⟨bs, hw, fun i b hb => ?_, hd⟩
  obtain ⟨h1, h2, heq, hno⟩ := hl i b hb
  -- the reception cannot lie in `earlier`: then position 0 would follow it
  rcases List.append_eq_append_iff.1 heq with ⟨x, hx1, hx2⟩ | ⟨x, hx1, hx2⟩
  · rw [hx2]; simp
  · cases x with
    | nil => simp at hx2; simp [hx2]
    | cons y ys =>
      simp only [List.cons_append, List.cons.injEq] at hx2
      have := (hno (.recv 0 b0) (by rw [hx2.2]; simp)).2 b0
      exact absurd rfl this.2

example : (({ RDSString.new 2 with encoding := .basic } : RDSString).ops (fun _ => none)
    ([.recv 1 0x41, .recv 0 0x42] ++ .recv 0 0x43 :: [.recv 1 0x44])).isComplete = true := by decide

/-- The full C26 is violated: a complete PS name "ABCDEFGH" is followed by a transmission
"123456.." of which only the segment "34" arrives. The text is reported complete as
"AB34EFGH", which was never transmitted. -/
theorem C26_mixing_violated :
    let s := (RDSString.new 8).ops (fun _ => none)
      (inOrder 0 (ascii "ABCDEFGH") ++ inOrder 2 (ascii "34"))
    s.isComplete = true ∧ s.lastCompleteString = ascii "AB34EFGH" := by decide

end Redsea
