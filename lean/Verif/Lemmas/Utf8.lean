import Verif.Model.Text

namespace Redsea

/-- UTF-8 text of a list of code points. -/
def utf8 (cs : List Nat) : Str := cs.flatMap utf8Encode

theorem utf8_append (a b : List Nat) : utf8 (a ++ b) = utf8 a ++ utf8 b := by
  simp [utf8]

theorem utf8_cons (c : Nat) (cs : List Nat) : utf8 (c :: cs) = utf8Encode c ++ utf8 cs := by
  simp [utf8]

theorem isContinuation_ofNat_low (k : Nat) (h : k < 128 ∨ (192 ≤ k ∧ k < 256)) :
    isContinuation (BitVec.ofNat 8 k) = false := by
  have : ∀ k : Fin 256, (k.val < 128 ∨ 192 ≤ k.val) →
      isContinuation (BitVec.ofNat 8 k.val) = false := by decide +kernel
  exact this ⟨k, by omega⟩ (by simp; omega)

theorem isContinuation_ofNat_high (k : Nat) (h : k < 64) :
    isContinuation (BitVec.ofNat 8 (0x80 + k)) = true := by
  have : ∀ k : Fin 64, isContinuation (BitVec.ofNat 8 (0x80 + k.val)) = true := by decide +kernel
  exact this ⟨k, h⟩

/-- An encoded character is a lead byte followed by continuation bytes. -/
theorem utf8Encode_shape (c : Nat) (hc : c < 0x110000) :
    ∃ lead conts, utf8Encode c = lead :: conts ∧ isContinuation lead = false ∧
      (∀ b ∈ conts, isContinuation b = true) ∧ (c < 0x80 → conts = []) := by
  unfold utf8Encode
  split
  · exact ⟨_, [], rfl, isContinuation_ofNat_low _ (by omega), by simp, by simp⟩
  · split
    · refine ⟨_, _, rfl, isContinuation_ofNat_low _ (by omega), ?_, by omega⟩
      intro b hb
      simp only [List.mem_cons, List.not_mem_nil, or_false] at hb
      subst hb
      exact isContinuation_ofNat_high _ (by omega)
    · split
      · refine ⟨_, _, rfl, isContinuation_ofNat_low _ (by omega), ?_, by omega⟩
        intro b hb
        simp only [List.mem_cons, List.not_mem_nil, or_false] at hb
        rcases hb with rfl | rfl
        · exact isContinuation_ofNat_high _ (by omega)
        · exact isContinuation_ofNat_high _ (by omega)
      · refine ⟨_, _, rfl, isContinuation_ofNat_low _ (by omega), ?_, by omega⟩
        intro b hb
        simp only [List.mem_cons, List.not_mem_nil, or_false] at hb
        rcases hb with rfl | rfl | rfl
        · exact isContinuation_ofNat_high _ (by omega)
        · exact isContinuation_ofNat_high _ (by omega)
        · exact isContinuation_ofNat_high _ (by omega)

theorem charlenFrom_conts (conts : List Byte) (lead : Byte) (rest : Str)
    (h1 : ∀ b ∈ conts, isContinuation b = true) (h2 : isContinuation lead = false) :
    charlenFrom (conts ++ lead :: rest) = conts.length + 1 := by
  induction conts with
  | nil => simp [charlenFrom, h2]
  | cons b bs ih =>
    rw [List.cons_append, charlenFrom, if_pos (h1 b (by simp)),
      ih (fun x hx => h1 x (by simp [hx]))]
    simp

/-- The byte position which the program uses for the start of character `k`: one past the
*first* byte of the character before. -/
def bytePos (cs : List Nat) (k : Nat) : Nat :=
  if k = 0 then 0 else (utf8 (cs.take (k - 1))).length + 1

theorem charlen_bytePos (cs : List Nat) (hcs : ∀ c ∈ cs, c < 0x110000) (k : Nat)
    (hk : k < cs.length) :
    charlen (utf8 cs) (bytePos cs k) ≠ 0 ∧
      bytePos cs k + charlen (utf8 cs) (bytePos cs k) = bytePos cs (k + 1) := by
  obtain ⟨lead, conts, he, hl, _, _⟩ := utf8Encode_shape cs[k] (hcs _ (List.getElem_mem hk))
  have hsplit : cs = cs.take k ++ cs[k] :: cs.drop (k + 1) := by
    rw [← List.drop_eq_getElem_cons hk, List.take_append_drop]
  by_cases h0 : k = 0
  · subst h0
    have : charlen (utf8 cs) (bytePos cs 0) = 1 := by
      simp only [bytePos, if_true, charlen, List.drop_zero]
      rw [hsplit, utf8_append, utf8_cons, he]
      simp [charlenFrom, hl, utf8]
    rw [this]
    simp [bytePos, utf8]
  · obtain ⟨j, rfl⟩ : ∃ j, k = j + 1 := ⟨k - 1, by omega⟩
    have hj : j < cs.length := by omega
    obtain ⟨lead', conts', he', hl', hc', _⟩ := utf8Encode_shape cs[j] (hcs _ (List.getElem_mem hj))
    have hdec : utf8 cs = (utf8 (cs.take j) ++ [lead']) ++ (conts' ++ lead ::
        (conts ++ utf8 (cs.drop (j + 2)))) := by
      have h1 : cs = cs.take j ++ cs[j] :: cs[j+1] :: cs.drop (j + 2) := by
        rw [← List.drop_eq_getElem_cons hk, ← List.drop_eq_getElem_cons hj, List.take_append_drop]
      conv => lhs; rw [h1]
      rw [utf8_append, utf8_cons, utf8_cons, he, he']
      simp
    have hb : bytePos cs (j + 1) = (utf8 (cs.take j) ++ [lead']).length := by
      simp [bytePos]
    have hlen : charlen (utf8 cs) (bytePos cs (j + 1)) = conts'.length + 1 := by
      rw [charlen, hb, hdec, List.drop_left, charlenFrom_conts _ _ _ hc' hl]
    rw [hlen]
    refine ⟨by omega, ?_⟩
    have ht : utf8 (cs.take (j + 1)) = utf8 (cs.take j) ++ (lead' :: conts') := by
      rw [List.take_succ_eq_append_getElem hj, utf8_append]
      simp [utf8, he']
    simp only [bytePos]
    simp [ht]
    omega

theorem advanceChars_bytePos (cs : List Nat) (hcs : ∀ c ∈ cs, c < 0x110000) (n k : Nat)
    (hk : k + n ≤ cs.length) :
    advanceChars (utf8 cs) (bytePos cs k) n = some (bytePos cs (k + n)) := by
  induction n generalizing k with
  | zero => rfl
  | succ n ih =>
    obtain ⟨h1, h2⟩ := charlen_bytePos cs hcs k (by omega)
    rw [advanceChars]
    rw [if_neg h1, h2, ih (k + 1) (by omega)]
    congr 2
    omega

theorem bytePos_ascii (cs : List Nat) (hcs : ∀ c ∈ cs, c < 0x110000) (k : Nat)
    (hk : k ≤ cs.length) (ha : ∀ c, 0 < k → cs[k - 1]? = some c → c < 0x80) :
    bytePos cs k = (utf8 (cs.take k)).length := by
  by_cases h0 : k = 0
  · subst h0; simp [bytePos, utf8]
  · obtain ⟨j, rfl⟩ : ∃ j, k = j + 1 := ⟨k - 1, by omega⟩
    have hj : j < cs.length := by omega
    have hc := ha cs[j] (by omega) (by simp [List.getElem?_eq_getElem hj])
    obtain ⟨lead, conts, he, _, _, hn⟩ := utf8Encode_shape cs[j] (hcs _ (List.getElem_mem hj))
    rw [hn hc] at he
    rw [List.take_succ_eq_append_getElem hj, utf8_append]
    simp [bytePos, utf8, he]

/-- What the program returns for a tag inside the text. -/
theorem substringChars_eq (cs : List Nat) (hcs : ∀ c ∈ cs, c < 0x110000) (s n : Nat)
    (h : s + n ≤ cs.length) :
    substringChars (utf8 cs) s n =
      if bytePos cs (s + n) < (utf8 cs).length then
        ((utf8 cs).drop (bytePos cs s)).take (bytePos cs (s + n) - bytePos cs s) else [] := by
  have h1 := advanceChars_bytePos cs hcs s 0 (by omega)
  have h2 := advanceChars_bytePos cs hcs n s h
  rw [show bytePos cs 0 = 0 from rfl, Nat.zero_add] at h1
  simp only [substringChars, h1, h2]

end Redsea
