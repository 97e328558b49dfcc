import Verif.Lemmas.Utf8Strings
import Verif.Spec.Utf8

/-
The check of UTF-8 in the JSON library accepts exactly the encodings of Unicode texts.
-/

namespace Redsea

theorem utf8Encode_eq (c : Char) : utf8Encode c.toNat = (String.utf8EncodeChar c).map UInt8.toBitVec := by
  have hv : c.toNat < 0xD800 ∨ 0xDFFF < c.toNat ∧ c.toNat < 0x110000 := c.valid
  unfold utf8Encode String.utf8EncodeChar
  have he : c.val.toNat = c.toNat := rfl
  dsimp only
  rw [he]
  generalize c.toNat = n at hv
  have h8 : ∀ v : Nat, (UInt8.ofNat v).toBitVec = BitVec.ofNat 8 v := fun v => rfl
  by_cases h1 : n < 0x80
  · rw [if_pos h1, if_pos (show n ≤ 127 by omega)]
    rfl
  rw [if_neg h1, if_neg (show ¬ n ≤ 127 by omega)]
  by_cases h2 : n < 0x800
  · rw [if_pos h2, if_pos (show n ≤ 2047 by omega)]
    simp only [List.map_cons, List.map_nil, h8]
    rw [show 192 + n / 64 = n / 64 % 32 + 192 by omega, show 128 + n % 64 = n % 64 + 128 by omega]
  rw [if_neg h2, if_neg (show ¬ n ≤ 2047 by omega)]
  by_cases h3 : n < 0x10000
  · rw [if_pos h3, if_pos (show n ≤ 65535 by omega)]
    simp only [List.map_cons, List.map_nil, h8]
    rw [show 224 + n / 4096 = n / 4096 % 16 + 224 by omega, show 128 + n / 64 % 64 = n / 64 % 64 + 128 by omega,
      show 128 + n % 64 = n % 64 + 128 by omega]
  rw [if_neg h3, if_neg (show ¬ n ≤ 65535 by omega)]
  simp only [List.map_cons, List.map_nil, h8]
  rw [show 240 + n / 262144 = n / 262144 % 8 + 240 by omega,
    show 128 + n / 4096 % 64 = n / 4096 % 64 + 128 by omega, show 128 + n / 64 % 64 = n / 64 % 64 + 128 by omega,
    show 128 + n % 64 = n % 64 + 128 by omega]

theorem unicodeBytes_eq (t : String) : unicodeBytes t = utf8Str t := by
  unfold unicodeBytes utf8Str
  rw [String.toUTF8_eq_toByteArray, ← String.utf8Encode_toList]
  unfold List.utf8Encode
  rw [List.toList_data_toByteArray, List.map_flatMap]
  exact congrArg (fun f => t.toList.flatMap f) (funext fun c => (utf8Encode_eq c).symm)

theorem unicodeBytes_append (a b : String) : unicodeBytes (a ++ b) = unicodeBytes a ++ unicodeBytes b := by
  simp [unicodeBytes_eq, utf8Str, String.toList_append]

theorem continuation_value (b : Byte) (h : isContinuation b = true) : ∃ v, v < 64 ∧ b = BitVec.ofNat 8 (0x80 + v) ∧
    b.toNat = 0x80 + v := by
  have : 0x80 ≤ b.toNat ∧ b.toNat < 0xC0 := by
    revert b
    decide
  exact ⟨b.toNat - 0x80, by omega, BitVec.eq_of_toNat_eq (by rw [BitVec.toNat_ofNat]; omega), by omega⟩

theorem byte_of_nat (b : Byte) (n : Nat) (h : b.toNat = n) : b = BitVec.ofNat 8 n := by
  rw [← h, BitVec.ofNat_toNat, BitVec.setWidth_eq]

theorem char_of_code (n : Nat) (h : n < 0xD800 ∨ 0xDFFF < n ∧ n < 0x110000) : ∃ c : Char, c.toNat = n := by
  refine ⟨⟨UInt32.ofNat n, ?_⟩, ?_⟩
  · show Nat.isValidChar _
    rw [UInt32.toNat_ofNat_of_lt' (by show n < 2 ^ 32; omega)]
    exact h
  · show (UInt32.ofNat n).toNat = n
    exact UInt32.toNat_ofNat_of_lt' (by show n < 2 ^ 32; omega)

theorem valid_unicode (s : Str) (h : validUtf8 s = true) : ∃ l : List Char, s = l.flatMap fun c => utf8Encode c.toNat := by
  induction hn : s.length using Nat.strongRecOn generalizing s with
  | _ n ih =>
  have go : ∀ (n' : Nat) (hc : n' < 0xD800 ∨ 0xDFFF < n' ∧ n' < 0x110000) (a rest : Str), rest.length < n →
      validUtf8 rest = true → utf8Encode n' = a → ∃ l : List Char, a ++ rest = l.flatMap fun c => utf8Encode c.toNat := by
    intro n' hc a rest hl hv ha
    obtain ⟨c, hcn⟩ := char_of_code n' hc
    obtain ⟨l, hl⟩ := ih _ hl rest hv rfl
    exact ⟨c :: l, by rw [List.flatMap_cons, hcn, ha, hl]⟩
  cases s with
  | nil => exact ⟨[], rfl⟩
  | cons b rest =>
    have hlen : rest.length < n := by simp at hn; omega
    unfold validUtf8 at h
    dsimp only at h
    by_cases h1 : b.toNat < 0x80
    · rw [if_pos h1] at h
      refine go b.toNat (.inl (by omega)) [b] rest hlen h ?_
      unfold utf8Encode
      rw [if_pos h1, BitVec.ofNat_toNat, BitVec.setWidth_eq]
    rw [if_neg h1] at h
    by_cases h2 : 0xC2 ≤ b.toNat ∧ b.toNat ≤ 0xDF
    · rw [if_pos h2] at h
      match rest, hlen, h with
      | [], _, h => simp at h
      | c1 :: rest, hlen, h =>
        simp only [Bool.and_eq_true] at h
        obtain ⟨v, hv, e, -⟩ := continuation_value c1 h.1
        refine go ((b.toNat - 0xC0) * 64 + v) (.inl (by omega)) [b, c1] rest (by simp at hlen; omega) h.2 ?_
        unfold utf8Encode
        generalize hn' : (b.toNat - 0xC0) * 64 + v = n'
        rw [if_neg (by omega), if_pos (by omega), show 192 + n' / 64 = b.toNat by omega,
          show 128 + n' % 64 = 128 + v by omega, ← byte_of_nat b _ rfl, ← e]
    rw [if_neg h2] at h
    by_cases h3 : 0xE0 ≤ b.toNat ∧ b.toNat ≤ 0xEF
    · rw [if_pos h3] at h
      match rest, hlen, h with
      | [], _, h => simp at h
      | [_], _, h => simp at h
      | c1 :: c2 :: rest, hlen, h =>
        simp only [Bool.and_eq_true, Bool.or_eq_true, bne_iff_ne, decide_eq_true_eq] at h
        obtain ⟨⟨⟨⟨k1, k2⟩, k3⟩, k4⟩, k5⟩ := h
        obtain ⟨v, hv, e, n1⟩ := continuation_value c1 k1
        obtain ⟨w, hw, e2, -⟩ := continuation_value c2 k2
        refine go ((b.toNat - 0xE0) * 4096 + v * 64 + w) (by omega) [b, c1, c2] rest (by simp at hlen; omega) k5 ?_
        unfold utf8Encode
        generalize hn' : (b.toNat - 0xE0) * 4096 + v * 64 + w = n'
        rw [if_neg (by omega), if_neg (by omega), if_pos (by omega), show 224 + n' / 4096 = b.toNat by omega,
          show 128 + n' / 64 % 64 = 128 + v by omega, show 128 + n' % 64 = 128 + w by omega,
          ← byte_of_nat b _ rfl, ← e, ← e2]
    rw [if_neg h3] at h
    by_cases h4 : 0xF0 ≤ b.toNat ∧ b.toNat ≤ 0xF4
    · rw [if_pos h4] at h
      match rest, hlen, h with
      | [], _, h => simp at h
      | [_], _, h => simp at h
      | [_, _], _, h => simp at h
      | c1 :: c2 :: c3 :: rest, hlen, h =>
        simp only [Bool.and_eq_true, Bool.or_eq_true, bne_iff_ne, decide_eq_true_eq] at h
        obtain ⟨⟨⟨⟨⟨k1, k2⟩, k3⟩, k4⟩, k5⟩, k6⟩ := h
        obtain ⟨v, hv, e, n1⟩ := continuation_value c1 k1
        obtain ⟨w, hw, e2, -⟩ := continuation_value c2 k2
        obtain ⟨x, hx, e3, -⟩ := continuation_value c3 k3
        refine go ((b.toNat - 0xF0) * 262144 + v * 4096 + w * 64 + x) (by omega) [b, c1, c2, c3] rest
          (by simp at hlen; omega) k6 ?_
        unfold utf8Encode
        generalize hn' : (b.toNat - 0xF0) * 262144 + v * 4096 + w * 64 + x = n'
        rw [if_neg (by omega), if_neg (by omega), if_neg (by omega), show 240 + n' / 262144 = b.toNat by omega,
          show 128 + n' / 4096 % 64 = 128 + v by omega, show 128 + n' / 64 % 64 = 128 + w by omega,
          show 128 + n' % 64 = 128 + x by omega, ← byte_of_nat b _ rfl, ← e, ← e2, ← e3]
    · rw [if_neg h4] at h
      cases h

theorem validUtf8_iff (s : Str) : validUtf8 s = true ↔ ∃ t : String, s = unicodeBytes t := by
  constructor
  · intro h
    obtain ⟨l, hl⟩ := valid_unicode s h
    refine ⟨String.ofList l, ?_⟩
    rw [unicodeBytes_eq, hl, utf8Str, String.toList_ofList]
  · rintro ⟨t, rfl⟩
    rw [unicodeBytes_eq]
    exact (utf8_utf8Str t).valid

end Redsea
