import Verif.Model.Base64
import Verif.Spec.Base64

/-
C34: Base64.
-/

namespace Redsea

open Spec

theorem b64Value_table : ∀ k, k < 64 → b64Value (base64Table.getD k 0) = some k := by decide +kernel

theorem base64Char_value (chunk : BitVec 32) (s : Nat) :
    b64Value (base64Char chunk s) = some (chunk.toNat / 2 ^ s % 64) := by
  have h : ((chunk >>> s) &&& 0x3F#32).toNat = chunk.toNat / 2 ^ s % 64 := by
    rw [BitVec.toNat_and, BitVec.toNat_ushiftRight, Nat.shiftRight_eq_div_pow]
    exact Nat.and_two_pow_sub_one_eq_mod _ 6
  rw [base64Char, h]
  exact b64Value_table _ (Nat.mod_lt _ (by decide))

theorem base64Char_ne_pad (chunk : BitVec 32) (s : Nat) : base64Char chunk s ≠ b64Pad := by
  intro h
  have := base64Char_value chunk s
  rw [h] at this
  simp [b64Value, b64Pad] at this

theorem base64Chunk3 (a b c : Byte) :
    (base64Chunk [a, b, c]).toNat = a.toNat * 65536 + b.toNat * 256 + c.toNat := by
  have ha := a.isLt; have hb := b.isLt; have hc := c.isLt
  simp only [base64Chunk, List.zipIdx_cons, List.zipIdx_nil, List.foldl_cons, List.foldl_nil,
    BitVec.toNat_or, BitVec.toNat_shiftLeft, BitVec.toNat_setWidth]
  simp only [Nat.zero_or, BitVec.toNat_ofNat, Nat.zero_mod, Nat.shiftLeft_eq]
  rw [Nat.mod_eq_of_lt (a := a.toNat) (by omega), Nat.mod_eq_of_lt (a := b.toNat) (by omega),
    Nat.mod_eq_of_lt (a := c.toNat) (by omega)]
  simp only [Nat.zero_mul, Nat.sub_zero, Nat.zero_add, Nat.one_mul, Nat.reduceSub, Nat.reduceMul,
    Nat.reduceAdd, Nat.reducePow]
  rw [Nat.mod_eq_of_lt (a := a.toNat * 65536) (by omega), Nat.mod_eq_of_lt (a := b.toNat * 256) (by omega),
    Nat.mod_eq_of_lt (a := c.toNat * 1) (by omega)]
  have e1 : a.toNat * 65536 ||| b.toNat * 256 = a.toNat * 65536 + b.toNat * 256 := by
    have := Nat.shiftLeft_add_eq_or_of_lt (i := 16) (b := b.toNat * 256) (by omega) a.toNat
    rw [Nat.shiftLeft_eq] at this
    exact this.symm
  have e2 : (a.toNat * 65536 + b.toNat * 256) ||| c.toNat * 1 =
      a.toNat * 65536 + b.toNat * 256 + c.toNat := by
    have := Nat.shiftLeft_add_eq_or_of_lt (i := 8) (b := c.toNat) (by omega) (a.toNat * 256 + b.toNat)
    rw [Nat.shiftLeft_eq] at this
    have e : (a.toNat * 256 + b.toNat) * 2 ^ 8 = a.toNat * 65536 + b.toNat * 256 := by
      rw [Nat.add_mul, Nat.mul_assoc]
    rw [Nat.mul_one, ← e]
    exact this.symm
  rw [e1, e2]

theorem base64Chunk2 (a b : Byte) :
    (base64Chunk [a, b]).toNat = a.toNat * 65536 + b.toNat * 256 := by
  have h : base64Chunk [a, b] = base64Chunk [a, b, 0#8] := by
    simp [base64Chunk]
  rw [h, base64Chunk3]; simp

theorem base64Chunk1 (a : Byte) : (base64Chunk [a]).toNat = a.toNat * 65536 := by
  have h : base64Chunk [a] = base64Chunk [a, 0#8, 0#8] := by
    simp [base64Chunk]
  rw [h, base64Chunk3]; simp

theorem ofNat_eq_byte (b : Byte) (n : Nat) (h : n % 256 = b.toNat) : BitVec.ofNat 8 n = b :=
  BitVec.eq_of_toNat_eq (by simpa using h)

/-- Induction over chunks of three bytes. -/
theorem chunkInduction {P : List Byte → Prop} (h0 : P []) (h1 : ∀ a, P [a]) (h2 : ∀ a b, P [a, b])
    (h3 : ∀ a b c rest, P rest → P (a :: b :: c :: rest)) : ∀ l, P l
  | [] => h0
  | [a] => h1 a
  | [a, b] => h2 a b
  | a :: b :: c :: rest => h3 a b c rest (chunkInduction h0 h1 h2 h3 rest)

/-- C34: the standard decoder gives back the encoded bytes. -/
theorem C34_base64_decodes (bytes : List Byte) : b64Decode (asBase64 bytes) = some bytes := by
  induction bytes using chunkInduction with
  | h0 => rfl
  | h3 a b c rest ih =>
    have ha := a.isLt; have hb := b.isLt; have hc := c.isLt
    have hch := base64Chunk3 a b c
    rw [asBase64]
    have hn : b64Number [(base64Chunk [a, b, c]).toNat / 2 ^ 18 % 64,
        (base64Chunk [a, b, c]).toNat / 2 ^ 12 % 64, (base64Chunk [a, b, c]).toNat / 2 ^ 6 % 64,
        (base64Chunk [a, b, c]).toNat / 2 ^ 0 % 64] = 65536 * a.toNat + 256 * b.toNat + c.toNat := by
      simp only [b64Number, List.foldl_cons, List.foldl_nil]; omega
    simp only [base64Encode, List.length_cons, List.length_nil, List.cons_append, List.nil_append,
      b64Decode, base64Char_value, Option.bind_eq_bind, Option.bind_some, if_true, ih,
      base64Char_ne_pad, false_and, and_false, if_false, hn,
      show (0 + 1 + 1 + 1 > 1) = True by simp]
    simp only [Option.some.injEq, List.cons.injEq, and_true]
    refine ⟨ofNat_eq_byte _ _ ?_, ofNat_eq_byte _ _ ?_, ofNat_eq_byte _ _ ?_⟩ <;> omega
  | h1 a =>
    have ha := a.isLt
    have hch := base64Chunk1 a
    have hn : b64Number [a.toNat * 65536 / 2 ^ 18 % 64, a.toNat * 65536 / 2 ^ 12 % 64] = 16 * a.toNat := by
      simp only [b64Number, List.foldl_cons, List.foldl_nil]; omega
    rw [asBase64]
    · simp only [base64Encode, List.length_cons, List.length_nil, b64Decode,
        base64Char_value, Option.bind_eq_bind, Option.bind_some, hch, hn]
      simp [b64Pad]
    · simp
    · simp
  | h2 a b =>
    have ha := a.isLt; have hb := b.isLt
    have hch := base64Chunk2 a b
    have hne := base64Char_ne_pad (base64Chunk [a, b]) 6
    have hn : b64Number [(a.toNat * 65536 + b.toNat * 256) / 2 ^ 18 % 64,
        (a.toNat * 65536 + b.toNat * 256) / 2 ^ 12 % 64,
        (a.toNat * 65536 + b.toNat * 256) / 2 ^ 6 % 64] = 4 * (256 * a.toNat + b.toNat) := by
      simp only [b64Number, List.foldl_cons, List.foldl_nil]; omega
    rw [asBase64]
    · simp only [base64Encode, List.length_cons, List.length_nil, b64Decode,
        base64Char_value, Option.bind_eq_bind, Option.bind_some, hch,
        show (0 + 1 + 1 > 1) = True by simp, if_true, hne, false_and, if_false,
        show (0 + 1 + 1 = 3) = False by simp, hn]
      rw [if_pos (by simp [b64Pad]), if_pos (by omega)]
      simp only [Option.some.injEq, List.cons.injEq, and_true]
      exact ⟨ofNat_eq_byte _ _ (by omega), ofNat_eq_byte _ _ (by omega)⟩
    · simp
    · simp

/-- C34: four characters for every started group of three bytes. -/
theorem C34_base64_length (bytes : List Byte) :
    (asBase64 bytes).length = 4 * ((bytes.length + 2) / 3) := by
  induction bytes using chunkInduction with
  | h0 => rfl
  | h3 a b c rest ih =>
    rw [asBase64, List.length_append, ih]
    simp only [base64Encode, List.length_cons, List.length_nil]
    omega
  | h1 a => rw [asBase64] <;> simp [base64Encode]
  | h2 a b => rw [asBase64] <;> simp [base64Encode]

/-- C34: the text consists of characters of the alphabet, followed by as many padding
characters as bytes are missing in the last group. -/
theorem C34_base64_alphabet (bytes : List Byte) :
    ∃ body, asBase64 bytes = body ++ List.replicate ((3 - bytes.length % 3) % 3) b64Pad ∧
      ∀ c ∈ body, (b64Value c).isSome = true := by
  have hv : ∀ ch s, (b64Value (base64Char ch s)).isSome = true := by
    intro ch s; rw [base64Char_value]; rfl
  induction bytes using chunkInduction with
  | h0 => exact ⟨[], rfl, by simp⟩
  | h3 a b c rest ih =>
    obtain ⟨body, h1, h2⟩ := ih
    refine ⟨base64Encode [a, b, c] ++ body, ?_, ?_⟩
    · rw [asBase64, h1, List.append_assoc]
      congr 3
      simp only [List.length_cons]; omega
    · intro x hx
      rw [List.mem_append] at hx
      rcases hx with hx | hx
      · simp only [base64Encode, List.length_cons, List.length_nil, if_true,
          show (0 + 1 + 1 + 1 > 1) = True by simp, List.mem_cons, List.not_mem_nil, or_false] at hx
        rcases hx with rfl | rfl | rfl | rfl <;> exact hv _ _
      · exact h2 x hx
  | h1 a =>
      refine ⟨[base64Char (base64Chunk [a]) 18, base64Char (base64Chunk [a]) 12], rfl, ?_⟩
      intro x hx
      simp only [List.mem_cons, List.not_mem_nil, or_false] at hx
      rcases hx with rfl | rfl <;> exact hv _ _
  | h2 a b =>
      refine ⟨[base64Char (base64Chunk [a, b]) 18, base64Char (base64Chunk [a, b]) 12,
        base64Char (base64Chunk [a, b]) 6], rfl, ?_⟩
      intro x hx
      simp only [List.mem_cons, List.not_mem_nil, or_false] at hx
      rcases hx with rfl | rfl | rfl <;> exact hv _ _

example : asBase64 (ascii "Redsea!") = ascii "UmVkc2VhIQ==" := by decide
example : b64Decode (ascii "UmVkc2VhIQ==") = some (ascii "Redsea!") := by decide
example : b64Decode (ascii "UmV=c2Vh") = none := by decide

end Redsea
