import Verif.Spec.JsonText
import Verif.Model.JsonText
import Verif.Lemmas.CsvTable
import Verif.Lemmas.Utf8Check

/-
A JSON text that was printed is read again.
-/

namespace Redsea

open _root_.Redsea.Spec

theorem takeWhile_stop {α : Type} {p : α → Bool} (s r : List α) (h : ∀ c ∈ s, p c = true)
    (hr : ∀ c, r.head? = some c → p c = false) : (s ++ r).takeWhile p = s ∧ (s ++ r).dropWhile p = r := by
  induction s with
  | nil =>
    cases r with
    | nil => exact ⟨rfl, rfl⟩
    | cons c r =>
      have := hr c rfl
      simp [this]
  | cons c s ih =>
    have hc := h c List.mem_cons_self
    obtain ⟨h1, h2⟩ := ih fun c hc => h c (List.mem_cons_of_mem _ hc)
    rw [List.cons_append, List.takeWhile_cons, List.dropWhile_cons, if_pos hc, if_pos hc, h1, h2]
    exact ⟨rfl, rfl⟩

theorem takeWhile_whole {α : Type} {p : α → Bool} (s : List α) (h : ∀ c ∈ s, p c = true) :
    s.takeWhile p = s ∧ s.dropWhile p = [] := by
  have := takeWhile_stop s [] h (by simp)
  rwa [List.append_nil] at this

theorem mem_takeWhile_true {α : Type} {p : α → Bool} {s : List α} {c : α} (h : c ∈ s.takeWhile p) : p c = true := by
  induction s with
  | nil => cases h
  | cons b s ih =>
    rw [List.takeWhile_cons] at h
    split at h
    · rename_i hb
      rcases List.mem_cons.mp h with rfl | h
      · exact hb
      · exact ih h
    · cases h

/-! ### Numbers -/

theorem numeralsValue_snoc (s : Str) (c : Byte) :
    numeralsValue (s ++ [c]) = numeralsValue s * 10 + (c.toNat - 0x30) := by
  unfold numeralsValue
  rw [List.foldl_append, List.foldl_cons, List.foldl_nil]

theorem numeralsValue_one (c : Byte) : numeralsValue [c] = c.toNat - 0x30 := by
  unfold numeralsValue
  rw [List.foldl_cons, List.foldl_nil, Nat.zero_mul, Nat.zero_add]

theorem digit_value (n : Nat) (h : n < 10) : isNumeral (BitVec.ofNat 8 (0x30 + n)) = true ∧
    (BitVec.ofNat 8 (0x30 + n)).toNat - 0x30 = n ∧ (0 < n → BitVec.ofNat 8 (0x30 + n) ≠ (0x30 : Byte)) := by
  have : ∀ n : Fin 10, isNumeral (BitVec.ofNat 8 (0x30 + n.val)) = true ∧
    (BitVec.ofNat 8 (0x30 + n.val)).toNat - 0x30 = n.val ∧
      (0 < n.val → BitVec.ofNat 8 (0x30 + n.val) ≠ (0x30 : Byte)) := by decide +kernel
  exact this ⟨n, h⟩

theorem decimal_facts (n : Nat) : (∀ c ∈ decimal n, isNumeral c = true) ∧ numeralsValue (decimal n) = n ∧
    decimal n ≠ [] ∧ (0 < n → (decimal n).head? ≠ some 0x30) ∧
    ¬((decimal n).head? = some 0x30 ∧ (decimal n).length > 1) := by
  induction n using Nat.strongRecOn with
  | ind n ih =>
    rw [decimal_rec]
    split
    · rename_i h
      obtain ⟨h1, h2, h3⟩ := digit_value n h
      refine ⟨?_, ?_, by simp, ?_, by simp⟩
      · intro c hc
        rw [List.mem_singleton.mp hc]
        exact h1
      · rw [numeralsValue_one, h2]
      · intro h0 he
        exact h3 h0 (Option.some.inj he)
    · rename_i h
      obtain ⟨i1, i2, i3, i4, -⟩ := ih (n / 10) (by omega)
      obtain ⟨h1, h2, h3⟩ := digit_value (n % 10) (by omega)
      have hh : (decimal (n / 10) ++ [BitVec.ofNat 8 (0x30 + n % 10)]).head? ≠ some 0x30 := by
        rw [List.head?_append, List.head?_eq_some_head i3, Option.some_or, ← List.head?_eq_some_head i3]
        exact i4 (by omega)
      refine ⟨?_, ?_, by simp, fun _ => hh, fun hc => hh hc.1⟩
      · intro c hc
        rcases List.mem_append.mp hc with hc | hc
        · exact i1 c hc
        · rw [List.mem_singleton.mp hc]
          exact h1
      · rw [numeralsValue_snoc, i2, h2]
        omega

theorem numberValue_decimal (n : Nat) : numberValue (decimal n) = some (.integer n) := by
  obtain ⟨h1, h2, h3, -, h5⟩ := decimal_facts n
  obtain ⟨e1, e2⟩ := takeWhile_whole _ h1
  have hneg : (decimal n).head? ≠ some 0x2D := by
    intro he
    have := h1 0x2D (List.mem_of_head? he)
    revert this
    decide
  unfold numberValue
  simp only [hneg, if_false, e1, e2, h2]
  rw [if_neg h3, if_neg h5, if_neg (by decide), if_pos trivial]

theorem numberValue_negative (n : Nat) : numberValue (0x2D :: decimal n) = some (.integer (-(n : Int))) := by
  obtain ⟨h1, h2, h3, -, h5⟩ := decimal_facts n
  obtain ⟨e1, e2⟩ := takeWhile_whole _ h1
  unfold numberValue
  simp only [List.head?_cons, List.drop_succ_cons, List.drop_zero, if_true, e1, e2, h2]
  rw [if_neg h3, if_neg h5, if_neg (by decide)]

theorem intStr_cases (i : Int) : intStr i = decimal i.toNat ∧ 0 ≤ i ∨ ∃ n : Nat, intStr i = 0x2D :: decimal n ∧ i = -(n : Int) := by
  cases i with
  | ofNat n => exact .inl ⟨rfl, Int.natCast_nonneg n⟩
  | negSucc n =>
    refine .inr ⟨n + 1, ?_, rfl⟩
    have : intStr (Int.negSucc n) = ascii "-" ++ decimal (n + 1) := by
      unfold intStr decimal ascii
      rw [← List.map_append, ← String.toList_append]
      rfl
    rw [this]
    rfl

theorem numberValue_intStr (i : Int) : numberValue (intStr i) = some (.integer i) := by
  rcases intStr_cases i with ⟨h1, h2⟩ | ⟨n, h1, h2⟩
  · rw [h1, numberValue_decimal, Int.toNat_of_nonneg h2]
  · rw [h1, numberValue_negative, h2]

theorem numberByte_digit {c : Byte} (h : isNumeral c = true) : numberByte c = true := by
  unfold numberByte
  rw [h]
  rfl

theorem allDigits_bytes {s : Str} (h : allNumerals s = true) : ∀ c ∈ s, numberByte c = true := by
  unfold allNumerals at h
  rw [Bool.and_eq_true] at h
  intro c hc
  exact numberByte_digit (List.all_eq_true.mp h.2 c hc)

theorem exponent_bytes {s : Str} (h : exponentOk s = true) : ∀ c ∈ s, numberByte c = true := by
  cases s with
  | nil => simp
  | cons e rest =>
    unfold exponentOk at h
    rw [Bool.and_eq_true, Bool.or_eq_true, decide_eq_true_eq, decide_eq_true_eq] at h
    obtain ⟨he, h⟩ := h
    have he : numberByte e = true := by rcases he with rfl | rfl <;> decide
    cases rest with
    | nil => cases h
    | cons c digits =>
      dsimp only at h
      intro x hx
      rcases List.mem_cons.mp hx with rfl | hx
      · exact he
      · split at h
        · rename_i hs
          rw [Bool.or_eq_true, decide_eq_true_eq, decide_eq_true_eq] at hs
          rcases List.mem_cons.mp hx with rfl | hx
          · rcases hs with rfl | rfl <;> decide
          · exact allDigits_bytes h x hx
        · exact allDigits_bytes h x hx

theorem tail_bytes {s : Str} (h : tailOk s = true) : ∀ c ∈ s, numberByte c = true := by
  cases s with
  | nil => simp
  | cons b rest =>
    rw [tailOk] at h
    by_cases hb : b = 0x2E
    · rw [if_pos hb] at h
      subst hb
      rw [Bool.and_eq_true] at h
      intro c hc
      rcases List.mem_cons.mp hc with rfl | hc
      · decide
      · rw [← List.takeWhile_append_dropWhile (p := isNumeral) (l := rest)] at hc
        rcases List.mem_append.mp hc with hc | hc
        · exact numberByte_digit (mem_takeWhile_true hc)
        · exact exponent_bytes h.2 c hc
    · rw [if_neg hb] at h
      exact exponent_bytes h

/-- A number consists of the bytes of numbers, and of at least one. -/
theorem number_bytes {t : Str} {v : Value} (h : numberValue t = some v) :
    (∀ c ∈ t, numberByte c = true) ∧ t ≠ [] := by
  unfold numberValue at h
  simp only at h
  generalize hu : (if t.head? = some 0x2D then t.drop 1 else t) = u at h
  by_cases hd : u.takeWhile isNumeral = []
  · rw [if_pos hd] at h
    cases h
  rw [if_neg hd] at h
  split at h
  · cases h
  split at h
  · cases h
  rename_i ht
  have hbytes : ∀ c ∈ u, numberByte c = true := by
    intro c hc
    rw [← List.takeWhile_append_dropWhile (p := isNumeral) (l := u)] at hc
    rcases List.mem_append.mp hc with hc | hc
    · exact numberByte_digit (mem_takeWhile_true hc)
    · exact tail_bytes (by simpa using ht) c hc
  cases t with
  | nil =>
    subst hu
    exact absurd rfl hd
  | cons b t =>
    refine ⟨?_, by simp⟩
    by_cases hb : b = 0x2D
    · subst hb
      rw [List.head?_cons, if_pos rfl] at hu
      subst hu
      intro c hc
      rcases List.mem_cons.mp hc with rfl | hc
      · decide
      · exact hbytes c hc
    · rw [List.head?_cons, if_neg (fun he => hb (Option.some.inj he))] at hu
      subst hu
      exact hbytes

/-- What follows a number. -/
def EndsNumber (rest : Str) : Prop := ∀ c, rest.head? = some c → numberByte c = false

theorem takeNumber_append {t : Str} {v : Value} (h : numberValue t = some v) {rest : Str} (hr : EndsNumber rest) :
    takeNumber (t ++ rest) = some (v, rest) := by
  obtain ⟨h1, h2⟩ := takeWhile_stop t rest (number_bytes h).1 hr
  unfold takeNumber
  rw [h1, h2, h]
  rfl

/-! ### Strings -/

theorem escape_control (b : Byte) (h : b.toNat < 0x20) :
    fourDigits 0x30 0x30 (lowerHexDigit (b.toNat / 16)) (lowerHexDigit (b.toNat % 16)) = some b.toNat := by
  have : ∀ n : Fin 32, fourDigits 0x30 0x30 (lowerHexDigit (n.val / 16)) (lowerHexDigit (n.val % 16)) = some n.val := by
    decide +kernel
  exact this ⟨b.toNat, h⟩

theorem characterBytes_small (b : Byte) (h : b.toNat < 0x80) : characterBytes b.toNat = [b] := by
  unfold characterBytes
  rw [unicodeBytes_eq, utf8Str]
  have hl : (String.singleton (Char.ofNat b.toNat)).toList = [Char.ofNat b.toNat] := by simp
  rw [hl, List.flatMap_singleton]
  have hn : (Char.ofNat b.toNat).toNat = b.toNat := by
    have : ∀ n : Fin 128, (Char.ofNat n.val).toNat = n.val := by decide +kernel
    exact this ⟨b.toNat, h⟩
  rw [hn, utf8Encode, if_pos h]
  simp

theorem readString_escape (n : Nat) (b : Byte) (t : Str) :
    readString (n + 1) (escapeByte b ++ t) = (readString n t).map fun r => (b :: r.1, r.2) := by
  have step : ∀ (u : Str), escapeSequence (u ++ t) = some ([b], t) →
      readString (n + 1) (0x5C :: (u ++ t)) = (readString n t).map fun r => (b :: r.1, r.2) := by
    intro u hs
    rw [readString, if_neg (by decide), if_neg (by decide), if_pos rfl, hs]
    dsimp only [Option.bind_eq_bind, Option.bind_some]
    cases readString n t <;> rfl
  unfold escapeByte
  split
  · rename_i h; subst h; exact step [_] rfl
  split
  · rename_i h; subst h; exact step [_] rfl
  split
  · rename_i h; subst h; exact step [_] rfl
  split
  · rename_i h; subst h; exact step [_] rfl
  split
  · rename_i h; subst h; exact step [_] rfl
  split
  · rename_i h; subst h; exact step [_] rfl
  rename_i n22
  split
  · rename_i h; subst h; exact step [_] rfl
  rename_i n5c
  split
  · rename_i h
    refine step [0x75, 0x30, 0x30, _, _] ?_
    rw [List.cons_append, List.cons_append, List.cons_append, List.cons_append, List.cons_append, List.nil_append,
      escapeSequence, if_neg (by simp)]
    rw [escape_control b h]
    dsimp only [Option.bind_eq_bind, Option.bind_some]
    rw [if_pos (by omega), characterBytes_small b (by omega)]
    rfl
  · rename_i h
    rw [List.singleton_append, readString, if_neg n22, if_neg h, if_neg n5c]

theorem readString_quoted (s rest : Str) (n : Nat) (h : s.length < n) :
    readString n (s.flatMap escapeByte ++ 0x22 :: rest) = some (s, rest) := by
  induction s generalizing n with
  | nil =>
    obtain ⟨m, rfl⟩ : ∃ m, n = m + 1 := ⟨n - 1, by omega⟩
    rfl
  | cons b s ih =>
    obtain ⟨m, rfl⟩ : ∃ m, n = m + 1 := ⟨n - 1, by omega⟩
    rw [List.flatMap_cons, List.append_assoc, readString_escape, ih m (by simpa using h)]
    rfl

theorem escape_nonempty (b : Byte) : 1 ≤ (escapeByte b).length := by
  unfold escapeByte
  repeat' split
  all_goals first | decide | simp

theorem escape_length (s : Str) : s.length ≤ (s.flatMap escapeByte).length := by
  induction s with
  | nil => simp
  | cons b s ih =>
    have := escape_nonempty b
    rw [List.flatMap_cons, List.length_append, List.length_cons]
    omega

theorem readString_quote (s rest : Str) :
    readString ((s.flatMap escapeByte ++ 0x22 :: rest).length + 1) (s.flatMap escapeByte ++ 0x22 :: rest) =
      some (s, rest) := by
  apply readString_quoted
  have := escape_length s
  rw [List.length_append]
  omega

/-! ### Values -/

theorem skip_cons {b : Byte} (t : Str) (h : jsonSpace b = false) : skip (b :: t) = b :: t := by
  rw [skip, List.dropWhile_cons, if_neg (by simp [h])]

theorem expect_cons {b c : Byte} (t : Str) (h : jsonSpace c = false) :
    expect b (c :: t) = if c = b then some t else none := by
  rw [expect, skip_cons t h]

theorem number_not_space {b : Byte} (h : numberByte b = true) : jsonSpace b = false ∧ b ≠ 0x5D ∧ b ≠ 0x7D ∧ b ≠ 0x22 ∧
    b ≠ 0x5B ∧ b ≠ 0x7B ∧ b ≠ 0x6E ∧ b ≠ 0x74 ∧ b ≠ 0x66 := by
  revert b
  decide +kernel

theorem quoteStr_eq (s rest : Str) : quoteStr s ++ rest = 0x22 :: (s.flatMap escapeByte ++ 0x22 :: rest) := by
  simp [quoteStr]

variable {F : BitVec 32 → Str} (hF : NumberTexts F)

include hF in
/-- A value begins with a byte that is neither white space nor a closing bracket. -/
theorem dump_head (j : J) : ∃ b t, j.dump F = b :: t ∧ jsonSpace b = false ∧ b ≠ 0x5D := by
  have num : ∀ {t : Str} {v : Value}, numberValue t = some v → ∃ b u, t = b :: u ∧ jsonSpace b = false ∧ b ≠ 0x5D := by
    intro t v h
    obtain ⟨h1, h2⟩ := number_bytes h
    cases t with
    | nil => exact absurd rfl h2
    | cons b u =>
      obtain ⟨c1, c2, -⟩ := number_not_space (h1 b List.mem_cons_self)
      exact ⟨b, u, rfl, c1, c2⟩
  cases j with
  | null => exact ⟨_, _, rfl, by decide, by decide⟩
  | bool b => cases b <;> exact ⟨_, _, rfl, by decide, by decide⟩
  | int i =>
    rw [J.dump]
    exact num (numberValue_intStr i)
  | float bits =>
    rw [J.dump]
    split
    · exact num (hF bits)
    · exact ⟨_, _, rfl, by decide, by decide⟩
  | str s =>
    rw [J.dump]
    exact ⟨_, _, rfl, by decide, by decide⟩
  | arr l =>
    rw [J.dump]
    exact ⟨_, _, rfl, by decide, by decide⟩
  | obj l =>
    rw [J.dump]
    exact ⟨_, _, rfl, by decide, by decide⟩

theorem readValue_number {t : Str} {v : Value} (h : numberValue t = some v) {rest : Str} (hr : EndsNumber rest)
    (n : Nat) : readValue (n + 1) (t ++ rest) = some (v, rest) := by
  obtain ⟨h1, h2⟩ := number_bytes h
  have ht := takeNumber_append h hr
  cases t with
  | nil => exact absurd rfl h2
  | cons b u =>
    obtain ⟨c1, c2, c3, c4, c5, c6, c7, c8, c9⟩ := number_not_space (h1 b List.mem_cons_self)
    rw [List.cons_append] at ht ⊢
    rw [readValue, skip_cons _ c1]
    dsimp only
    rw [if_neg c4, if_neg c5, if_neg c6, if_neg c7, if_neg c8, if_neg c9, ht]

theorem readValue_null (rest : Str) (n : Nat) : readValue (n + 1) (ascii "null" ++ rest) = some (.null, rest) := by
  have e : ascii "null" ++ rest = 0x6E :: 0x75 :: 0x6C :: 0x6C :: rest := rfl
  rw [e, readValue, skip_cons _ (by decide)]
  rfl

/-- The texts that are known for floating point numbers. -/
def knownTexts (F : BitVec 32 → Str) (bits : BitVec 32) : Option Str :=
  if floatFinite bits then some (F bits) else none

theorem ends_comma (t : Str) : EndsNumber (0x2C :: t) := by
  intro c hc
  cases Option.some.inj hc
  decide

theorem ends_bracket (t : Str) : EndsNumber (0x5D :: t) := by
  intro c hc
  cases Option.some.inj hc
  decide

theorem ends_brace (t : Str) : EndsNumber (0x7D :: t) := by
  intro c hc
  cases Option.some.inj hc
  decide

theorem ends_more (l : List J) (t : Str) : EndsNumber (J.dumpMore F l ++ 0x5D :: t) := by
  cases l with
  | nil => exact ends_bracket t
  | cons j l =>
    rw [J.dumpMore, List.cons_append]
    exact ends_comma _

theorem ends_members (l : List (String × J)) (t : Str) : EndsNumber (J.dumpMoreMembers F l ++ 0x7D :: t) := by
  cases l with
  | nil => exact ends_brace t
  | cons j l =>
    rw [J.dumpMoreMembers, List.cons_append]
    exact ends_comma _

mutual
theorem readValue_dump : ∀ (_ : NumberTexts F) (j : J) (n : Nat) (rest : Str), (j.dump F).length ≤ n → EndsNumber rest →
    readValue n (j.dump F ++ rest) = some (valueOf (knownTexts F) j, rest) := by
  intro hF j n rest hn hr
  obtain ⟨b0, t0, ht0, -⟩ := dump_head hF j
  obtain ⟨m, rfl⟩ : ∃ m, n = m + 1 := ⟨n - 1, by rw [ht0, List.length_cons] at hn; omega⟩
  cases j with
  | null =>
    rw [J.dump, valueOf]
    exact readValue_null rest m
  | bool b =>
    rw [J.dump, valueOf]
    cases b
    · have e : ascii "false" ++ rest = 0x66 :: 0x61 :: 0x6C :: 0x73 :: 0x65 :: rest := rfl
      rw [if_neg (by decide), e, readValue, skip_cons _ (by decide)]
      rfl
    · have e : ascii "true" ++ rest = 0x74 :: 0x72 :: 0x75 :: 0x65 :: rest := rfl
      rw [if_pos rfl, e, readValue, skip_cons _ (by decide)]
      rfl
  | int i =>
    rw [J.dump, valueOf]
    exact readValue_number (numberValue_intStr i) hr m
  | float bits =>
    rw [J.dump, valueOf, knownTexts]
    split
    · exact readValue_number (hF bits) hr m
    · exact readValue_null rest m
  | str s =>
    rw [J.dump, valueOf, quoteStr_eq, readValue, skip_cons _ (by decide)]
    dsimp only
    rw [if_pos rfl, readString_quote]
    rfl
  | arr l =>
    rw [J.dump] at hn
    rw [J.dump, valueOf, List.cons_append, List.append_assoc, List.singleton_append]
    rw [readValue, skip_cons _ (by decide)]
    dsimp only
    rw [if_neg (by decide), if_pos rfl]
    cases l with
    | nil => rfl
    | cons j l =>
      obtain ⟨b, t, ht, hs, hb⟩ := dump_head hF j
      have e : expect 0x5D (J.dumpList F (j :: l) ++ 0x5D :: rest) = none := by
        rw [J.dumpList, ht, List.append_assoc, List.cons_append, expect_cons _ hs, if_neg hb]
      rw [e]
      rw [List.length_cons, List.length_append] at hn
      have := readElements_dump hF j l m rest (by simpa using hn)
      rw [this]
      rfl
  | obj l =>
    rw [J.dump] at hn
    rw [J.dump, valueOf, List.cons_append, List.append_assoc, List.singleton_append]
    rw [readValue, skip_cons _ (by decide)]
    dsimp only
    rw [if_neg (by decide), if_neg (by decide), if_pos rfl]
    cases l with
    | nil => rfl
    | cons mb l =>
      have e : expect 0x7D (J.dumpMembers F (mb :: l) ++ 0x7D :: rest) = none := by
        rw [J.dumpMembers, List.append_assoc, quoteStr_eq, expect_cons _ (by decide), if_neg (by decide)]
      rw [e]
      rw [List.length_cons, List.length_append] at hn
      have := readMembers_dump hF mb.1 mb.2 l m rest (by simpa using hn)
      rw [this]
      rfl
termination_by _ _ n _ _ _ => n
decreasing_by all_goals omega

theorem readElements_dump : ∀ (_ : NumberTexts F) (j : J) (l : List J) (n : Nat) (rest : Str), (J.dumpList F (j :: l)).length + 1 ≤ n →
    readElements n (J.dumpList F (j :: l) ++ 0x5D :: rest) = some (valuesOf (knownTexts F) (j :: l), rest) := by
  intro hF j l n rest hn
  rw [J.dumpList] at hn ⊢
  rw [List.length_append] at hn
  obtain ⟨m, rfl⟩ : ∃ m, n = m + 1 := ⟨n - 1, by omega⟩
  rw [readElements, List.append_assoc, readValue_dump hF j m _ (by omega) (ends_more l rest)]
  dsimp only [Option.bind_eq_bind, Option.bind_some]
  cases l with
  | nil =>
    rw [J.dumpMore, List.nil_append, expect_cons _ (by decide), if_neg (by decide)]
    dsimp only
    rw [expect_cons _ (by decide), if_pos rfl]
    rfl
  | cons j2 l =>
    have e : J.dumpMore F (j2 :: l) = 0x2C :: J.dumpList F (j2 :: l) := by rw [J.dumpMore, J.dumpList]
    rw [e] at hn ⊢
    rw [List.length_cons] at hn
    rw [List.cons_append, expect_cons _ (by decide), if_pos rfl]
    dsimp only
    rw [readElements_dump hF j2 l m rest (by omega)]
    rfl
termination_by _ _ _ n _ _ => n
decreasing_by all_goals omega

theorem readMembers_dump : ∀ (_ : NumberTexts F) (k : String) (j : J) (l : List (String × J)) (n : Nat) (rest : Str),
    (J.dumpMembers F ((k, j) :: l)).length + 1 ≤ n →
    readMembers n (J.dumpMembers F ((k, j) :: l) ++ 0x7D :: rest) =
      some (membersOf (knownTexts F) ((k, j) :: l), rest) := by
  intro hF k j l n rest hn
  rw [J.dumpMembers] at hn ⊢
  rw [List.length_append, List.length_cons, List.length_append] at hn
  dsimp only at hn ⊢
  obtain ⟨m, rfl⟩ : ∃ m, n = m + 1 := ⟨n - 1, by omega⟩
  rw [readMembers, List.append_assoc, quoteStr_eq, expect_cons _ (by decide), if_pos rfl]
  dsimp only [Option.bind_eq_bind, Option.bind_some]
  rw [readString_quote]
  dsimp only [Option.bind_eq_bind, Option.bind_some]
  rw [List.cons_append, expect_cons _ (by decide), if_pos rfl]
  dsimp only [Option.bind_eq_bind, Option.bind_some]
  rw [List.append_assoc, readValue_dump hF j m _ (by omega) (ends_members l rest)]
  dsimp only [Option.bind_eq_bind, Option.bind_some]
  rw [membersOf, unicodeBytes_eq]
  cases l with
  | nil =>
    rw [J.dumpMoreMembers, List.nil_append, expect_cons _ (by decide), if_neg (by decide)]
    dsimp only
    rw [expect_cons _ (by decide), if_pos rfl]
    rfl
  | cons mb l =>
    have e : J.dumpMoreMembers F (mb :: l) = 0x2C :: J.dumpMembers F (mb :: l) := by
      rw [J.dumpMoreMembers, J.dumpMembers]
    rw [e] at hn ⊢
    rw [List.length_cons] at hn
    rw [List.cons_append, expect_cons _ (by decide), if_pos rfl]
    dsimp only
    have hl : (J.dumpMembers F ((mb.1, mb.2) :: l)).length + 1 ≤ m := by
      show (J.dumpMembers F (mb :: l)).length + 1 ≤ m
      omega
    have hm := readMembers_dump hF mb.1 mb.2 l m rest hl
    rw [hm]
    rfl
termination_by _ _ _ _ n _ _ => n
decreasing_by all_goals omega
end

/-! ### No control characters -/

theorem escape_bytes (b : Byte) : ∀ c ∈ escapeByte b, 0x20 ≤ c.toNat := by
  revert b
  decide +kernel

theorem number_printable {c : Byte} (h : numberByte c = true) : 0x20 ≤ c.toNat := by
  revert c
  decide +kernel

theorem quote_bytes (s : Str) : ∀ c ∈ quoteStr s, 0x20 ≤ c.toNat := by
  intro c hc
  unfold quoteStr at hc
  rcases List.mem_cons.mp hc with rfl | hc
  · decide
  rcases List.mem_append.mp hc with hc | hc
  · obtain ⟨b, -, hb⟩ := List.mem_flatMap.mp hc
    exact escape_bytes b c hb
  · rw [List.mem_singleton.mp hc]
    decide

mutual
theorem dump_bytes : ∀ (_ : NumberTexts F) (j : J), ∀ c ∈ j.dump F, 0x20 ≤ c.toNat
  | hF, .null => by rw [J.dump]; decide
  | hF, .bool b => by rw [J.dump]; cases b <;> decide
  | hF, .int i => by
    rw [J.dump]
    exact fun c hc => number_printable ((number_bytes (numberValue_intStr i)).1 c hc)
  | hF, .float bits => by
    rw [J.dump]
    split
    · exact fun c hc => number_printable ((number_bytes (hF bits)).1 c hc)
    · decide
  | hF, .str s => by rw [J.dump]; exact quote_bytes s
  | hF, .arr l => by
    rw [J.dump]
    intro c hc
    rcases List.mem_cons.mp hc with rfl | hc
    · decide
    rcases List.mem_append.mp hc with hc | hc
    · exact dumpList_bytes hF l c hc
    · rw [List.mem_singleton.mp hc]
      decide
  | hF, .obj l => by
    rw [J.dump]
    intro c hc
    rcases List.mem_cons.mp hc with rfl | hc
    · decide
    rcases List.mem_append.mp hc with hc | hc
    · exact dumpMembers_bytes hF l c hc
    · rw [List.mem_singleton.mp hc]
      decide
theorem dumpList_bytes : ∀ (_ : NumberTexts F) (l : List J), ∀ c ∈ J.dumpList F l, 0x20 ≤ c.toNat
  | _, [] => by rw [J.dumpList]; simp
  | hF, j :: l => by
    rw [J.dumpList]
    intro c hc
    rcases List.mem_append.mp hc with hc | hc
    · exact dump_bytes hF j c hc
    · exact dumpMore_bytes hF l c hc
theorem dumpMore_bytes : ∀ (_ : NumberTexts F) (l : List J), ∀ c ∈ J.dumpMore F l, 0x20 ≤ c.toNat
  | _, [] => by rw [J.dumpMore]; simp
  | hF, j :: l => by
    rw [J.dumpMore]
    intro c hc
    rcases List.mem_cons.mp hc with rfl | hc
    · decide
    rcases List.mem_append.mp hc with hc | hc
    · exact dump_bytes hF j c hc
    · exact dumpMore_bytes hF l c hc
theorem dumpMembers_bytes : ∀ (_ : NumberTexts F) (l : List (String × J)), ∀ c ∈ J.dumpMembers F l, 0x20 ≤ c.toNat
  | _, [] => by rw [J.dumpMembers]; simp
  | hF, (k, j) :: l => by
    rw [J.dumpMembers]
    intro c hc
    rcases List.mem_append.mp hc with hc | hc
    · exact quote_bytes _ c hc
    rcases List.mem_cons.mp hc with rfl | hc
    · decide
    rcases List.mem_append.mp hc with hc | hc
    · exact dump_bytes hF j c hc
    · exact dumpMoreMembers_bytes hF l c hc
theorem dumpMoreMembers_bytes : ∀ (_ : NumberTexts F) (l : List (String × J)),
    ∀ c ∈ J.dumpMoreMembers F l, 0x20 ≤ c.toNat
  | _, [] => by rw [J.dumpMoreMembers]; simp
  | hF, (k, j) :: l => by
    rw [J.dumpMoreMembers]
    intro c hc
    rcases List.mem_cons.mp hc with rfl | hc
    · decide
    rcases List.mem_append.mp hc with hc | hc
    · exact quote_bytes _ c hc
    rcases List.mem_cons.mp hc with rfl | hc
    · decide
    rcases List.mem_append.mp hc with hc | hc
    · exact dump_bytes hF j c hc
    · exact dumpMoreMembers_bytes hF l c hc
end

/-! ### Lines -/

theorem textLines_append (s t : Str) (h : (0x0A : Byte) ∉ s) :
    textLines (s ++ 0x0A :: t) = (textLines t).map (s :: ·) := by
  induction s with
  | nil => rw [List.nil_append, textLines, if_pos rfl]
  | cons b s ih =>
    rw [List.mem_cons, not_or] at h
    rw [List.cons_append, textLines, if_neg (fun e => h.1 e.symm), ih h.2]
    cases textLines t <;> rfl

theorem textLines_all (ls : List Str) (h : ∀ l ∈ ls, (0x0A : Byte) ∉ l) :
    textLines (ls.flatMap (· ++ [0x0A])) = some ls := by
  induction ls with
  | nil => rfl
  | cons l ls ih =>
    rw [List.flatMap_cons, List.append_assoc, List.singleton_append, textLines_append _ _ (h l List.mem_cons_self),
      ih fun l hl => h l (List.mem_cons_of_mem _ hl)]
    rfl

include hF in
theorem readText_dump (j : J) : readText (j.dump F) = some (valueOf (knownTexts F) j) := by
  have := readValue_dump hF j ((j.dump F).length + 1) [] (by omega) (by intro c hc; cases hc)
  rw [List.append_nil] at this
  unfold readText
  rw [this]
  rfl

/-! ### UTF-8 -/

/-- The text of a Unicode string. -/
def Unicode (s : Str) : Prop := ∃ t : String, s = unicodeBytes t

theorem Unicode.append {a b : Str} (ha : Unicode a) (hb : Unicode b) : Unicode (a ++ b) := by
  obtain ⟨t, rfl⟩ := ha
  obtain ⟨u, rfl⟩ := hb
  exact ⟨t ++ u, (unicodeBytes_append t u).symm⟩

theorem unicode_one (b : Byte) (h : b.toNat < 0x80) : Unicode [b] :=
  ⟨String.singleton (Char.ofNat b.toNat), (characterBytes_small b h).symm⟩

theorem unicode_ascii {s : Str} (h : ∀ c ∈ s, c.toNat < 0x80) : Unicode s := by
  induction s with
  | nil => exact ⟨"", rfl⟩
  | cons b s ih =>
    exact (unicode_one b (h b List.mem_cons_self)).append (ih fun c hc => h c (List.mem_cons_of_mem _ hc))

theorem number_ascii {c : Byte} (h : numberByte c = true) : c.toNat < 0x80 := by
  revert c
  decide +kernel

theorem escape_ascii (b : Byte) (h : b.toNat < 0x80) : ∀ c ∈ escapeByte b, c.toNat < 0x80 := by
  revert b
  decide +kernel

theorem escape_high (b : Byte) (h : 0x80 ≤ b.toNat) : escapeByte b = [b] := by
  revert b
  decide +kernel

theorem utf8Encode_bytes (n : Nat) (hn : n < 0x110000) : (∃ b : Byte, utf8Encode n = [b] ∧ b.toNat < 0x80) ∨
    ∀ c ∈ utf8Encode n, 0x80 ≤ c.toNat := by
  unfold utf8Encode
  split
  · rename_i h
    refine .inl ⟨_, rfl, ?_⟩
    rw [BitVec.toNat_ofNat]
    omega
  all_goals refine .inr ?_
  all_goals
    repeat' split
    all_goals
      intro c hc
      simp only [List.mem_cons, List.not_mem_nil, or_false] at hc
      rcases hc with rfl | rfl | rfl | rfl <;> (rw [BitVec.toNat_ofNat]; omega)

theorem char_bound (c : Char) : c.toNat < 0x110000 := by
  have : c.val.toNat.isValidChar := c.valid
  show c.val.toNat < 0x110000
  rcases this with h | h <;> omega

theorem unicode_escape (s : Str) (h : Unicode s) : Unicode (s.flatMap escapeByte) := by
  obtain ⟨t, rfl⟩ := h
  rw [unicodeBytes_eq, utf8Str]
  generalize t.toList = l
  induction l with
  | nil => exact ⟨"", rfl⟩
  | cons c l ih =>
    rw [List.flatMap_cons, List.flatMap_append]
    refine Unicode.append ?_ ih
    rcases utf8Encode_bytes c.toNat (char_bound c) with ⟨b, hb, hlt⟩ | hh
    · rw [hb, List.flatMap_singleton]
      exact unicode_ascii (escape_ascii b hlt)
    · have same : ∀ s : Str, (∀ c ∈ s, 0x80 ≤ c.toNat) → s.flatMap escapeByte = s := by
        intro s hs
        induction s with
        | nil => rfl
        | cons b s ih =>
          rw [List.flatMap_cons, escape_high b (hs b List.mem_cons_self), ih fun c hc => hs c (List.mem_cons_of_mem _ hc)]
          rfl
      rw [same _ hh]
      refine ⟨String.singleton c, ?_⟩
      rw [unicodeBytes_eq, utf8Str]
      simp

theorem unicode_quote {s : Str} (h : Unicode s) : Unicode (quoteStr s) :=
  (unicode_one 0x22 (by decide)).append ((unicode_escape s h).append (unicode_one 0x22 (by decide)))

theorem unicode_name (k : String) : Unicode (quoteStr (utf8Str k)) := unicode_quote ⟨k, (unicodeBytes_eq k).symm⟩

theorem Unicode.cons {b : Byte} {s : Str} (hs : Unicode s) (h : b.toNat < 0x80) : Unicode (b :: s) :=
  (unicode_one b h).append hs

mutual
theorem dump_unicode : ∀ (_ : NumberTexts F) (j : J), j.utf8 = true → Unicode (j.dump F)
  | hF, .null, _ => by rw [J.dump]; exact unicode_ascii (by decide)
  | hF, .bool b, _ => by rw [J.dump]; cases b <;> exact unicode_ascii (by decide)
  | hF, .int i, _ => by
    rw [J.dump]
    exact unicode_ascii fun c hc => number_ascii ((number_bytes (numberValue_intStr i)).1 c hc)
  | hF, .float bits, _ => by
    rw [J.dump]
    split
    · exact unicode_ascii fun c hc => number_ascii ((number_bytes (hF bits)).1 c hc)
    · exact unicode_ascii (by decide)
  | hF, .str s, h => by
    rw [J.utf8] at h
    rw [J.dump]
    exact unicode_quote ((validUtf8_iff s).mp h)
  | hF, .arr l, h => by
    rw [J.utf8] at h
    rw [J.dump]
    exact ((dumpList_unicode hF l h).append (unicode_one _ (by decide))).cons (by decide)
  | hF, .obj l, h => by
    rw [J.utf8] at h
    rw [J.dump]
    exact ((dumpMembers_unicode hF l h).append (unicode_one _ (by decide))).cons (by decide)
theorem dumpList_unicode : ∀ (_ : NumberTexts F) (l : List J), J.utf8List l = true → Unicode (J.dumpList F l)
  | _, [], _ => by rw [J.dumpList]; exact ⟨"", rfl⟩
  | hF, j :: l, h => by
    rw [J.utf8List, Bool.and_eq_true] at h
    rw [J.dumpList]
    exact (dump_unicode hF j h.1).append (dumpMore_unicode hF l h.2)
theorem dumpMore_unicode : ∀ (_ : NumberTexts F) (l : List J), J.utf8List l = true → Unicode (J.dumpMore F l)
  | _, [], _ => by rw [J.dumpMore]; exact ⟨"", rfl⟩
  | hF, j :: l, h => by
    rw [J.utf8List, Bool.and_eq_true] at h
    rw [J.dumpMore]
    exact ((dump_unicode hF j h.1).append (dumpMore_unicode hF l h.2)).cons (by decide)
theorem dumpMembers_unicode : ∀ (_ : NumberTexts F) (l : List (String × J)), J.utf8Members l = true →
    Unicode (J.dumpMembers F l)
  | _, [], _ => by rw [J.dumpMembers]; exact ⟨"", rfl⟩
  | hF, (k, j) :: l, h => by
    rw [J.utf8Members, Bool.and_eq_true] at h
    rw [J.dumpMembers]
    exact (unicode_name k).append (((dump_unicode hF j h.1).append (dumpMoreMembers_unicode hF l h.2)).cons (by decide))
theorem dumpMoreMembers_unicode : ∀ (_ : NumberTexts F) (l : List (String × J)), J.utf8Members l = true →
    Unicode (J.dumpMoreMembers F l)
  | _, [], _ => by rw [J.dumpMoreMembers]; exact ⟨"", rfl⟩
  | hF, (k, j) :: l, h => by
    rw [J.utf8Members, Bool.and_eq_true] at h
    rw [J.dumpMoreMembers]
    exact ((unicode_name k).append
      (((dump_unicode hF j h.1).append (dumpMoreMembers_unicode hF l h.2)).cons (by decide))).cons (by decide)
end

end Redsea
