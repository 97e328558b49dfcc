import Verif.Lemmas.Input

/-
C40, C41, C42: TEF6686 lines, ASCII bits and PCM input.
-/

namespace Redsea

/-! ### TEF6686 -/

theorem hexPrefix_digits (s : Str) (acc : Nat) (h : ∀ c ∈ s, IsHexDigit c) :
    hexPrefix s (some acc) = some (acc * 16 ^ s.length + hexNumber s) := by
  induction s generalizing acc with
  | nil => simp [hexPrefix, hexNumber]
  | cons c s ih =>
    have hc : hexDigitValue c = some (hexDigitVal c) := by
      rw [hexDigitValue_spec, if_pos (h c (List.mem_cons_self ..))]
    rw [hexPrefix, hc]
    simp only [Option.getD_some]
    rw [ih _ (fun x hx => h x (List.mem_cons_of_mem _ hx))]
    simp only [hexNumber, List.length_cons, Nat.pow_succ, Nat.add_mul]
    rw [Nat.mul_assoc, Nat.mul_comm 16, Nat.add_assoc]

theorem hexDigit_char : ∀ c : Byte, IsHexDigit c →
    isSpaceC c = false ∧ c ≠ 0x2D ∧ c ≠ 0x2B ∧ c ≠ 0x78 ∧ c ≠ 0x58 ∧ c ≠ 0x0A := by
  apply byteForall
  decide +kernel

theorem hexNumber_lt (s : Str) : hexNumber s < 16 ^ s.length := by
  induction s with
  | nil => simp [hexNumber]
  | cons c s ih =>
    simp only [hexNumber, List.length_cons, Nat.pow_succ]
    have := hexDigitVal_lt c
    have h2 : hexDigitVal c * 16 ^ s.length ≤ 15 * 16 ^ s.length :=
      Nat.mul_le_mul_right _ (by omega)
    omega

/-- `std::stol` on up to 15 hexadecimal digits gives their value. -/
theorem stol16_digits (s : Str) (h : ∀ c ∈ s, IsHexDigit c) (h0 : s ≠ []) (h15 : s.length ≤ 15) :
    stol16 s = some (hexNumber s : Int) := by
  obtain ⟨c, t, rfl⟩ : ∃ c t, s = c :: t := by
    cases s with
    | nil => exact absurd rfl h0
    | cons c t => exact ⟨c, t, rfl⟩
  have hc := hexDigit_char c (h c (List.mem_cons_self ..))
  have hv : hexPrefix (c :: t) none = some (hexNumber (c :: t)) := by
    have hcv : hexDigitValue c = some (hexDigitVal c) := by
      rw [hexDigitValue_spec, if_pos (h c (List.mem_cons_self ..))]
    rw [hexPrefix, hcv]
    simp only [Option.getD_none]
    rw [hexPrefix_digits t _ (fun x hx => h x (List.mem_cons_of_mem _ hx))]
    simp [hexNumber]
  have hdig : skip0x (c :: t) = c :: t := by
    unfold skip0x
    split
    · rename_i z x d cs heq
      have hx : x ∈ c :: t := by rw [heq]; simp
      have := hexDigit_char x (h x hx)
      rw [if_neg, heq]
      rintro ⟨_, hh | hh, _⟩
      · exact this.2.2.2.1 hh
      · exact this.2.2.2.2.1 hh
    · rfl
  have hb := hexNumber_lt (c :: t)
  have hpow : 16 ^ (c :: t).length ≤ 16 ^ 15 := Nat.pow_le_pow_right (by omega) h15
  unfold stol16
  rw [List.dropWhile_cons_of_neg (by simp [hc.1])]
  simp only [hc.2.1, hc.2.2.1, if_false]
  rw [hdig, hv]
  have h63 : (16 : Nat) ^ 15 < 2 ^ 63 := by decide
  simp only [Bool.false_eq_true, if_false]
  rw [if_neg (by omega)]

/-- The fields of a well-formed TEF6686 line: `R`, three blocks of four hexadecimal digits, the
error byte, and possibly more characters. -/
structure TefLine where
  d2 : Str
  d3 : Str
  d4 : Str
  err : Str
  extra : Str
  hd2 : d2.length = 4 ∧ ∀ c ∈ d2, IsHexDigit c
  hd3 : d3.length = 4 ∧ ∀ c ∈ d3, IsHexDigit c
  hd4 : d4.length = 4 ∧ ∀ c ∈ d4, IsHexDigit c
  herr : err.length = 2 ∧ ∀ c ∈ err, IsHexDigit c
  hextra : (0x0A : Byte) ∉ extra

/-- The text of the line. -/
def TefLine.text (l : TefLine) : Str :=
  0x52 :: (l.d2 ++ (l.d3 ++ (l.d4 ++ (l.err ++ l.extra))))

/-- The digits of a block. -/
def TefLine.digits (l : TefLine) : BlockNum → Str
  | .b1 => [] | .b2 => l.d2 | .b3 => l.d3 | .b4 => l.d4

theorem noNewline_digits {s : Str} (h : ∀ c ∈ s, IsHexDigit c) : (0x0A : Byte) ∉ s :=
  fun hm => (hexDigit_char _ (h _ hm)).2.2.2.2.2 rfl

theorem TefLine.noNewline (l : TefLine) : (0x0A : Byte) ∉ l.text := by
  unfold TefLine.text
  simp only [List.mem_cons, List.mem_append, not_or]
  exact ⟨by decide, noNewline_digits l.hd2.2, noNewline_digits l.hd3.2, noNewline_digits l.hd4.2,
    noNewline_digits l.herr.2, l.hextra⟩

theorem TefLine.length (l : TefLine) : 15 ≤ l.text.length := by
  unfold TefLine.text
  simp only [List.length_cons, List.length_append, l.hd2.1, l.hd3.1, l.hd4.1, l.herr.1]
  omega

theorem readTEFLoop_R (g : Group) (l : TefLine) (rest : Str) :
    readTEFLoop g (l.text ++ 0x0A :: rest) = (tefRLine g l.text, rest, false) := by
  rw [readTEFLoop]
  split
  rename_i line r e heq
  rw [getLine_line _ _ l.noNewline] at heq
  simp only [Prod.mk.injEq] at heq
  obtain ⟨rfl, rfl, rfl⟩ := heq
  rw [if_pos ⟨by rfl, l.length⟩]

theorem tefFields (l : TefLine) :
    (l.text.drop 1).take 4 = l.d2 ∧ (l.text.drop 5).take 4 = l.d3 ∧
    (l.text.drop 9).take 4 = l.d4 ∧ (l.text.drop 13).take 2 = l.err := by
  have key : ∀ (a b : Str) (k : Nat), a.length = 4 → (a ++ b).drop (4 + k) = b.drop k := by
    intro a b k ha
    rw [← ha, List.drop_length_add_append]
  have key0 : ∀ (a b : Str) (m : Nat), a.length = m → (a ++ b).take m = a := by
    intro a b m ha
    rw [← ha, List.take_left']
    rfl
  unfold TefLine.text
  refine ⟨?_, ?_, ?_, ?_⟩
  · rw [List.drop_succ_cons, List.drop_zero]
    exact key0 _ _ _ l.hd2.1
  · rw [List.drop_succ_cons, show 4 = 4 + 0 from rfl, key _ _ _ l.hd2.1, List.drop_zero]
    exact key0 _ _ _ l.hd3.1
  · rw [List.drop_succ_cons, show 8 = 4 + (4 + 0) from rfl, key _ _ _ l.hd2.1, key _ _ _ l.hd3.1,
      List.drop_zero]
    exact key0 _ _ _ l.hd4.1
  · rw [List.drop_succ_cons, show 12 = 4 + (4 + (4 + 0)) from rfl, key _ _ _ l.hd2.1,
      key _ _ _ l.hd3.1, key _ _ _ l.hd4.1, List.drop_zero]
    exact key0 _ _ _ l.herr.1

/-- The flags computed from an error byte. -/
theorem tefFlags (e : Nat) (he : e < 256) :
    let err := BitVec.ofInt 32 (e : Int)
    ((err >>> 4) &&& 0xFF#32 == 0#32) =
        decide (tefErrorLevel e .b1 = 0 ∧ tefErrorLevel e .b2 = 0) ∧
    ((err >>> 2) &&& 0xFF#32 == 0#32) =
        decide (tefErrorLevel e .b1 = 0 ∧ tefErrorLevel e .b2 = 0 ∧ tefErrorLevel e .b3 = 0) ∧
    (err &&& 0xFF#32 == 0#32) =
        decide (tefErrorLevel e .b1 = 0 ∧ tefErrorLevel e .b2 = 0 ∧ tefErrorLevel e .b3 = 0 ∧
          tefErrorLevel e .b4 = 0) := by
  have : ∀ e : Fin 256,
    let err := BitVec.ofInt 32 (e.val : Int)
    ((err >>> 4) &&& 0xFF#32 == 0#32) =
        decide (tefErrorLevel e .b1 = 0 ∧ tefErrorLevel e .b2 = 0) ∧
    ((err >>> 2) &&& 0xFF#32 == 0#32) =
        decide (tefErrorLevel e .b1 = 0 ∧ tefErrorLevel e .b2 = 0 ∧ tefErrorLevel e .b3 = 0) ∧
    (err &&& 0xFF#32 == 0#32) =
        decide (tefErrorLevel e .b1 = 0 ∧ tefErrorLevel e .b2 = 0 ∧ tefErrorLevel e .b3 = 0 ∧
          tefErrorLevel e .b4 = 0) := by decide +kernel
  exact this ⟨e, he⟩

/-- The flags `readTEFGroup` gives the blocks: a block is marked as received when its own error
level and those of all blocks before it are zero. -/
def tefReceived (e : Nat) : BlockNum → Bool
  | .b1 => true
  | .b2 => decide (tefErrorLevel e .b1 = 0 ∧ tefErrorLevel e .b2 = 0)
  | .b3 => decide (tefErrorLevel e .b1 = 0 ∧ tefErrorLevel e .b2 = 0 ∧ tefErrorLevel e .b3 = 0)
  | .b4 => decide (tefErrorLevel e .b1 = 0 ∧ tefErrorLevel e .b2 = 0 ∧ tefErrorLevel e .b3 = 0 ∧
      tefErrorLevel e .b4 = 0)

theorem tefRLine_block (g : Group) (l : TefLine) (n : BlockNum) :
    (tefRLine g l.text).block n =
      if n = .b1 then g.block .b1
      else { data := BitVec.ofNat 16 (hexNumber (l.digits n))
             isReceived := tefReceived (hexNumber l.err) n } := by
  obtain ⟨f2, f3, f4, fe⟩ := tefFields l
  have nn : ∀ {s : Str} {k}, s.length = k + 1 → s ≠ [] := by
    intro s k h he
    subst he
    simp at h
  have e2 := stol16_digits l.d2 l.hd2.2 (nn l.hd2.1) (by rw [l.hd2.1]; omega)
  have e3 := stol16_digits l.d3 l.hd3.2 (nn l.hd3.1) (by rw [l.hd3.1]; omega)
  have e4 := stol16_digits l.d4 l.hd4.2 (nn l.hd4.1) (by rw [l.hd4.1]; omega)
  have ee := stol16_digits l.err l.herr.2 (nn l.herr.1) (by rw [l.herr.1]; omega)
  have hlt : hexNumber l.err < 256 := by
    have := hexNumber_lt l.err
    rw [l.herr.1] at this
    exact this
  obtain ⟨r2, r3, r4⟩ := tefFlags _ hlt
  have hof : ∀ k : Nat, BitVec.ofInt 16 (k : Int) = BitVec.ofNat 16 k := fun k => by
    simp
  unfold tefRLine
  rw [f2, f3, f4, fe, e2, e3, e4, ee]
  simp only [r2, r3, r4, hof]
  rw [block_setBlock, block_setBlock, block_setBlock]
  cases n <;> rfl

/-- **C40 (partial).** Reading a well-formed `R` line: each of the blocks 2-4 holds its digits,
and a block marked as received has error level zero. The converse is missing because it is false
(`C40_tef_flags_violated`); the flags set are exactly `tefReceived`, which is the converse for
lines in which the blocks before it are error-free as well. -/
theorem C40_tef_flags_partial (l : TefLine) (rest : Str) (n : BlockNum) (hn : n ≠ .b1) :
    let g := (readTEFGroup (l.text ++ 0x0A :: rest)).1
    (g.get n).toNat = hexNumber (l.digits n) ∧
    (g.has n = true → tefErrorLevel (hexNumber l.err) n = 0) ∧
    ((∀ m, blockIndex m ≤ blockIndex n → tefErrorLevel (hexNumber l.err) m = 0) →
      g.has n = true) ∧
    (readTEFGroup (l.text ++ 0x0A :: rest)).2 = (rest, false) := by
  intro g
  have hg : g = tefRLine (Group.disableOffsets {}) l.text := by
    show (readTEFGroup _).1 = _
    unfold readTEFGroup
    rw [readTEFLoop_R]
  have hb := tefRLine_block (Group.disableOffsets {}) l n
  rw [if_neg hn, ← hg] at hb
  have hlt : hexNumber (l.digits n) < 2 ^ 16 := by
    have := hexNumber_lt (l.digits n)
    have h4 : (l.digits n).length = 4 := by
      cases n
      · exact absurd rfl hn
      · exact l.hd2.1
      · exact l.hd3.1
      · exact l.hd4.1
    rw [h4] at this
    exact this
  unfold Group.get Group.has
  rw [hb]
  refine ⟨?_, ?_, ?_, ?_⟩
  · show (BitVec.ofNat 16 _).toNat = _
    rw [BitVec.toNat_ofNat, Nat.mod_eq_of_lt hlt]
  · intro h
    cases n
    · exact absurd rfl hn
    · exact (of_decide_eq_true h).2
    · exact (of_decide_eq_true h).2.2
    · exact (of_decide_eq_true h).2.2.2
  · intro h
    have h1 := h .b1 (by simp [blockIndex])
    cases n
    · exact absurd rfl hn
    · exact decide_eq_true ⟨h1, h .b2 (by decide)⟩
    · exact decide_eq_true ⟨h1, h .b2 (by decide), h .b3 (by decide)⟩
    · exact decide_eq_true ⟨h1, h .b2 (by decide), h .b3 (by decide), h .b4 (by decide)⟩
  · unfold readTEFGroup
    rw [readTEFLoop_R]

/-- A preceding `P` line supplies the PI code of the group. -/
theorem C40_tef_pi (pi : Str) (hpi : pi.length = 4 ∧ ∀ c ∈ pi, IsHexDigit c) (l : TefLine)
    (rest : Str) :
    let g := (readTEFGroup (0x50 :: pi ++ 0x0A :: (l.text ++ 0x0A :: rest))).1
    g.has .b1 = true ∧ (g.get .b1).toNat = hexNumber pi := by
  intro g
  have hp : stol16 pi = some (hexNumber pi : Int) :=
    stol16_digits pi hpi.2 (by intro h; rw [h] at hpi; simp at hpi) (by rw [hpi.1]; omega)
  have hline : (0x0A : Byte) ∉ (0x50 :: pi : Str) := by
    simp only [List.mem_cons, not_or]
    exact ⟨by decide, noNewline_digits hpi.2⟩
  have hg : g = tefRLine (tefPLine (Group.disableOffsets {}) (0x50 :: pi)) l.text := by
    show (readTEFLoop _ _).1 = _
    rw [readTEFLoop]
    split
    rename_i line r e heq
    rw [getLine_line _ _ hline] at heq
    simp only [Prod.mk.injEq] at heq
    obtain ⟨rfl, rfl, rfl⟩ := heq
    have hR : ¬ (List.take 1 (0x50 :: pi : Str) = ascii "R" ∧ (0x50 :: pi : Str).length ≥ 15) := by
      rintro ⟨h, _⟩
      have : ([0x50] : Str) = ascii "R" := h
      exact absurd this (by decide)
    have hP : List.take 1 (0x50 :: pi : Str) = ascii "P" := by
      show ([0x50] : Str) = ascii "P"
      decide
    rw [if_neg hR]
    simp only [hP, if_true]
    rw [dif_neg (by decide)]
    rw [readTEFLoop_R]
  have hb := tefRLine_block (tefPLine (Group.disableOffsets {}) (0x50 :: pi)) l .b1
  rw [if_pos rfl, ← hg] at hb
  have h1 : (tefPLine (Group.disableOffsets {}) (0x50 :: pi)).block .b1 =
      { data := BitVec.ofNat 16 (hexNumber pi), isReceived := true } := by
    unfold tefPLine
    rw [show (0x50 :: pi : Str).drop 1 = pi from rfl, hp]
    simp only []
    rw [block_setBlock, if_pos rfl]
    simp
  rw [h1] at hb
  unfold Group.has Group.get
  rw [hb]
  refine ⟨rfl, ?_⟩
  show (BitVec.ofNat 16 _).toNat = _
  have := hexNumber_lt pi
  rw [hpi.1] at this
  rw [BitVec.toNat_ofNat, Nat.mod_eq_of_lt this]

/-- A line with an error in block 2 only. -/
def tefBadBlock2 : TefLine where
  d2 := ascii "0549"
  d3 := ascii "1234"
  d4 := ascii "5678"
  err := ascii "10"
  extra := []
  hd2 := by decide
  hd3 := by decide
  hd4 := by decide
  herr := by decide
  hextra := by decide

/-- **C40 is violated**: with an error in block 2 only (error byte 10 hexadecimal), blocks 3 and 4
are dropped although their own error fields are zero; and the contents of the damaged block 2 are
used: the group type is taken from it. -/
theorem C40_tef_flags_violated :
    ∃ (l : TefLine) (n : BlockNum),
      n ≠ .b1 ∧ tefErrorLevel (hexNumber l.err) n = 0 ∧
      (readTEFGroup (l.text ++ ascii "\n")).1.has n = false ∧
      tefErrorLevel (hexNumber l.err) .b2 ≠ 0 ∧
      (readTEFGroup (l.text ++ ascii "\n")).1.has .b2 = false ∧
      (readTEFGroup (l.text ++ ascii "\n")).1.hasType = true := by
  have h : readTEFGroup (tefBadBlock2.text ++ ascii "\n") =
      (tefRLine (Group.disableOffsets {}) tefBadBlock2.text, [], false) := by
    unfold readTEFGroup
    rw [show ascii "\n" = 0x0A :: ([] : Str) by decide, readTEFLoop_R]
  refine ⟨tefBadBlock2, .b3, by decide, by decide +kernel, ?_, by decide +kernel, ?_, ?_⟩
  · rw [h]; decide +kernel
  · rw [h]; decide +kernel
  · rw [h]; decide +kernel

/-! ### ASCII bits -/

theorem readBit_spec (s : Str) :
    (∃ b rest, readBit s = (b, rest, false) ∧ bitsOfText s = b :: bitsOfText rest) ∨
    (readBit s = (false, [], true) ∧ bitsOfText s = []) := by
  induction s with
  | nil => right; exact ⟨rfl, rfl⟩
  | cons c s ih =>
    by_cases h0 : c = 0x30
    · left; exact ⟨false, s, by rw [readBit, if_pos h0], by subst h0; rfl⟩
    · by_cases h1 : c = 0x31
      · left; exact ⟨true, s, by rw [readBit, if_neg h0, if_pos h1], by subst h1; rfl⟩
      · have hs : bitsOfText (c :: s) = bitsOfText s := by
          unfold bitsOfText
          rw [List.filterMap_cons_none]
          exact (if_neg h0).trans (if_neg h1)
        rw [readBit, if_neg h0, if_neg h1, hs]
        exact ih

/-- **C41 (partial).** The bits fed to the decoder are the `0` and `1` characters of the input,
in order, followed by one extra zero bit. The extra bit is what keeps the full claim from
holding. -/
theorem C41_ascii_bits_partial (input : Str) : asciiBitsFed input = bitsOfText input ++ [false] := by
  rw [asciiBitsFed]
  split
  rename_i b r e heq
  rcases readBit_spec input with ⟨b', r', hr, hb⟩ | ⟨hr, hb⟩
  · have hlen := readBit_rest_length input (by rw [hr])
    have hlen' : r'.length < input.length := by rw [hr] at hlen; exact hlen
    rw [hr] at heq
    simp only [Prod.mk.injEq] at heq
    obtain ⟨rfl, rfl, rfl⟩ := heq
    rw [dif_neg (by decide), hb]
    show b' :: asciiBitsFed r' = _
    rw [C41_ascii_bits_partial r']
    rfl
  · rw [hr] at heq
    simp only [Prod.mk.injEq] at heq
    obtain ⟨rfl, rfl, rfl⟩ := heq
    rw [dif_pos rfl, hb]
    rfl
termination_by input.length
decreasing_by assumption

/-- **C41 is violated** for every input: one bit too many reaches the decoder. -/
theorem C41_ascii_bits_violated (input : Str) : asciiBitsFed input ≠ bitsOfText input := by
  rw [C41_ascii_bits_partial]
  intro h
  have := congrArg List.length h
  simp at this

/-- Example: line breaks and other characters between the bits. -/
example : bitsOfText (ascii "01 x\n1") = [false, true, true] := by decide

/-! ### PCM -/

theorem filterMap_congr' {α β : Type} {f g : α → Option β} {l : List α}
    (h : ∀ x ∈ l, f x = g x) : l.filterMap f = l.filterMap g := by
  induction l with
  | nil => rfl
  | cons x l ih =>
    have hx := h x (List.mem_cons_self ..)
    have hl := ih (fun y hy => h y (List.mem_cons_of_mem _ hy))
    rw [List.filterMap_cons, List.filterMap_cons, hx, hl]

theorem channelSamples_append {α : Type} (n c : Nat) (a b : List α) (k : Nat) (hn : 0 < n)
    (hc : c < n) (ha : a.length = k * n) :
    channelSamples n c (a ++ b) = channelSamples n c a ++ channelSamples n c b := by
  unfold channelSamples
  have hl : (a ++ b).length / n = k + b.length / n := by
    rw [List.length_append, ha, Nat.add_comm, Nat.add_mul_div_right _ _ hn, Nat.add_comm]
  have hk : a.length / n = k := by rw [ha, Nat.mul_div_cancel _ hn]
  rw [hl, hk, List.range_add, List.filterMap_append]
  congr 1
  · apply filterMap_congr'
    intro i hi
    rw [List.mem_range] at hi
    apply List.getElem?_append_left
    have : (i + 1) * n ≤ k * n := Nat.mul_le_mul_right n hi
    rw [Nat.add_mul, Nat.one_mul] at this
    omega
  · rw [List.filterMap_map]
    apply filterMap_congr'
    intro i _
    show (a ++ b)[(k + i) * n + c]? = _
    rw [List.getElem?_append_right (by rw [Nat.add_mul]; omega)]
    congr 1
    rw [ha, Nat.add_mul]
    omega

theorem channelSamples_one {α : Type} (l : List α) : channelSamples 1 0 l = l := by
  unfold channelSamples
  rw [Nat.div_one]
  simp only [Nat.mul_one, Nat.add_zero]
  induction l with
  | nil => rfl
  | cons x l ih =>
    rw [List.length_cons, List.range_succ_eq_map, List.filterMap_cons, List.filterMap_map]
    show x :: _ = _
    congr 1

/-- Chunks are whole frames, and fit the buffer. -/
theorem mpxChunkSize_spec (n : Nat) (h1 : 1 ≤ n) (h32 : n ≤ 32) :
    0 < mpxChunkSize n ∧ mpxChunkSize n ≤ kBufferSize ∧ mpxChunkSize n = 8192 / n * n := by
  have : mpxChunkSize n = 8192 / n * n := rfl
  have hle : 8192 / n * n ≤ 8192 := Nat.div_mul_le_self _ _
  have hpos : 0 < 8192 / n := Nat.div_pos (by omega) (by omega)
  refine ⟨?_, ?_, this⟩
  · rw [this]; exact Nat.mul_pos hpos (by omega)
  · rw [this]
    have : kBufferSize = 10945 := by decide
    omega

theorem mapM_getElem? {α : Type} (l : List α) (n c : Nat) (js : List Nat)
    (h : ∀ i ∈ js, i * n + c < l.length) :
    js.mapM (fun i => l[i * n + c]?) = some (js.filterMap fun i => l[i * n + c]?) := by
  induction js with
  | nil => rfl
  | cons j js ih =>
    have hj := h j (List.mem_cons_self ..)
    rw [List.mapM_cons, ih (fun i hi => h i (List.mem_cons_of_mem _ hi)),
      List.getElem?_eq_getElem hj, List.filterMap_cons_some (b := l[j * n + c])]
    · rfl
    · exact List.getElem?_eq_getElem hj

theorem readChunk_full {α : Type} (r : MPXReader α) (c : Nat)
    (hc : c < r.numChannels) (he : r.isEof = false) (hb : r.buffer.length ≤ kBufferSize) :
    r.readChunk c = some (channelSamples r.numChannels c r.buffer) := by
  unfold MPXReader.readChunk
  rw [if_neg (by omega), he]
  simp only [Bool.false_eq_true, if_false]
  by_cases h1 : r.numChannels = 1
  · rw [if_pos h1, h1]
    have : c = 0 := by omega
    rw [this, channelSamples_one]
  · have hd : r.buffer.length / r.numChannels ≤ r.buffer.length := Nat.div_le_self _ _
    rw [if_neg h1, if_neg (by omega)]
    rw [mapM_getElem?]
    · rfl
    · intro i hi
      rw [List.mem_range] at hi
      have h2 : (i + 1) * r.numChannels ≤ r.buffer.length / r.numChannels * r.numChannels :=
        Nat.mul_le_mul_right _ hi
      have h3 : r.buffer.length / r.numChannels * r.numChannels ≤ r.buffer.length :=
        Nat.div_mul_le_self _ _
      rw [Nat.add_mul, Nat.one_mul] at h2
      omega

/-- What a channel receives: the de-interleaved samples of all complete chunks, then the raw,
still interleaved contents of the last incomplete chunk. -/
theorem mpxSamples_spec {α : Type} (n c : Nat) (hn : 1 ≤ n) (h32 : n ≤ 32) (hc : c < n)
    (fuel : Nat) (r : MPXReader α) (hfuel : r.file.length + 1 < fuel)
    (hr : r.numChannels = n ∧ r.chunkSize = mpxChunkSize n ∧ r.isEof = false) :
    ∃ k, (k * mpxChunkSize n ≤ r.file.length ∧ r.file.length < (k + 1) * mpxChunkSize n) ∧
      mpxSamples c fuel r = some (channelSamples n c (r.file.take (k * mpxChunkSize n)) ++
        r.file.drop (k * mpxChunkSize n)) := by
  obtain ⟨hpos, hbuf, hmul⟩ := mpxChunkSize_spec n hn h32
  induction fuel generalizing r with
  | zero => omega
  | succ fuel ih =>
    obtain ⟨hnc, hcs, heof⟩ := hr
    rw [mpxSamples, heof]
    simp only [Bool.false_eq_true, if_false]
    by_cases hlt : r.file.length < mpxChunkSize n
    · refine ⟨0, by omega, ?_⟩
      have hlen : (r.file.take (mpxChunkSize n)).length < mpxChunkSize n := by
        rw [List.length_take]; omega
      have hfb : r.fillBuffer =
          { r with buffer := r.file, file := [], isEof := true } := by
        unfold MPXReader.fillBuffer
        rw [hcs]
        simp only [hlen, if_true]
        rw [List.take_of_length_le (by omega), List.drop_of_length_le (by omega)]
      rw [hfb]
      have hrc : MPXReader.readChunk { r with buffer := r.file, file := [], isEof := true } c
          = some r.file := by
        unfold MPXReader.readChunk
        rw [if_neg (by show ¬ c ≥ r.numChannels; omega)]
        rfl
      rw [hrc]
      cases fuel with
      | zero => omega
      | succ fuel =>
        have : mpxSamples c (fuel + 1)
            { r with buffer := r.file, file := [], isEof := true } = some [] := rfl
        rw [this]
        simp [channelSamples]
    · have hlen : (r.file.take (mpxChunkSize n)).length = mpxChunkSize n := by
        rw [List.length_take]; omega
      have hfb : r.fillBuffer =
          { r with buffer := r.file.take (mpxChunkSize n), file := r.file.drop (mpxChunkSize n) } := by
        unfold MPXReader.fillBuffer
        rw [hcs]
        simp only [hlen, Nat.lt_irrefl, if_false]
      rw [hfb]
      obtain ⟨k, ⟨hk1, hk2⟩, hrun⟩ := ih
        { r with buffer := r.file.take (mpxChunkSize n), file := r.file.drop (mpxChunkSize n) }
        (by show (r.file.drop _).length + 1 < fuel; rw [List.length_drop]; omega)
        ⟨hnc, hcs, heof⟩
      have hrc := readChunk_full
        { r with buffer := r.file.take (mpxChunkSize n), file := r.file.drop (mpxChunkSize n) } c
        (by show c < r.numChannels; omega) heof (by show (r.file.take _).length ≤ _; omega)
      rw [hrc, hrun]
      simp only [List.length_drop] at hk1 hk2
      rw [Nat.add_mul, Nat.one_mul] at hk2
      refine ⟨k + 1, ?_, ?_⟩
      · rw [Nat.add_mul (k + 1), Nat.add_mul k, Nat.one_mul]
        omega
      · show some (channelSamples r.numChannels c (r.file.take (mpxChunkSize n)) ++ _) = _
        rw [hnc, Nat.add_mul, Nat.one_mul, Nat.add_comm (k * _), ← List.append_assoc,
          ← channelSamples_append n c _ _ (8192 / n) (by omega) hc (by rw [hlen, hmul]),
          List.take_add, List.drop_drop]

/-- **C42 (partial).** Channel `c` of `n` receives the samples `c`, `c + n`, `c + 2n`, … of all
complete chunks (8192 samples, rounded down to whole frames), each once and in order, with no
access outside the buffers. After them it receives the raw samples of the last incomplete chunk
(at most one chunk); this is what keeps the full claim from holding for several channels. -/
theorem C42_deinterleave_partial {α : Type} (n c : Nat) (hn : 1 ≤ n) (h32 : n ≤ 32) (hc : c < n)
    (file : List α) :
    ∃ full last, file = full ++ last ∧ last.length < 8192 ∧
      (∃ k, full.length = k * (8192 / n * n)) ∧
      mpxSamples c (file.length + 2) (MPXReader.init n file) =
        some (channelSamples n c full ++ last) := by
  obtain ⟨hpos, hbuf, hmul⟩ := mpxChunkSize_spec n hn h32
  obtain ⟨k, ⟨hk1, hk2⟩, hrun⟩ := mpxSamples_spec n c hn h32 hc (file.length + 2)
    (MPXReader.init n file) (by show file.length + 1 < _; omega)
    ⟨rfl, rfl, by
      have : kBufferSize = 10945 := by decide
      show decide (n ≥ kBufferSize) = false
      rw [this]
      exact decide_eq_false (by omega)⟩
  have hle : mpxChunkSize n ≤ 8192 := by rw [hmul]; exact Nat.div_mul_le_self _ _
  rw [Nat.add_mul, Nat.one_mul] at hk2
  change k * mpxChunkSize n ≤ file.length at hk1
  change file.length < k * mpxChunkSize n + mpxChunkSize n at hk2
  refine ⟨_, _, (List.take_append_drop (k * mpxChunkSize n) file).symm, ?_, ⟨k, ?_⟩, hrun⟩
  · rw [List.length_drop]; omega
  · rw [List.length_take, ← hmul]; omega

/-- **C42** for one channel: the channel receives exactly the input. -/
theorem C42_single_channel {α : Type} (file : List α) :
    mpxSamples 0 (file.length + 2) (MPXReader.init 1 file) = some (channelSamples 1 0 file) ∧
      channelSamples 1 0 file = file := by
  obtain ⟨full, last, hfile, _, _, hrun⟩ :=
    C42_deinterleave_partial 1 0 (by omega) (by omega) (by omega) file
  rw [hrun]
  rw [channelSamples_one, channelSamples_one]
  exact ⟨by rw [hfile], rfl⟩

/-- **C42** for recordings that consist of complete chunks: each channel receives exactly its own
samples. -/
theorem C42_whole_chunks {α : Type} (n c : Nat) (hn : 1 ≤ n) (h32 : n ≤ 32) (hc : c < n)
    (file : List α) (k : Nat) (hk : file.length = k * (8192 / n * n)) :
    mpxSamples c (file.length + 2) (MPXReader.init n file) = some (channelSamples n c file) := by
  obtain ⟨hpos, hbuf, hmul⟩ := mpxChunkSize_spec n hn h32
  obtain ⟨m, ⟨hm1, hm2⟩, hrun⟩ := mpxSamples_spec n c hn h32 hc (file.length + 2)
    (MPXReader.init n file) (by show file.length + 1 < _; omega)
    ⟨rfl, rfl, by
      have : kBufferSize = 10945 := by decide
      show decide (n ≥ kBufferSize) = false
      rw [this]
      exact decide_eq_false (by omega)⟩
  rw [hrun]
  change m * mpxChunkSize n ≤ file.length at hm1
  change file.length < (m + 1) * mpxChunkSize n at hm2
  rw [hk, ← hmul] at hm1 hm2
  have h1 : m ≤ k := Nat.le_of_mul_le_mul_right hm1 hpos
  have h2 : k < m + 1 := Nat.lt_of_mul_lt_mul_right hm2
  have : m = k := by omega
  subst this
  show some (channelSamples n c (file.take _) ++ file.drop _) = _
  rw [List.take_of_length_le (by rw [hk, hmul]; exact Nat.le_refl _),
    List.drop_of_length_le (by rw [hk, hmul]; exact Nat.le_refl _), List.append_nil]

/-- **C42 is violated**: of a two-channel recording of two frames (four samples), the first
channel receives all four samples, interleaved. -/
theorem C42_deinterleave_violated :
    ∃ file : List Nat,
      mpxSamples 0 (file.length + 2) (MPXReader.init 2 file) = some [10, 20, 11, 21] ∧
      channelSamples 2 0 file = [10, 11] :=
  ⟨[10, 20, 11, 21], by decide +kernel, by decide +kernel⟩

/-- Example for `C42_whole_chunks`: 3 channels, chunks of 8190 samples. -/
example : (List.replicate 16380 0).length = 2 * (8192 / 3 * 3) := by
  rw [List.length_replicate]

end Redsea
