import Verif.Model.Input
import Verif.Spec.Input
import Verif.Lemmas.StreamInv

/-
Lemmas about the hex reader and writer.
-/

namespace Redsea

theorem byteForall (p : Byte → Prop) [DecidablePred p]
    (h : ∀ n : Fin 256, p (BitVec.ofNat 8 n.val)) : ∀ c : Byte, p c := by
  intro c
  have := h ⟨c.toNat, c.isLt⟩
  simpa using this

/-! ### Digits -/

theorem hexDigitValue_spec : ∀ c : Byte,
    hexDigitValue c = if IsHexDigit c then some (hexDigitVal c) else none := by
  apply byteForall
  decide +kernel

theorem hexDigitVal_lt : ∀ c : Byte, hexDigitVal c < 16 := by
  apply byteForall
  decide +kernel

theorem hexDigit_facts (v : Nat) (h : v < 16) :
    IsHexDigit (hexDigit v) ∧ hexDigitVal (hexDigit v) = v ∧ hexDigit v ≠ 0x20 ∧
      hexDigit v ≠ 0x0A ∧ hexDigit v ≠ 0x23 := by
  have : ∀ v : Fin 16, IsHexDigit (hexDigit v.val) ∧ hexDigitVal (hexDigit v.val) = v.val ∧
      hexDigit v.val ≠ 0x20 ∧ hexDigit v.val ≠ 0x0A ∧ hexDigit v.val ≠ 0x23 := by decide +kernel
  exact this ⟨v, h⟩

theorem hexPadded_length (n v : Nat) : (hexPadded n v).length = n := by
  induction n generalizing v with
  | zero => rfl
  | succ n ih => simp [hexPadded, ih]

theorem hexPadded_mem {n v : Nat} {c : Byte} (h : c ∈ hexPadded n v) :
    ∃ d, d < 16 ∧ c = hexDigit d := by
  induction n generalizing v with
  | zero => simp [hexPadded] at h
  | succ n ih =>
    simp only [hexPadded, List.mem_append, List.mem_singleton] at h
    rcases h with h | h
    · exact ih h
    · exact ⟨v % 16, Nat.mod_lt _ (by omega), h⟩

theorem hexNumber_append (a b : Str) : hexNumber (a ++ b) = hexNumber a * 16 ^ b.length + hexNumber b := by
  induction a with
  | nil => simp [hexNumber]
  | cons c a ih =>
    simp only [List.cons_append, hexNumber, ih, List.length_append, Nat.pow_add, Nat.add_mul,
      Nat.mul_assoc, Nat.add_assoc]

theorem hexNumber_padded (n v : Nat) (h : v < 16 ^ n) : hexNumber (hexPadded n v) = v := by
  induction n generalizing v with
  | zero =>
    have : v = 0 := by simpa using h
    subst this; rfl
  | succ n ih =>
    have h1 : v / 16 < 16 ^ n := by
      rw [Nat.pow_succ] at h
      exact Nat.div_lt_of_lt_mul (by omega)
    simp only [hexPadded]
    rw [hexNumber_append, ih _ h1]
    simp only [List.length_singleton, hexNumber, List.length_nil, Nat.pow_zero, Nat.pow_one,
      Nat.mul_one, Nat.add_zero]
    rw [(hexDigit_facts (v % 16) (Nat.mod_lt _ (by omega))).2.1]
    omega

/-! ### Reading the digits of a block -/

theorem nonBlank_append (a b : Str) : nonBlank (a ++ b) = nonBlank a ++ nonBlank b := by
  simp [nonBlank]

theorem nonBlank_blank (l : Str) : nonBlank (0x20 :: l) = nonBlank l := by
  simp [nonBlank]

theorem nonBlank_cons {c : Byte} (h : c ≠ 0x20) (l : Str) : nonBlank (c :: l) = c :: nonBlank l := by
  rw [nonBlank, List.filter_cons_of_pos (by simpa using h)]; rfl

theorem nonBlank_of_forall {l : Str} (h : ∀ c ∈ l, c ≠ 0x20) : nonBlank l = l := by
  unfold nonBlank
  rw [List.filter_eq_self]
  intro c hc
  simpa using h c hc

/-- What the digit loop does, in terms of the non-blank characters. -/
theorem readNibbles_spec (n : Nat) (line : Str) (data : Word) (valid : Bool) :
    ∃ d rest, readNibbles n line data valid =
        (d, valid && ((nonBlank line).take n).all (fun c => decide (IsHexDigit c)), rest) ∧
      nonBlank rest = (nonBlank line).drop n ∧
      ((∀ c ∈ (nonBlank line).take n, IsHexDigit c) →
        d = BitVec.ofNat 16 (data.toNat * 16 ^ ((nonBlank line).take n).length
              + hexNumber ((nonBlank line).take n))) := by
  induction line generalizing n data valid with
  | nil =>
    cases n with
    | zero => exact ⟨data, [], by simp [readNibbles], by simp [nonBlank], by simp [nonBlank, hexNumber]⟩
    | succ n => exact ⟨data, [], by simp [readNibbles, nonBlank], by simp [nonBlank], by simp [nonBlank, hexNumber]⟩
  | cons c line ih =>
    cases n with
    | zero => exact ⟨data, c :: line, by simp [readNibbles], by simp, by simp [hexNumber]⟩
    | succ n =>
      by_cases hc : c = 0x20
      · subst hc
        rw [nonBlank_blank]
        obtain ⟨d, rest, h1, h2, h3⟩ := ih (n + 1) data valid
        exact ⟨d, rest, by rw [readNibbles, if_pos rfl]; exact h1, h2, h3⟩
      · rw [nonBlank_cons hc]
        simp only [List.take_succ_cons, List.drop_succ_cons, List.all_cons]
        by_cases hx : IsHexDigit c
        · have hv : hexDigitValue c = some (hexDigitVal c) := by
            rw [hexDigitValue_spec, if_pos hx]
          obtain ⟨d, rest, h1, h2, h3⟩ :=
            ih n (BitVec.ofNat 16 (data.toNat * 16 + hexDigitVal c)) valid
          refine ⟨d, rest, ?_, h2, ?_⟩
          · rw [readNibbles, if_neg hc, hv]
            simp only [hx, decide_true, Bool.true_and]
            exact h1
          · intro hall
            rw [h3 (fun x hx' => hall x (List.mem_cons_of_mem _ hx'))]
            apply BitVec.eq_of_toNat_eq
            simp only [BitVec.toNat_ofNat, hexNumber, List.length_cons, Nat.pow_succ]
            rw [Nat.add_mod, Nat.mod_mul_mod, ← Nat.add_mod]
            congr 1
            rw [Nat.add_mul, Nat.mul_assoc, Nat.mul_comm 16, Nat.add_assoc]
        · have hv : hexDigitValue c = none := by
            rw [hexDigitValue_spec, if_neg hx]
          obtain ⟨d, rest, h1, h2, h3⟩ := ih n data false
          refine ⟨d, rest, ?_, h2, ?_⟩
          · rw [readNibbles, if_neg hc, hv]
            simp only [hx, decide_false, Bool.false_and, Bool.and_false]
            simpa using h1
          · intro hall
            exact absurd (hall c (List.mem_cons_self ..)) hx

/-- A block of a hex line. -/
theorem readHexBlock_spec (g : Group) (n : BlockNum) (line : Str) :
    ∃ g' rest, readHexBlock g n line = (g', rest) ∧
      nonBlank rest = (nonBlank line).drop 4 ∧
      g'.dataStream = g.dataStream ∧
      (∀ m, m ≠ n → g'.block m = g.block m) ∧
      g'.block n =
        (if ∀ c ∈ (nonBlank line).take 4, IsHexDigit c then
          { data := BitVec.ofNat 16 (hexNumber ((nonBlank line).take 4)), isReceived := true }
        else g.block n) := by
  obtain ⟨d, rest, h1, h2, h3⟩ := readNibbles_spec 4 line 0 true
  have hds : ∀ b, (g.setBlock n b).dataStream = g.dataStream := by
    intro b
    unfold Group.setBlock Group.putBlock Group.recogniseType
    cases n <;> simp only [] <;> (repeat' split) <;> rfl
  by_cases hv : ∀ c ∈ (nonBlank line).take 4, IsHexDigit c
  · have hall : ((nonBlank line).take 4).all (fun c => decide (IsHexDigit c)) = true := by
      simpa using hv
    refine ⟨g.setBlock n { data := d, isReceived := true }, rest, ?_, h2, hds _, ?_, ?_⟩
    · unfold readHexBlock; rw [h1]; simp only [hall]; rfl
    · intro m hm
      rw [block_setBlock, if_neg hm]
    · rw [block_setBlock, if_pos rfl, if_pos hv, h3 hv]
      simp
  · have hall : ((nonBlank line).take 4).all (fun c => decide (IsHexDigit c)) = false := by
      rw [← Bool.not_eq_true]
      simpa using hv
    refine ⟨g, rest, ?_, h2, rfl, fun _ _ => rfl, ?_⟩
    · unfold readHexBlock; rw [h1]; simp only [hall]; rfl
    · rw [if_neg hv]

theorem parseHexLine_spec (line : Str) :
    (parseHexLine (Group.disableOffsets {}) line).dataStream = lineStream line ∧
    ∀ n, (parseHexLine (Group.disableOffsets {}) line).block n =
      (if ∀ c ∈ blockChars (lineBody line) n, IsHexDigit c then
        { data := BitVec.ofNat 16 (hexNumber (blockChars (lineBody line) n)), isReceived := true }
      else {}) := by
  have hbody : (if (decide (line.length ≥ 20) &&
      (line.take 4 == ascii "#S1 " || line.take 4 == ascii "#S2 " || line.take 4 == ascii "#S3 "))
      = true then line.drop 4 else line) = lineBody line := by
    simp [lineBody, or_assoc]
  have hstream : (if (decide (line.length ≥ 20) &&
      (line.take 4 == ascii "#S1 " || line.take 4 == ascii "#S2 " || line.take 4 == ascii "#S3 "))
      = true then ((line.getD 2 0).toNat - 0x30) else 0) = lineStream line := by
    simp [lineStream, or_assoc]
  unfold parseHexLine
  simp only [hbody, hstream]
  generalize lineBody line = body
  generalize lineStream line = stream
  generalize hg0 : Group.setDataStream (Group.disableOffsets {}) stream = g0
  have hb0 : ∀ n, g0.block n = {} := by
    intro n; subst hg0; cases n <;> rfl
  have hs0 : g0.dataStream = stream := by subst hg0; rfl
  obtain ⟨g1, r1, e1, n1, s1, o1, b1⟩ := readHexBlock_spec g0 .b1 body
  obtain ⟨g2, r2, e2, n2, s2, o2, b2⟩ := readHexBlock_spec g1 .b2 r1
  obtain ⟨g3, r3, e3, n3, s3, o3, b3⟩ := readHexBlock_spec g2 .b3 r2
  obtain ⟨g4, r4, e4, n4, s4, o4, b4⟩ := readHexBlock_spec g3 .b4 r3
  simp only [e1, e2, e3, e4]
  refine ⟨by rw [s4, s3, s2, s1, hs0], ?_⟩
  have c2 : nonBlank r2 = (nonBlank body).drop 8 := by rw [n2, n1, List.drop_drop]
  have c3 : nonBlank r3 = (nonBlank body).drop 12 := by rw [n3, c2, List.drop_drop]
  rw [n1] at b2
  rw [c2] at b3
  rw [c3] at b4
  intro n
  cases n
  · rw [o4 _ (by decide), o3 _ (by decide), o2 _ (by decide), b1, hb0]; rfl
  · rw [o4 _ (by decide), o3 _ (by decide), b2, o1 _ (by decide), hb0]; rfl
  · rw [o4 _ (by decide), b3, o2 _ (by decide), o1 _ (by decide), hb0]; rfl
  · rw [b4, o3 _ (by decide), o2 _ (by decide), o1 _ (by decide), hb0]; rfl

/-! ### Lines -/

theorem getLine_line (line rest : Str) (h : (0x0A : Byte) ∉ line) :
    getLine (line ++ 0x0A :: rest) = (line, rest, false) := by
  induction line with
  | nil => simp [getLine]
  | cons c line ih =>
    have hc : c ≠ 0x0A := fun e => h (by simp [e])
    rw [List.cons_append, getLine, if_neg hc, ih (fun hm => h (List.mem_cons_of_mem _ hm))]

theorem getLine_end (line : Str) (h : (0x0A : Byte) ∉ line) : getLine line = (line, [], true) := by
  induction line with
  | nil => simp [getLine]
  | cons c line ih =>
    have hc : c ≠ 0x0A := fun e => h (by simp [e])
    rw [getLine, if_neg hc, ih (fun hm => h (List.mem_cons_of_mem _ hm))]

theorem readHexLoop_eq (input : Str) :
    readHexLoop input =
      if (getLine input).1.length < 16 then
        if (getLine input).2.2 = true then
          (Group.disableOffsets {}, (getLine input).2.1, (getLine input).2.2)
        else readHexLoop (getLine input).2.1
      else (parseHexLine (Group.disableOffsets {}) (getLine input).1, (getLine input).2.1,
        (getLine input).2.2) := by
  conv => lhs; rw [readHexLoop]
  split
  rename_i l r e heq
  have h1 : (getLine input).1 = l := by rw [heq]
  have h2 : (getLine input).2.1 = r := by rw [heq]
  have h3 : (getLine input).2.2 = e := by rw [heq]
  conv => rhs; rw [h1, h2, h3]
  split
  · split <;> rfl
  · rfl

theorem readHexLoop_line (line rest : Str) (h : (0x0A : Byte) ∉ line) (hl : 16 ≤ line.length) :
    readHexLoop (line ++ 0x0A :: rest) =
      (parseHexLine (Group.disableOffsets {}) line, rest, false) := by
  rw [readHexLoop_eq, getLine_line line rest h]
  simp only []
  rw [if_neg (by omega)]

end Redsea
