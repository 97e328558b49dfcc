import Verif.Spec.TimeStamp
import Verif.Props.LineHeader

/-
C81: time stamps are written as the format asks for.
-/

namespace Redsea

open _root_.Redsea.Spec

theorem scan_modifiers (conv : Str → Int → Str) (t : Int) (m : Str) (hm : ∀ x ∈ m, isConversionModifier x = true)
    (c : Byte) (hc : isConversionModifier c = false) (rest : Str) (p : Str) :
    strftimeText conv t (some p) (m ++ c :: rest) = conv (p ++ (m ++ [c])) t ++ strftimeText conv t none rest := by
  induction m generalizing p with
  | nil =>
    show strftimeText conv t (some p) (c :: rest) = _
    rw [strftimeText, if_neg (by simp [hc])]
    rfl
  | cons x m ih =>
    show strftimeText conv t (some p) (x :: (m ++ c :: rest)) = _
    rw [strftimeText, if_pos (hm x List.mem_cons_self), ih (fun y hy => hm y (List.mem_cons_of_mem _ hy))]
    rw [List.append_assoc, List.cons_append, List.nil_append, List.cons_append]

/-- `strftime` treats the parts of a format one by one. -/
theorem strftimeText_parts (conv : Str → Int → Str) (t : Int) (ns : Int) (ht : t = ns / 1000000000)
    (parts : List FormatPart) (hv : ∀ p ∈ parts, p.Valid) (hn : .hundredths ∉ parts) :
    strftimeText conv t none (formatText parts) = timeText conv ns parts := by
  induction parts with
  | nil => rfl
  | cons p parts ih =>
    have ih := ih (fun q hq => hv q (List.mem_cons_of_mem _ hq)) (fun h => hn (List.mem_cons_of_mem _ h))
    have hp := hv p List.mem_cons_self
    unfold formatText timeText at ih ⊢
    rw [List.flatMap_cons, List.flatMap_cons, ← ih]
    cases p with
    | plain c =>
      show strftimeText conv t none (c :: _) = c :: _
      rw [strftimeText, if_neg hp]
      rfl
    | conversion m c =>
      obtain ⟨h1, h2, -⟩ := hp
      show strftimeText conv t none (0x25 :: ((m ++ [c]) ++ _)) = _
      rw [strftimeText, if_pos rfl, List.append_assoc, List.cons_append, List.nil_append,
        scan_modifiers conv t m h1 c h2]
      rw [List.cons_append, List.nil_append, ht]
      rfl
    | hundredths => exact absurd List.mem_cons_self hn

/-- The first `%f` is replaced. -/
theorem replace_here (d s : Str) : replaceFraction d (ascii "%f" ++ s) = d ++ s := by
  have e : ascii "%f" = [0x25, 0x66] := by decide
  rw [e]
  show replaceFraction d (0x25 :: 0x66 :: s) = _
  rw [replaceFraction, if_pos ⟨rfl, rfl⟩]
  rfl

theorem replace_modifiers (d m s : Str) (hm : ∀ x ∈ m, isConversionModifier x = true) :
    replaceFraction d (m ++ s) = m ++ replaceFraction d s := by
  induction m with
  | nil => rfl
  | cons x m ih =>
    have hx : x ≠ 0x25 := by
      intro e
      have := hm x List.mem_cons_self
      rw [e] at this
      exact absurd this (by decide)
    show replaceFraction d (x :: (m ++ s)) = x :: (m ++ _)
    rw [replaceFraction, if_neg (fun h => hx h.1), ih (fun y hy => hm y (List.mem_cons_of_mem _ hy))]

/-- Other parts are left alone. -/
theorem replace_part (d : Str) (p : FormatPart) (hp : p.Valid) (hn : p ≠ .hundredths) (s : Str)
    (hf : p.endsPercent = true → s.head? ≠ some 0x66) :
    replaceFraction d (p.written ++ s) = p.written ++ replaceFraction d s := by
  cases p with
  | plain c =>
    show replaceFraction d (c :: s) = c :: _
    rw [replaceFraction, if_neg (fun h => hp h.1)]
    rfl
  | hundredths => exact absurd rfl hn
  | conversion m c =>
    obtain ⟨h1, h2, h3⟩ := hp
    have e1 : replaceFraction d (0x25 :: (m ++ c :: s)) = 0x25 :: replaceFraction d (m ++ c :: s) := by
      rw [replaceFraction, if_neg]
      rintro ⟨-, h⟩
      cases m with
      | nil => exact h3 rfl (by simpa using h)
      | cons x m =>
        have hx : x = 0x66 := by simpa using h
        have := h1 x List.mem_cons_self
        rw [hx] at this
        exact absurd this (by decide)
    have e2 : replaceFraction d (c :: s) = c :: replaceFraction d s := by
      rw [replaceFraction, if_neg]
      rintro ⟨hc, h⟩
      exact hf (by simp [FormatPart.endsPercent, hc]) h
    show replaceFraction d (0x25 :: ((m ++ [c]) ++ s)) = 0x25 :: ((m ++ [c]) ++ _)
    rw [List.append_assoc, List.cons_append, List.nil_append, e1, replace_modifiers d m _ h1, e2,
      List.append_assoc, List.cons_append, List.nil_append]

theorem written_head (p : FormatPart) (hp : p.Valid) (s : Str) (h : (p.written ++ s).head? = some 0x66) :
    p = .plain 0x66 := by
  cases p with
  | plain c =>
    have : c = 0x66 := by simpa [FormatPart.written] using h
    rw [this]
  | conversion m c =>
    have : (0x25 : Byte) = 0x66 := Option.some.inj h
    exact absurd this (by decide)
  | hundredths =>
    have : (0x25 : Byte) = 0x66 := Option.some.inj h
    exact absurd this (by decide)

/-- The parts in front of the first `%f` are left alone, it is replaced by digits, and so is nothing after it. -/
theorem replace_parts (d : Str) (parts rest : List FormatPart) (hv : ∀ p ∈ parts, p.Valid)
    (hn : .hundredths ∉ parts) (hr : rest = [] ∨ ∃ l, rest = .hundredths :: l)
    (hf : percentThenF parts = false) :
    replaceFraction d (formatText (parts ++ rest)) = formatText parts ++ replaceFraction d (formatText rest) := by
  induction parts with
  | nil => rfl
  | cons p parts ih =>
    have ih := ih (fun q hq => hv q (List.mem_cons_of_mem _ hq)) (fun h => hn (List.mem_cons_of_mem _ h)) (by
      cases parts with
      | nil => rfl
      | cons b l =>
        rw [percentThenF, Bool.or_eq_false_iff] at hf
        exact hf.2)
    have e : formatText (p :: parts ++ rest) = p.written ++ formatText (parts ++ rest) := by
      unfold formatText
      rw [List.cons_append, List.flatMap_cons]
    have e' : formatText (p :: parts) = p.written ++ formatText parts := by
      unfold formatText
      rw [List.flatMap_cons]
    rw [e, e', replace_part d p (hv p List.mem_cons_self) (fun h => hn (h ▸ List.mem_cons_self)), ih, List.append_assoc]
    intro hp hh
    cases parts with
    | nil =>
      rcases hr with rfl | ⟨l, rfl⟩
      · cases hh
      · have := written_head .hundredths trivial (formatText l) hh
        cases this
    | cons b l =>
      have hb := written_head b (hv b (by simp)) (formatText (l ++ rest)) hh
      rw [percentThenF, hp, hb] at hf
      simp at hf

theorem toStringInt_digit (n : Nat) (h : n < 10) : toStringInt (n : Int) = [BitVec.ofNat 8 (0x30 + n)] := by
  have : ∀ n : Fin 10, toStringInt (n.val : Int) = [BitVec.ofNat 8 (0x30 + n.val)] := by decide +kernel
  exact this ⟨n, h⟩

/-- The digits are the hundredths that have passed in the second. -/
theorem fractionDigits_eq (ns : Int) (h : 0 ≤ ns) :
    fractionDigits ns = FormatPart.twoDigits ((ns / 10000000) % 100).toNat := by
  obtain ⟨n, rfl⟩ := Int.eq_ofNat_of_zero_le h
  have e0 : ((n : Int).tdiv 1000000000) = ((n / 1000000000 : Nat) : Int) := by
    rw [Int.tdiv_eq_ediv_of_nonneg (by omega)]; rfl
  have e1 : ((n : Int) - ((n / 1000000000 : Nat) : Int) * 1000000000) = ((n % 1000000000 : Nat) : Int) := by omega
  have e2 : ((n % 1000000000 : Nat) : Int).tdiv 1000000 = ((n % 1000000000 / 1000000 : Nat) : Int) := by
    rw [Int.tdiv_eq_ediv_of_nonneg (by omega)]; rfl
  have e3 : (((n % 1000000000 / 1000000 : Nat) : Int).tdiv 10).tmod 10 =
      ((n % 1000000000 / 1000000 / 10 % 10 : Nat) : Int) := by
    rw [Int.tdiv_eq_ediv_of_nonneg (by omega), Int.tmod_eq_emod_of_nonneg (by omega)]; rfl
  have e4 : (((n % 1000000000 / 1000000 : Nat) : Int).tdiv 100).tmod 10 =
      ((n % 1000000000 / 1000000 / 100 % 10 : Nat) : Int) := by
    rw [Int.tdiv_eq_ediv_of_nonneg (by omega), Int.tmod_eq_emod_of_nonneg (by omega)]; rfl
  have e5 : (((n : Int) / 10000000) % 100).toNat = n / 10000000 % 100 := by omega
  unfold fractionDigits
  simp only [e0, e1, e2, e3, e4, e5]
  rw [toStringInt_digit _ (Nat.mod_lt _ (by decide)), toStringInt_digit _ (Nat.mod_lt _ (by decide))]
  have h1 : n % 1000000000 / 1000000 / 100 % 10 = n / 10000000 % 100 / 10 := by omega
  have h2 : n % 1000000000 / 1000000 / 10 % 10 = n / 10000000 % 100 % 10 := by omega
  rw [h1, h2]
  rfl

/-- Digits stand for themselves. -/
theorem twoDigits_plain (n : Nat) (h : n < 100) : ∃ a b : Byte, FormatPart.twoDigits n = [a, b] ∧ a ≠ 0x25 ∧ b ≠ 0x25 := by
  refine ⟨_, _, rfl, ?_, ?_⟩
  · have : ∀ q : Fin 10, BitVec.ofNat 8 (0x30 + q.val) ≠ 0x25#8 := by decide
    exact this ⟨n / 10, by omega⟩
  · have : ∀ q : Fin 10, BitVec.ofNat 8 (0x30 + q.val) ≠ 0x25#8 := by decide
    exact this ⟨n % 10, by omega⟩

/-- The text before its length is checked. -/
theorem time_text (conv : Str → Int → Str) (ns : Int) (h : 0 ≤ ns) (parts : List FormatPart)
    (hv : ∀ p ∈ parts, p.Valid) (hone : parts.count .hundredths ≤ 1)
    (hf : percentThenF (parts.takeWhile (· ≠ .hundredths)) = false) :
    strftimeText conv (ns.tdiv 1000000000) none (replaceFraction (fractionDigits ns) (formatText parts)) =
      timeText conv ns parts := by
  have ht : ns.tdiv 1000000000 = ns / 1000000000 := Int.tdiv_eq_ediv_of_nonneg h
  have hsplit := List.takeWhile_append_dropWhile (p := fun q : FormatPart => decide (q ≠ .hundredths)) (l := parts)
  generalize ha : parts.takeWhile (fun q => decide (q ≠ .hundredths)) = a at hsplit hf
  generalize hb : parts.dropWhile (fun q => decide (q ≠ .hundredths)) = b at hsplit
  have hna : .hundredths ∉ a := by
    intro hm
    rw [← ha] at hm
    have := List.all_eq_true.mp (List.all_takeWhile (p := fun q : FormatPart => decide (q ≠ .hundredths))) _ hm
    simp at this
  have hva : ∀ p ∈ a, p.Valid := fun p hp => hv p (by rw [← hsplit]; exact List.mem_append_left _ hp)
  rw [fractionDigits_eq ns h]
  cases b with
  | nil =>
    rw [List.append_nil] at hsplit
    have e := replace_parts (FormatPart.twoDigits ((ns / 10000000) % 100).toNat) a [] hva hna (Or.inl rfl) hf
    have e' : formatText ([] : List FormatPart) = [] := rfl
    rw [List.append_nil, e', replaceFraction, List.append_nil] at e
    rw [← hsplit, e, strftimeText_parts conv _ ns ht a hva hna]
  | cons q b =>
    have hq : q = .hundredths := by
      have := List.head?_dropWhile_not (fun q : FormatPart => decide (q ≠ .hundredths)) parts
      rw [hb] at this
      simpa using this
    subst hq
    have hnb : .hundredths ∉ b := by
      intro hm
      have h1 := List.count_pos_iff.mpr hm
      rw [← hsplit, List.count_append, List.count_cons_self] at hone
      omega
    have hvb : ∀ p ∈ b, p.Valid := fun p hp => hv p (by rw [← hsplit]; simp [hp])
    have e := replace_parts (FormatPart.twoDigits ((ns / 10000000) % 100).toNat) a (.hundredths :: b) hva hna
      (Or.inr ⟨b, rfl⟩) hf
    have e1 : formatText (.hundredths :: b) = ascii "%f" ++ formatText b := rfl
    rw [e1, replace_here] at e
    obtain ⟨x, y, hd, hx, hy⟩ := twoDigits_plain ((ns / 10000000) % 100).toNat (by omega)
    have e2 : formatText a ++ (FormatPart.twoDigits ((ns / 10000000) % 100).toNat ++ formatText b) =
        formatText (a ++ (.plain x :: .plain y :: b)) := by
      rw [hd]
      unfold formatText
      rw [List.flatMap_append, List.flatMap_cons, List.flatMap_cons]
      rfl
    have e3 : timeText conv ns parts = timeText conv ns (a ++ (.plain x :: .plain y :: b)) := by
      rw [← hsplit]
      unfold timeText
      rw [List.flatMap_append, List.flatMap_append, List.flatMap_cons, List.flatMap_cons, List.flatMap_cons]
      show _ ++ (FormatPart.twoDigits ((ns / 10000000) % 100).toNat ++ _) = _
      rw [hd]
      rfl
    rw [← hsplit, e, e2, strftimeText_parts conv _ ns ht, ← e3, hsplit]
    · intro p hp
      simp only [List.mem_append, List.mem_cons] at hp
      rcases hp with hp | rfl | rfl | hp
      · exact hva p hp
      · exact hx
      · exact hy
      · exact hvb p hp
    · intro hm
      simp only [List.mem_append, List.mem_cons] at hm
      rcases hm with hm | hm | hm | hm
      · exact hna hm
      · cases hm
      · cases hm
      · exact hnb hm

/-- **C81**: a time from 1970 on is written as the format asks for: ordinary characters, the conversions of
`strftime` for the second in which the time lies (which is not rounded up), and for `%f` the two digits of the hundredths
that have passed. It is required that `%f` occurs only once and no `%%f` stands in front of it (see
`C81_second_fraction_violated` and `C81_percent_violated`), and that the text has 1 to 63 bytes (see
`C81_length_violated`). -/
theorem C81_time_partial (conv : Str → Int → Str) (ns : Int) (h : 0 ≤ ns) (parts : List FormatPart)
    (hv : ∀ p ∈ parts, p.Valid) (hone : parts.count .hundredths ≤ 1)
    (hf : percentThenF (parts.takeWhile (· ≠ .hundredths)) = false)
    (hl : 1 ≤ (timeText conv ns parts).length) (hl' : (timeText conv ns parts).length ≤ 63) :
    getTimePointString conv ns (formatText parts) = timeText conv ns parts := by
  unfold getTimePointString strftime
  simp only [time_text conv ns h parts hv hone hf]
  rw [if_neg]
  · rfl
  · rintro (h | h)
    · omega
    · rw [h] at hl
      simp at hl

/-- **C81** is violated by longer texts, and by texts that are empty. -/
theorem C81_length_violated (conv : Str → Int → Str) (ns : Int) (h : 0 ≤ ns) (parts : List FormatPart)
    (hv : ∀ p ∈ parts, p.Valid) (hone : parts.count .hundredths ≤ 1)
    (hf : percentThenF (parts.takeWhile (· ≠ .hundredths)) = false)
    (hl : 64 ≤ (timeText conv ns parts).length ∨ timeText conv ns parts = []) :
    getTimePointString conv ns (formatText parts) = ascii "(format error)" := by
  unfold getTimePointString strftime
  simp only [time_text conv ns h parts hv hone hf]
  rw [if_pos]
  · rfl
  · rcases hl with h | h
    · left; omega
    · right; exact h

/-- **C81** is violated by a second `%f`: it is handed to `strftime`, which does not know it. -/
theorem C81_second_fraction_violated (conv : Str → Int → Str) (hc : conv (ascii "%f") 1 = ascii "%f") :
    timeText conv 1230000000 [.hundredths, .plain 0x20, .hundredths] = ascii "23 23" ∧
    getTimePointString conv 1230000000 (formatText [.hundredths, .plain 0x20, .hundredths]) = ascii "23 %f" := by
  refine ⟨by rfl, ?_⟩
  have e : replaceFraction (fractionDigits 1230000000) (formatText [.hundredths, .plain 0x20, .hundredths]) =
      [0x32, 0x33, 0x20, 0x25, 0x66] := by decide +kernel
  have e1 : ((1230000000 : Int).tdiv 1000000000) = 1 := by decide
  have e2 : strftimeText conv 1 none [0x32, 0x33, 0x20, 0x25, 0x66] = [0x32, 0x33, 0x20] ++ (conv (ascii "%f") 1 ++ []) := by
    have : ascii "%f" = [0x25, 0x66] := by decide
    rw [this]
    rfl
  unfold getTimePointString strftime
  rw [e, e1]
  simp only [e2]
  rw [hc]
  decide +kernel

/-- **C81** is violated by `%%f`, which stands for a percent sign and the letter f: the digits are put behind the first
percent sign, and `strftime` takes them for the width of a conversion, which is not finished. -/
theorem C81_percent_violated (conv : Str → Int → Str) (hc : conv (ascii "%%") 1 = ascii "%")
    (hu : conv (ascii "%23") 1 ≠ ascii "%f") :
    (∀ p ∈ [FormatPart.conversion [] 0x25, .plain 0x66], p.Valid) ∧
    timeText conv 1230000000 [.conversion [] 0x25, .plain 0x66] = ascii "%f" ∧
    getTimePointString conv 1230000000 (formatText [.conversion [] 0x25, .plain 0x66]) ≠ ascii "%f" := by
  refine ⟨by decide, ?_, ?_⟩
  · have : ascii "%%" = [0x25, 0x25] := by decide
    rw [this] at hc
    show conv [0x25, 0x25] 1 ++ [0x66] = _
    rw [hc]
    decide
  · have e : replaceFraction (fractionDigits 1230000000) (formatText [.conversion [] 0x25, .plain 0x66]) =
        [0x25, 0x32, 0x33] := by decide +kernel
    have e1 : ((1230000000 : Int).tdiv 1000000000) = 1 := by decide
    have e2 : strftimeText conv 1 none [0x25, 0x32, 0x33] = conv (ascii "%23") 1 := by
      have : ascii "%23" = [0x25, 0x32, 0x33] := by decide
      rw [this]
      rfl
    unfold getTimePointString strftime
    rw [e, e1]
    simp only [e2]
    split
    · show ascii "(format error)" ≠ _
      decide
    · exact hu

/-- **C81** is violated by times before 1970: signs are put between the digits, and the second is the following one. -/
theorem C81_before_1970_violated (conv : Str → Int → Str) :
    timeText conv (-1230000000) [.hundredths] = ascii "77" ∧
    getTimePointString conv (-1230000000) (formatText [.hundredths]) = ascii "-2-3" := by
  refine ⟨rfl, ?_⟩
  have e : replaceFraction (fractionDigits (-1230000000)) (formatText [.hundredths]) =
      [0x2D, 0x32, 0x2D, 0x33] := by decide +kernel
  have e2 : ∀ t, strftimeText conv t none [0x2D, 0x32, 0x2D, 0x33] = [0x2D, 0x32, 0x2D, 0x33] := fun t => rfl
  unfold getTimePointString strftime
  rw [e]
  simp only [e2]
  decide +kernel

section
variable {env : Env} (hk : env.tmc.KeysOk) (conv : Str → Int → Str) {o : Options} {w : Nat} {p : Word} {gs : List Group}
  {st : Station} {ls : List (Option Line)}
  (h : Station.receive (env.withTimes conv o) (Station.withPI o w p) gs = some (st, ls)) {g : Group} {st' : Station} {j : J}
  (hu : st.updateAndPrint (env.withTimes conv o) g = some (st', some (.json j)))

include hk h hu in
/-- **C81** for lines in JSON format: with the option `-t`, a line has the time of reception of its group as the format
asks for. -/
theorem C81_printed (ht : o.timestamp = true) (parts : List FormatPart) (hfmt : o.timeFormat = formatText parts)
    (ns : Int) (hns : g.time = some ns) (h0 : 0 ≤ ns)
    (hv : ∀ p ∈ parts, p.Valid) (hone : parts.count .hundredths ≤ 1)
    (hf : percentThenF (parts.takeWhile (· ≠ .hundredths)) = false)
    (hl : 1 ≤ (timeText conv ns parts).length) (hl' : (timeText conv ns parts).length ≤ 63) :
    j.at? ["rx_time"] = some (.str (timeText conv ns parts)) := by
  have := C78_time (env := env.withTimes conv o) hk h hu
  rw [this, if_pos ht, hns]
  show some (J.str (getTimePointString conv ns o.timeFormat)) = _
  rw [hfmt, C81_time_partial conv ns h0 parts hv hone hf hl hl']

end

/-- Conversions for examples: `%H` is the hour, `%M` the minute, `%S` the second of the day in UTC. -/
def demoConversion (c : Str) (t : Int) : Str :=
  let two (n : Int) : Str := FormatPart.twoDigits n.toNat
  if c = ascii "%H" then two (t / 3600 % 24) else if c = ascii "%M" then two (t / 60 % 60)
  else if c = ascii "%S" then two (t % 60) else if c = ascii "%%" then ascii "%" else []

/-- The parts of "%H:%M:%S.%f". -/
def demoFormat : List FormatPart :=
  [.conversion [] 0x48, .plain 0x3A, .conversion [] 0x4D, .plain 0x3A, .conversion [] 0x53, .plain 0x2E, .hundredths]

/-- The conditions of `C81_time_partial` can be met, and 12:34:56.789 is written as 12:34:56.78. -/
example : formatText demoFormat = ascii "%H:%M:%S.%f" ∧ (∀ p ∈ demoFormat, p.Valid) ∧
    demoFormat.count .hundredths ≤ 1 ∧ percentThenF (demoFormat.takeWhile (· ≠ .hundredths)) = false ∧
    timeText demoConversion 45296789000000 demoFormat = ascii "12:34:56.78" ∧
    getTimePointString demoConversion 45296789000000 (ascii "%H:%M:%S.%f") = ascii "12:34:56.78" := by
  decide +kernel

end Redsea
