import Verif.Spec.TmcQuantifier

/-
C66: quantifiers of traffic events.
-/

namespace Redsea

open _root_.Redsea.Spec

theorem five_values {values : List Nat} {g : Nat → Nat}
    (h : ∀ c : Fin 32, ofFive values c.val = some (g (if c.val = 0 then 32 else c.val))) (f : Nat → Str)
    {c : Nat} (hc : c < 32) : (ofFive values c).map f = some (f (g (if c = 0 then 32 else c))) := by
  rw [h ⟨c, hc⟩, Option.map_some]

theorem eight_values {values : List Nat} {g : Nat → Nat} (h : ∀ c : Fin 256, ∀ v ∈ ofEight values c.val, v = g c.val)
    (f : Nat → Str) {c : Nat} (hc : c < 256) {s : Str} (hs : (ofEight values c).map f = some s) : f (g c) = s := by
  obtain ⟨v, hv, rfl⟩ := Option.map_eq_some_iff.mp hs
  rw [h ⟨c, hc⟩ v hv]

/-- **C66**, five-bit quantifiers. Every code of every type has the text of the value at its place in the
table of the type. -/
theorem C66_five_bit (t : QuantifierType) (ht : getQuantifierSize t = 5) (c : Nat) (hc : c < 32) :
    quantity t c = some (quantifierText t c) := by
  have h5 : ∀ t, getQuantifierSize t = 5 → (if getQuantifierSize t = 5 ∧ c = 0 then 32 else c) =
      if c = 0 then 32 else c := by
    intro t ht
    rw [ht]
    simp
  unfold quantifierText
  rw [h5 t ht]
  cases t with
  | smallNumber => exact five_values (g := fun q => if q > 28 then q + (q - 28) else q) (by decide +kernel) _ hc
  | number =>
    exact five_values (g := fun q => if q ≤ 4 then q else if q ≤ 14 then (q - 4) * 10 else (q - 12) * 50)
      (by decide +kernel) _ hc
  | lessThanMetres => exact five_values (g := fun q => q * 10) (by decide +kernel) _ hc
  | percent => exact five_values (g := fun q => if q = 32 then 0 else q * 5) (by decide +kernel) _ hc
  | uptoKmh => exact five_values (g := fun q => q * 5) (by decide +kernel) _ hc
  | uptoTime =>
    have h : ∀ c : Fin 32, quantity .uptoTime c.val =
        (let q := if c.val = 0 then 32 else c.val
         if q ≤ 10 then some (ascii "of up to " ++ decimal (q * 5) ++ ascii " minutes")
         else if q ≤ 22 then some (ascii "of up to " ++ decimal (q - 10) ++ ascii " hours")
         else some (ascii "of up to " ++ decimal ((q - 20) * 6) ++ ascii " hours")) := by
      decide +kernel
    rw [h ⟨c, hc⟩]
    show _ = some (if (if c = 0 then 32 else c) ≤ 10 then _ else if (if c = 0 then 32 else c) ≤ 22 then _ else _)
    dsimp only
    generalize (if c = 0 then 32 else c) = q
    by_cases h1 : q ≤ 10
    · rw [if_pos h1, if_pos h1]
    · rw [if_neg h1, if_neg h1]
      by_cases h2 : q ≤ 22
      · rw [if_pos h2, if_pos h2]
      · rw [if_neg h2, if_neg h2]
  | degreesCelsius | time | tonnes | metres | uptoMillimetres | mhz | khz => cases ht

/-- **C66**, eight-bit quantifiers (partial). Every code that has a value in the table of its type has the
text of that value. -/
theorem C66_eight_bit_partial (t : QuantifierType) (ht : getQuantifierSize t = 8) (c : Nat) (hc : c < 256) (s : Str)
    (hs : quantity t c = some s) : quantifierText t c = s := by
  unfold quantifierText
  rw [ht, if_neg (by simp)]
  cases t with
  | degreesCelsius =>
    have h : ∀ c : Fin 256, ∀ s ∈ quantity .degreesCelsius c.val, intStr ((c.val : Int) - 51) ++ ascii " degrees Celsius" = s := by
      decide +kernel
    exact h ⟨c, hc⟩ s hs
  | time =>
    have h : ∀ c : Fin 256, ∀ s ∈ quantity .time c.val,
        intPadded2 ((((c.val : Int) - 1) * 10).tdiv 60) ++ ascii ":" ++ intPadded2 ((((c.val : Int) - 1) * 10).tmod 60) = s := by
      decide +kernel
    exact h ⟨c, hc⟩ s hs
  | tonnes =>
    exact eight_values (g := fun q => if q ≤ 100 then q else 100 + (q - 100) * 5) (by decide +kernel)
      (fun v => oneDecimal v ++ ascii " tonnes") hc hs
  | metres =>
    exact eight_values (g := fun q => if q ≤ 100 then q else 100 + (q - 100) * 5) (by decide +kernel)
      (fun v => oneDecimal v ++ ascii " metres") hc hs
  | uptoMillimetres =>
    exact eight_values (g := id) (by decide +kernel)
      (fun v => ascii "of up to " ++ decimal v ++ ascii " millimetres") hc hs
  | mhz =>
    have h : ∀ c : Fin 256, ∀ v ∈ ofEight (steps 876 1 204) c.val,
        ({ code := c.val, band := .fm } : CarrierFrequency).isValid = true ∧
        ({ code := c.val, band := .fm } : CarrierFrequency).kHz.toNat / 1000 = v / 10 ∧
        ({ code := c.val, band := .fm } : CarrierFrequency).kHz.toNat / 100 % 10 = v % 10 := by
      decide +kernel
    obtain ⟨v, hv, rfl⟩ := Option.map_eq_some_iff.mp hs
    obtain ⟨h1, h2, h3⟩ := h ⟨c, hc⟩ v hv
    dsimp only at h1 h2 h3 ⊢
    unfold CarrierFrequency.toStr
    rw [if_pos h1]
    dsimp only
    rw [h2, h3]
    rfl
  | khz =>
    have h : ∀ c : Fin 256, ∀ v ∈ ofEight (steps 153 9 15 ++ steps 531 9 120) c.val,
        ({ code := c.val, band := .lfMf } : CarrierFrequency).isValid = true ∧
        ({ code := c.val, band := .lfMf } : CarrierFrequency).kHz = (v : Int) := by
      decide +kernel
    obtain ⟨v, hv, rfl⟩ := Option.map_eq_some_iff.mp hs
    obtain ⟨h1, h2⟩ := h ⟨c, hc⟩ v hv
    dsimp only at h1 h2 ⊢
    unfold CarrierFrequency.toStr
    rw [if_pos h1]
    dsimp only
    rw [h2]
    rfl
  | smallNumber | number | lessThanMetres | percent | uptoKmh | uptoTime => cases ht

/-- The negation for the codes without a value: a time with code 0 is printed as "00:-10", one with code 145
as "24:00". -/
theorem C66_time_violated : quantity .time 0 = none ∧ quantifierText .time 0 = ascii "00:-10" ∧
    quantity .time 145 = none ∧ quantifierText .time 145 = ascii "24:00" := by
  decide +kernel

/-- No part of the description is "(Q)". -/
def NoMark (s : Str) : Prop := ∀ a b, s ≠ a ++ ascii "(Q)" ++ b

theorem replaceQ_noMark (text s : Str) (h : NoMark s) : replaceQ text s = s := by
  induction s with
  | nil => rfl
  | cons c s ih =>
    have hs : NoMark s := by
      intro a b hx
      exact h (c :: a) b (by rw [hx]; rfl)
    unfold replaceQ
    split
    · rename_i rest heq
      exact absurd heq (h [] rest)
    · rename_i h1 h2
      obtain ⟨rfl, rfl⟩ := List.cons.inj h2
      rw [ih hs]
    · contradiction

/-- **C66**, the place of the quantifier: the mark "(Q)" of a description is replaced by the text of
the quantifier and nothing else is changed; for every event with one mark. -/
theorem C66_description (e : Event) (q : Nat) (a b : Str)
    (h : e.descriptionWithQuantifier = a ++ ascii "(Q)" ++ b) (ha : NoMark (a ++ ascii "(Q"))
    (hb : NoMark b) : getDescriptionWithQuantifier e q = a ++ quantifierText e.quantifierType q ++ b := by
  unfold getDescriptionWithQuantifier
  rw [h]
  generalize quantifierText e.quantifierType q = text
  clear h
  induction a with
  | nil =>
    show text ++ replaceQ text b = _
    rw [replaceQ_noMark text b hb]
    rfl
  | cons c a ih =>
    have ha' : NoMark (a ++ ascii "(Q") := by
      intro x y hx
      exact ha (c :: x) y (by rw [List.cons_append, hx]; rfl)
    have ih := ih ha'
    simp only [List.cons_append] at ih ⊢
    unfold replaceQ
    split
    · rename_i rest heq
      exfalso
      have hq : ascii "(Q)" = [0x28#8, 0x51#8, 0x29#8] := by decide +kernel
      have hq2 : ascii "(Q" = [0x28#8, 0x51#8] := by decide +kernel
      rw [hq] at heq
      -- the mark would begin in front of the first one
      match a, heq with
      | [], heq => simp at heq
      | [x], heq => simp at heq
      | x :: y :: a, heq =>
        simp only [List.cons_append, List.cons.injEq] at heq
        obtain ⟨rfl, rfl, rfl, -⟩ := heq
        refine ha [] (a ++ ascii "(Q") ?_
        rw [hq]
        rfl
    · rename_i h1 h2
      obtain ⟨rfl, rfl⟩ := List.cons.inj h2
      rw [ih]
    · contradiction

/-! Cases that meet the hypotheses. -/

example : getQuantifierSize .number = 5 ∧ quantity .number 0 = some (ascii "1000") ∧
    quantity .uptoTime 11 = some (ascii "of up to 1 hours") := by decide +kernel

example : getQuantifierSize .degreesCelsius = 8 ∧ quantity .degreesCelsius 41 = some (ascii "-10 degrees Celsius") ∧
    quantity .time 144 = some (ascii "23:50") ∧ quantity .mhz 100 = some (ascii "97.5 MHz") := by decide +kernel

example : NoMark (ascii "queuing traffic for " ++ ascii "(Q") ∧ NoMark (ascii " ahead") ∧
    ascii "queuing traffic for (Q) ahead" = ascii "queuing traffic for " ++ ascii "(Q)" ++ ascii " ahead" := by
  have key : ∀ s : Str, s.all (fun c => c != 0x29#8) = true → NoMark s := by
    intro s hs a b hx
    rw [hx] at hs
    have : ascii "(Q)" = [0x28#8, 0x51#8, 0x29#8] := by decide +kernel
    rw [this] at hs
    simp at hs
  exact ⟨key _ (by decide +kernel), key _ (by decide +kernel), by decide +kernel⟩

end Redsea
