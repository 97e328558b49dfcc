import Verif.Spec.Countries
import Verif.Props.GroupFields

/-
C82: the country of a station.
-/

namespace Redsea

open _root_.Redsea.Spec

/-- The text for a country, "--" if there is none. -/
def countryText (country : Option String) : Str := ascii (country.getD "--")

/-- The cell of the table, as a string. -/
def cellOf (ecc digit : Nat) : String := ((countryCodes.lookup ecc).bind fun row => row[digit - 1]?).getD "--"

def rowsAgree (eccs : List Nat) : Bool :=
  eccs.all fun ecc => (List.range 15).all fun i =>
    (ecc == 0xD1 && i == 14) || cellOf ecc (i + 1) == (standardCountry ecc (i + 1)).getD "--"

theorem rows_a : rowsAgree [0xA0, 0xA1, 0xA2, 0xA3, 0xA4, 0xA5, 0xA6] = true := by decide +kernel
theorem rows_d : rowsAgree [0xD0, 0xD1, 0xD2, 0xD3] = true := by decide +kernel
theorem rows_e : rowsAgree [0xE0, 0xE1, 0xE2, 0xE3, 0xE4] = true := by decide +kernel
theorem rows_f : rowsAgree [0xF0, 0xF1, 0xF2, 0xF3] = true := by decide +kernel

/-- The extended country codes of the table. -/
def knownEccs : List Nat := [0xA0, 0xA1, 0xA2, 0xA3, 0xA4, 0xA5, 0xA6, 0xD0, 0xD1, 0xD2, 0xD3, 0xE0, 0xE1, 0xE2, 0xE3,
  0xE4, 0xF0, 0xF1, 0xF2, 0xF3]

theorem table_rows : countryCodes.map (·.1) = knownEccs ∧ (∀ e ∈ countryCodes, e.2.length = 15) := by decide +kernel

theorem cells_ascii : ∀ e ∈ countryCodes, ∀ c ∈ e.2, utf8Str c = ascii c := by decide +kernel

theorem standard_eccs : ((europeanCountries ++ africanCountries ++ americanCountries ++ asianCountries).all fun e =>
    e.2.all fun q => knownEccs.contains q.1 && q.2 != 0) = true := by decide +kernel

theorem lookup_mem {α : Type} {l : List (Nat × α)} {k : Nat} {a : α} (h : l.lookup k = some a) : (k, a) ∈ l := by
  induction l with
  | nil => cases h
  | cons e l ih =>
    rw [List.lookup_cons] at h
    split at h
    · rename_i hk
      cases h
      have : k = e.1 := by simpa using hk
      rw [this]
      exact List.mem_cons_self
    · exact List.mem_cons_of_mem _ (ih h)

theorem lookup_none {α : Type} {l : List (Nat × α)} {k : Nat} (h : k ∉ l.map (·.1)) : l.lookup k = none := by
  induction l with
  | nil => rfl
  | cons e l ih =>
    rw [List.map_cons, List.mem_cons, not_or] at h
    rw [List.lookup_cons]
    have : (k == e.1) = false := by simpa using h.1
    rw [this]
    exact ih h.2

theorem standardCountry_none (ecc digit : Nat) (h : ecc ∉ knownEccs ∨ digit = 0) : standardCountry ecc digit = none := by
  unfold standardCountry
  rw [Option.map_eq_none_iff, List.find?_eq_none]
  intro e he ha
  obtain ⟨q, hq, hq'⟩ := List.any_eq_true.mp ha
  have := List.all_eq_true.mp (List.all_eq_true.mp standard_eccs e he) q hq
  simp only [Bool.and_eq_true, beq_iff_eq, List.contains_iff_mem, bne_iff_ne, ne_eq] at this hq'
  rcases h with h | h
  · exact h (hq'.1 ▸ this.1)
  · exact this.2 (hq'.2.trans h)

theorem row_agrees (ecc digit : Nat) (hk : ecc ∈ knownEccs) (hd : 0 < digit) (hd' : digit < 16)
    (h : (ecc, digit) ≠ (0xD1, 0xF)) : cellOf ecc digit = (standardCountry ecc digit).getD "--" := by
  have key : ∀ l : List Nat, rowsAgree l = true → ecc ∈ l → cellOf ecc digit = (standardCountry ecc digit).getD "--" := by
    intro l hl hm
    have := List.all_eq_true.mp (List.all_eq_true.mp hl ecc hm) (digit - 1) (List.mem_range.mpr (by omega))
    rw [show digit - 1 + 1 = digit by omega, Bool.or_eq_true, Bool.and_eq_true] at this
    rcases this with ⟨h1, h2⟩ | h1
    · exfalso
      apply h
      rw [beq_iff_eq] at h1 h2
      rw [h1, show digit = 15 by omega]
    · exact beq_iff_eq.mp h1
  have e : knownEccs = [0xA0, 0xA1, 0xA2, 0xA3, 0xA4, 0xA5, 0xA6] ++ [0xD0, 0xD1, 0xD2, 0xD3] ++
      [0xE0, 0xE1, 0xE2, 0xE3, 0xE4] ++ [0xF0, 0xF1, 0xF2, 0xF3] := rfl
  rw [e, List.mem_append, List.mem_append, List.mem_append] at hk
  rcases hk with ((hk | hk) | hk) | hk
  · exact key _ rows_a hk
  · exact key _ rows_d hk
  · exact key _ rows_e hk
  · exact key _ rows_f hk

/-- **C82**: for every extended country code and every first digit of a PI code, the country is the one of the
standard, "--" if there is none. Missing for the full property: Nigeria (`C82_nigeria_violated`). -/
theorem C82_country_partial (ecc digit : Nat) (hd : digit < 16) (h : (ecc, digit) ≠ (0xD1, 0xF)) :
    getCountryString digit ecc = some (countryText (standardCountry ecc digit)) := by
  have hdash : some (utf8Str "--") = some (countryText none) := by decide +kernel
  unfold getCountryString
  by_cases hk : ecc ∈ knownEccs
  · cases hl : countryCodes.lookup ecc with
    | none =>
      exfalso
      rw [← table_rows.1] at hk
      obtain ⟨e, he, rfl⟩ := List.mem_map.mp hk
      rw [List.lookup_eq_none_iff] at hl
      exact absurd (hl e he) (by simp)
    | some row =>
      have hm := lookup_mem hl
      have hlen := table_rows.2 _ hm
      dsimp only at hlen ⊢
      by_cases hz : digit = 0
      · rw [hz, if_neg (by omega), standardCountry_none _ _ (Or.inr rfl)]
        exact hdash
      · rw [if_pos (by omega), countryText, ← row_agrees ecc digit hk (by omega) hd h, cellOf, hl]
        have hi : digit - 1 < row.length := by omega
        rw [Option.bind_some, List.getElem?_eq_getElem hi]
        exact congrArg some (cells_ascii _ hm _ (List.getElem_mem hi))
  · rw [lookup_none (by rw [table_rows.1]; exact hk), standardCountry_none _ _ (Or.inl hk)]
    exact hdash

/-- **C82** is violated for Nigeria: stations of Nigeria are shown as stations of Bulgaria. -/
theorem C82_nigeria_violated : standardCountry 0xD1 0xF = some "ng" ∧ getCountryString 0xF 0xD1 = some (ascii "bg") ∧
    standardCountry 0xE1 0x8 = some "bg" ∧ getCountryString 0x8 0xE1 = some (ascii "bg") := by
  decide +kernel

section
variable {env : Env} (hk : env.tmc.KeysOk) {o : Options} {w : Nat} {p : Word} {gs : List Group}
  {st : Station} {ls : List (Option Line)}
  (h : Station.receive env (Station.withPI o w p) gs = some (st, ls)) {g : Group} {st' : Station} {j : J}
  (hu : st.updateAndPrint env g = some (st', some (.json j))) {s : Broadcast} (v : s.Valid)
  (hg : s.HeardAs g)

include hk h hu hg in
/-- **C82** for stations: when a station sends its extended country code in a group of type 1A, its country is
printed. -/
theorem C82_printed_partial (hn : s.number = 1) (hb : s.versionB = false) (la : Bool) (data : Nat) (hdata : data < 4096)
    (hs : s.block3 = labelWord la 0 data) (h3 : g.has .b3 = true) (h4 : g.has .b4 = true) (hz : data % 256 ≠ 0)
    (hng : (data % 256, p.toNat / 4096) ≠ (0xD1, 0xF)) :
    j.at? ["country"] = some (.str (countryText (standardCountry (data % 256) (p.toNat / 4096)))) := by
  obtain ⟨t, ht, hj⟩ := (C62_slow_labelling_partial hk h hu hg hn hb la 0 data (by omega) hdata hs h3 h4).2.1 rfl hz
  rw [C82_country_partial _ _ (by have := p.isLt; omega) hng] at ht
  rw [hj, Option.some.inj ht]

end

/-- Finland is found in the table, by its code E1 and PI codes that begin with 6. -/
example : standardCountry 0xE1 6 = some "fi" ∧ getCountryString 6 0xE1 = some (ascii "fi") ∧ standardCountry 0xE1 0 = none ∧
    standardCountry 0xFF 6 = none := by decide +kernel

end Redsea
