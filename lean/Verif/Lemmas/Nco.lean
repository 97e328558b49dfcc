/-
Lemmas for C91: angles, and the invariant of the carrier phases.
-/
import Verif.Model.Nco
import Verif.Spec.Nco

namespace Redsea

open _root_.Redsea.Spec

theorem sameAngle_refl (a : Rat) : SameAngle a a := ⟨0, by grind⟩

theorem sameAngle_trans {a b c : Rat} : SameAngle a b → SameAngle b c → SameAngle a c := by
  rintro ⟨n, hn⟩ ⟨m, hm⟩
  exact ⟨n + m, by grind⟩

theorem sameAngle_symm {a b : Rat} : SameAngle a b → SameAngle b a := by
  rintro ⟨n, hn⟩
  exact ⟨-n, by grind⟩

theorem sameAngle_add {a b : Rat} (c : Rat) : SameAngle a b → SameAngle (a + c) (b + c) := by
  rintro ⟨n, hn⟩
  exact ⟨n, by grind⟩

theorem unwrapPhase_same (a : Rat) : SameAngle (unwrapPhase a) a := by
  unfold unwrapPhase
  split
  · exact ⟨-1, by grind⟩
  · split
    · exact ⟨1, by grind⟩
    · exact sameAngle_refl a

theorem unwrapPhase_range {a : Rat} (h1 : -3 ≤ a) (h2 : a ≤ 3) : -1 ≤ unwrapPhase a ∧ unwrapPhase a ≤ 1 := by
  unfold unwrapPhase
  split
  · constructor <;> grind
  · split <;> constructor <;> grind

/-- The same direction, less than half a turn: the same angle. -/
theorem sameAngle_eq {a b : Rat} (h : SameAngle a b) (h1 : -1 ≤ a) (h2 : a ≤ 1) (h3 : -1 < b) (h4 : b < 1) : a = b := by
  obtain ⟨n, hn⟩ := h
  have h5 : (n : Rat) < ((1 : Int) : Rat) := by grind
  have h6 : ((-1 : Int) : Rat) < (n : Rat) := by grind
  have h5' : n < 1 := Rat.intCast_lt_intCast.mp h5
  have h6' : -1 < n := Rat.intCast_lt_intCast.mp h6
  have : n = 0 := by omega
  subst this
  grind

/-- The difference of two reported directions is the turn between them. -/
theorem unwrapPhase_turn {angle by_ old told : Rat} (h1 : -1 < by_) (h2 : by_ < 1) (h3 : 0 ≤ told) (h4 : told < 2)
    (h5 : 0 ≤ old) (h6 : old < 2) (hold : SameAngle old angle) (htold : SameAngle told (angle + by_)) :
    unwrapPhase (told - old) = by_ := by
  have hr := unwrapPhase_range (a := told - old) (by grind) (by grind)
  refine sameAngle_eq (sameAngle_trans (unwrapPhase_same _) ?_) hr.1 hr.2 h1 h2
  obtain ⟨n, hn⟩ := hold
  obtain ⟨m, hm⟩ := htold
  exact ⟨m - n, by grind⟩

theorem carrier_step_phase (c : CarrierPhases) (now : Rat) (i : Nat) (p : Rat) (hi : i < 4) (hp : c.phases[i]? = some p) :
    (c.step now).phases[i]? = some (unwrapPhase (p + unwrapPhase (now - c.prev) * carrierRatio i)) := by
  have hf : subcarrierFrequencies[i]? = some (57000 * carrierRatio i) := by
    match i, hi with
    | 0, _ => decide +kernel
    | 1, _ => decide +kernel
    | 2, _ => decide +kernel
    | 3, _ => decide +kernel
  simp only [CarrierPhases.step, List.getElem?_zipWith, hp, hf]
  congr 2
  grind

theorem carrier_step_length (c : CarrierPhases) (now : Rat) (h : c.phases.length = 4) : (c.step now).phases.length = 4 := by
  simp [CarrierPhases.step, h, subcarrierFrequencies]

theorem carrier_run_cons (c : CarrierPhases) (x : NcoCall) (l : List NcoCall) : c.run (x :: l) = (c.call x).run l := rfl

theorem carrier_run_append (c : CarrierPhases) (l l' : List NcoCall) : c.run (l ++ l') = (c.run l).run l' := by
  simp [CarrierPhases.run, List.foldl_append]

theorem turned_cons (x : Rat × Rat) (l : List (Rat × Rat)) : turned (x :: l) = x.1 + turned l := by
  simp [turned]

/-- What holds after any calls with reported phases from 0 up to a full turn. -/
structure CarrierInv (c : CarrierPhases) : Prop where
  length : c.phases.length = 4
  prev : 0 ≤ c.prev ∧ c.prev < 2
  range : ∀ (i : Nat) (p : Rat), c.phases[i]? = some p → -1 ≤ p ∧ p ≤ 1
  first : ∀ p : Rat, c.phases[0]? = some p → SameAngle p c.prev

theorem carrierRatio_range (i : Nat) : 1 ≤ carrierRatio i ∧ carrierRatio i ≤ 4 / 3 := by
  unfold carrierRatio
  split <;> decide +kernel

theorem scaled_range {d : Rat} (i : Nat) (h1 : -1 ≤ d) (h2 : d ≤ 1) :
    -2 ≤ d * carrierRatio i ∧ d * carrierRatio i ≤ 2 := by
  unfold carrierRatio
  split <;> constructor <;> grind

theorem carrierInv_new : CarrierInv {} := by
  refine ⟨rfl, ⟨by decide +kernel, by decide +kernel⟩, ?_, ?_⟩
  · intro i p h
    have hp : p = 0 := by
      match i with
      | 0 | 1 | 2 | 3 => simpa using h.symm
      | _ + 4 => simp at h
    subst hp
    exact ⟨by decide +kernel, by decide +kernel⟩
  · intro p h
    have hp : p = 0 := by simpa using h.symm
    subst hp
    exact sameAngle_refl _

theorem carrierInv_step {c : CarrierPhases} (h : CarrierInv c) {now : Rat} (h1 : 0 ≤ now) (h2 : now < 2) :
    CarrierInv (c.step now) := by
  obtain ⟨hl, ⟨hp1, hp2⟩, hr, hf⟩ := h
  have hd := unwrapPhase_range (a := now - c.prev) (by grind) (by grind)
  refine ⟨carrier_step_length c now hl, ⟨h1, h2⟩, ?_, ?_⟩
  · intro i p hi
    have hlt : i < 4 := by
      have := (List.getElem?_eq_some_iff.mp hi).1
      rw [carrier_step_length c now hl] at this
      exact this
    obtain ⟨q, hq⟩ : ∃ q, c.phases[i]? = some q := ⟨_, List.getElem?_eq_getElem (by omega)⟩
    rw [carrier_step_phase c now i q hlt hq] at hi
    have hb := hr i q hq
    have hs := scaled_range i hd.1 hd.2
    rw [← Option.some.inj hi]
    exact unwrapPhase_range (by grind) (by grind)
  · intro p hi
    obtain ⟨q, hq⟩ : ∃ q, c.phases[0]? = some q := ⟨_, List.getElem?_eq_getElem (by omega)⟩
    rw [carrier_step_phase c now 0 q (by omega) hq] at hi
    rw [← Option.some.inj hi]
    refine sameAngle_trans (unwrapPhase_same _) ?_
    obtain ⟨n, hn⟩ := hf q hq
    obtain ⟨m, hm⟩ := unwrapPhase_same (now - c.prev)
    refine ⟨n + m, ?_⟩
    show q + unwrapPhase (now - c.prev) * 1 - now = _
    grind

/-- The phases that liquid-dsp reports are angles from 0 up to a full turn. -/
def Reported (calls : List NcoCall) : Prop := ∀ now, .step now ∈ calls → 0 ≤ now ∧ now < 2

theorem carrierInv_run {calls : List NcoCall} : ∀ {c : CarrierPhases}, CarrierInv c → Reported calls →
    CarrierInv (c.run calls) := by
  induction calls with
  | nil => exact fun h _ => h
  | cons x l ih =>
    intro c h hr
    rw [carrier_run_cons]
    refine ih ?_ (fun now hm => hr now (List.mem_cons_of_mem _ hm))
    cases x with
    | reset => exact h
    | step now =>
      have := hr now (List.mem_cons_self ..)
      exact carrierInv_step h this.1 this.2

theorem ratio_from {l : List (Rat × Rat)} : ∀ {c : CarrierPhases} {angle : Rat}, CarrierInv c → SameAngle c.prev angle →
    Turns angle l → ∀ i p, c.phases[i]? = some p → ∃ q, (c.run (l.map fun x => .step x.2)).phases[i]? = some q ∧
      SameAngle q (p + carrierRatio i * turned l) := by
  induction l with
  | nil =>
    intro c angle _ _ _ i p hp
    refine ⟨p, hp, ?_⟩
    have : p + carrierRatio i * turned [] = p := by
      show p + carrierRatio i * 0 = p
      grind
    rw [this]
    exact sameAngle_refl p
  | cons x l ih =>
    obtain ⟨by_, told⟩ := x
    intro c angle hc hprev ht i p hp
    obtain ⟨h1, h2, h3, h4, h5, h6⟩ := ht
    have hi : i < 4 := by
      have := (List.getElem?_eq_some_iff.mp hp).1
      rw [hc.length] at this
      exact this
    have hturn := unwrapPhase_turn h1 h2 h3 h4 hc.prev.1 hc.prev.2 hprev h5
    have hs := carrier_step_phase c told i p hi hp
    rw [hturn] at hs
    obtain ⟨q, hq, hsame⟩ := ih (c := c.step told) (carrierInv_step hc h3 h4) h5 h6 i _ hs
    refine ⟨q, hq, sameAngle_trans hsame ?_⟩
    have := sameAngle_add (carrierRatio i * turned l) (unwrapPhase_same (p + by_ * carrierRatio i))
    refine sameAngle_trans this ?_
    rw [turned_cons]
    have e : p + by_ * carrierRatio i + carrierRatio i * turned l = p + carrierRatio i * (by_ + turned l) := by grind
    rw [e]
    exact sameAngle_refl _

theorem not_sameAngle {a b : Rat} (h1 : 0 < a - b) (h2 : a - b < 2) : ¬ SameAngle a b := by
  rintro ⟨n, hn⟩
  have h5 : (n : Rat) < ((1 : Int) : Rat) := by grind
  have h6 : ((0 : Int) : Rat) < (n : Rat) := by grind
  have h5' : n < 1 := Rat.intCast_lt_intCast.mp h5
  have h6' : 0 < n := Rat.intCast_lt_intCast.mp h6
  omega

end Redsea
