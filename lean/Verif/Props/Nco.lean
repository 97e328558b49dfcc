/-
C91: The carriers of the data streams keep exact frequency ratios.
-/
import Verif.Lemmas.Nco

namespace Redsea

open _root_.Redsea.Spec

/-- **C91**: Whatever happened before (steps and resets), from any moment on at which the oscillator stands at `angle`, as long
as it is not reset: the carrier of stream `i` turns by exactly `carrierRatio i` times what the oscillator turns by. -/
theorem C91_ratio (before : List NcoCall) (hb : Reported before) (angle : Rat) (l : List (Rat × Rat))
    (hstart : SameAngle (({} : CarrierPhases).run before).prev angle) (ht : Turns angle l) (i : Nat) (hi : i < 4) :
    ∃ p q, (({} : CarrierPhases).run before).mixAngle i = some p ∧
      (({} : CarrierPhases).run (before ++ l.map fun x => .step x.2)).mixAngle i = some q ∧
      SameAngle q (p + carrierRatio i * turned l) := by
  have hc := carrierInv_run carrierInv_new hb
  obtain ⟨p, hp⟩ : ∃ p, (({} : CarrierPhases).run before).phases[i]? = some p :=
    ⟨_, List.getElem?_eq_getElem (by rw [hc.length]; exact hi)⟩
  obtain ⟨q, hq, hs⟩ := ratio_from hc hstart ht i p hp
  refine ⟨p, q, hp, ?_, hs⟩
  rw [carrier_run_append]
  exact hq

/-- **C91** from the start of the program: the carrier of stream `i` stands at `carrierRatio i` times the angle of the
oscillator, however many turns that makes. -/
theorem C91_from_start (l : List (Rat × Rat)) (ht : Turns 0 l) (i : Nat) (hi : i < 4) :
    ∃ q, (({} : CarrierPhases).run (l.map fun x => .step x.2)).mixAngle i = some q ∧
      SameAngle q (carrierRatio i * turned l) := by
  obtain ⟨p, q, hp, hq, hs⟩ := C91_ratio [] (fun _ h => nomatch h) 0 l (sameAngle_refl _) ht i hi
  have h0 : p = 0 := by
    match i, hi with
    | 0, _ | 1, _ | 2, _ | 3, _ => exact (Option.some.inj hp).symm
  subst h0
  refine ⟨q, hq, ?_⟩
  have e : 0 + carrierRatio i * turned l = carrierRatio i * turned l := by grind
  rw [← e]
  exact hs

/-- **C91**: The four angles exist and stay within half a turn of zero, whatever liquid-dsp reports, however long the program runs, so
they do not lose precision with time. -/
theorem C91_range (calls : List NcoCall) (h : Reported calls) :
    (∀ i, i < 4 → ∃ p, (({} : CarrierPhases).run calls).mixAngle i = some p ∧ -1 ≤ p ∧ p ≤ 1) ∧
      ∀ i, 4 ≤ i → (({} : CarrierPhases).run calls).mixAngle i = none := by
  have hc := carrierInv_run carrierInv_new h
  constructor
  · intro i hi
    obtain ⟨p, hp⟩ : ∃ p, (({} : CarrierPhases).run calls).phases[i]? = some p :=
      ⟨_, List.getElem?_eq_getElem (by rw [hc.length]; exact hi)⟩
    exact ⟨p, hp, hc.range i p hp⟩
  · intro i hi
    exact List.getElem?_eq_none (by rw [hc.length]; exact hi)

/-- **C91**: After a step, whatever came before (also resets): the carrier of stream 0 is the oscillator of liquid-dsp. -/
theorem C91_first (calls : List NcoCall) (h : Reported calls) (now : Rat) (h1 : 0 ≤ now) (h2 : now < 2) :
    ∃ p, (({} : CarrierPhases).run (calls ++ [.step now])).mixAngle 0 = some p ∧ SameAngle p now := by
  have hc := carrierInv_step (carrierInv_run carrierInv_new h) h1 h2
  obtain ⟨p, hp⟩ : ∃ p, ((({} : CarrierPhases).run calls).step now).phases[0]? = some p :=
    ⟨_, List.getElem?_eq_getElem (by rw [hc.length]; omega)⟩
  refine ⟨p, ?_, hc.first p hp⟩
  rw [carrier_run_append]
  exact hp

/-- A reset is not a new start for the other streams: the oscillator of liquid-dsp stands at zero again, but `phases_` and
`prev_f0_phase_` are kept. Three steps at 57 kHz (a whole turn), a reset, and another step: the carrier of stream 1 then stands
at -8/9 of a half turn instead of 7/6 · 2/3. -/
theorem C91_no_new_start : ¬ ∀ (before : List NcoCall), Reported before → ∀ (l : List (Rat × Rat)), Turns 0 l →
    ∀ i, i < 4 → ∃ q, (({} : CarrierPhases).run (before ++ .reset :: l.map fun x => .step x.2)).mixAngle i = some q ∧
      SameAngle q (carrierRatio i * turned l) := by
  intro h
  obtain ⟨q, hq, hs⟩ := h [.step (2 / 3), .step (4 / 3), .step 0] (by
    intro now hm
    simp only [List.mem_cons, NcoCall.step.injEq, List.not_mem_nil, or_false] at hm
    rcases hm with rfl | rfl | rfl <;> constructor <;> decide +kernel) [(2 / 3, 2 / 3)]
    ⟨by decide +kernel, by decide +kernel, by decide +kernel, by decide +kernel, ⟨0, by decide +kernel⟩, trivial⟩ 1 (by omega)
  have e : (({} : CarrierPhases).run ([.step (2 / 3), .step (4 / 3), .step 0] ++ .reset ::
      [((2 : Rat) / 3, (2 : Rat) / 3)].map fun x => .step x.2)).mixAngle 1 = some (-8 / 9) := by decide +kernel
  rw [e] at hq
  have hq' := Option.some.inj hq
  subst hq'
  exact not_sameAngle (by decide +kernel) (by decide +kernel) (sameAngle_symm hs)

/-- The oscillator at 57 kHz, a third of the sample rate: a third of a turn per sample. -/
def demoTurns : List (Rat × Rat) := [(2 / 3, 2 / 3), (2 / 3, 4 / 3), (2 / 3, 0), (3 / 5, 3 / 5)]

theorem demoTurns_ok : Turns 0 demoTurns := by
  simp only [demoTurns, Turns, and_true]
  refine ⟨by decide +kernel, by decide +kernel, by decide +kernel, by decide +kernel, ⟨0, by decide +kernel⟩,
    by decide +kernel, by decide +kernel, by decide +kernel, by decide +kernel, ⟨0, by decide +kernel⟩,
    by decide +kernel, by decide +kernel, by decide +kernel, by decide +kernel, ⟨-1, by decide +kernel⟩,
    by decide +kernel, by decide +kernel, by decide +kernel, by decide +kernel, ⟨-1, by decide +kernel⟩⟩

/-- After these samples the carrier of stream 1 stands at 31/30, that is -29/30 of a half turn; it has turned by 7/6 · 13/5. -/
example : (({} : CarrierPhases).run (demoTurns.map fun x => .step x.2)).mixAngle 1 = some (-29 / 30) ∧
    carrierRatio 1 * turned demoTurns = -29 / 30 + 2 * 2 := by decide +kernel

example : ∃ q, (({} : CarrierPhases).run (demoTurns.map fun x => .step x.2)).mixAngle 3 = some q ∧
    SameAngle q (carrierRatio 3 * turned demoTurns) := C91_from_start demoTurns demoTurns_ok 3 (by omega)

/-- Steps, a reset and a step: the carrier of stream 0 is where the oscillator is. -/
example : ∃ p, (({} : CarrierPhases).run ([.step (2 / 3), .step (4 / 3), .reset] ++ [.step (2 / 3)])).mixAngle 0 = some p ∧
    SameAngle p (2 / 3) :=
  C91_first _ (by
    intro now hm
    simp only [List.mem_cons, NcoCall.step.injEq, List.not_mem_nil, or_false, reduceCtorEq] at hm
    rcases hm with rfl | rfl <;> constructor <;> decide +kernel) _ (by decide +kernel) (by decide +kernel)

end Redsea
