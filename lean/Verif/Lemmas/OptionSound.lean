import Verif.Lemmas.OutputOptionsRun
import Verif.Lemmas.Alike

/-
Lemmas for property C89 with sound as the input: the channels of two programs with different options for the output.
-/

namespace Redsea
open _root_.Redsea.Spec

theorem bits_some_iff (env : Env) (hk : env.tmc.KeysOk) (delay : Nat → Int) (t : Int) (n : Nat) (c : Channel) (h : c.Good)
    (bits : List Bool) : (Channel.processBits env delay t n c bits).isSome ↔ (n < 4 ∨ bits = []) := by
  by_cases hn : n < 4
  · obtain ⟨c', r, e, -⟩ := processBits_good env hk delay t n hn bits c h
    rw [e]
    exact ⟨fun _ => .inl hn, fun _ => rfl⟩
  · cases bits with
    | nil => exact ⟨fun _ => .inr rfl, fun _ => rfl⟩
    | cons b bits =>
      rw [Channel.processBits]
      unfold Channel.pushBit
      rw [List.getElem?_eq_none (by rw [h.streams]; omega)]
      exact ⟨fun h => absurd h Bool.false_ne_true, fun h => by
        rcases h with h | h
        · exact absurd h hn
        · cases h⟩

theorem alike_options {o o' : Options} (s : SameReception o o') {env : Env} (hk : env.tmc.KeysOk) {f : Int → Str}
    (hf : o.timeFormat = o'.timeFormat → f = env.formatTime) (delay : Nat → Int) :
    Alike True env (env.clock f) delay delay (OptionTwin o o') (fun t t' => t' = t) (LinesPair o o' env f) where
  nil := .nil
  append := linesPair_append
  streams w := w.streams
  reset w := ⟨w.options, w.options', w.stationOptions, w.station, ⟨w.good.station, w.good.streams, w.good.bler⟩,
    ⟨w.good'.station, w.good'.streams, w.good'.bler⟩, congrArg CachedPI.reset w.cached, w.streams, w.which, w.time, w.bler⟩
  bits := by
    intro c d t t' n l w ht
    rw [ht]
    refine ⟨fun q r hq hr => ?_, fun _ => ?_⟩
    · obtain ⟨w1, hp⟩ := pair_bits s hk hf l w hq hr
      exact ⟨w1, linesPair_handled hp⟩
    · rw [bits_some_iff env hk delay t n c w.good l, bits_some_iff (env.clock f) hk delay t n d w.good' l]
  flush := by
    intro c d now now' w hn
    obtain rfl : now' = now := funext hn
    refine ⟨fun q r hq hr => ?_, fun _ => ?_⟩
    · obtain ⟨w1, hp⟩ := pair_flush s hk hf [1, 2, 3] w hq hr
      exact ⟨w1, linesPair_handled hp⟩
    · unfold Channel.flush
      obtain ⟨_, _, e1, -⟩ := flush_good env hk now' [1, 2, 3] (by decide) c w.good
      obtain ⟨_, _, e2, -⟩ := flush_good (env.clock f) hk now' [1, 2, 3] (by decide) d w.good'
      rw [e1, e2]
      exact Iff.rfl

end Redsea
