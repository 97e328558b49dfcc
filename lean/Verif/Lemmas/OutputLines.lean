import Verif.Lemmas.JsonLines
import Verif.Model.Output

/-
Every line of the program is an error report or an object without repeated names, for every kind of input.
-/

namespace Redsea

/-- A channel that has only printed such lines. -/
def FineHistory (o : Options) (c : Channel) (tr : List Trace) : Prop :=
  (∃ w, IdInv o w tr c) ∧ ∀ l ∈ printedLines tr, l.Fine

section
variable {env : Env} (hk : env.tmc.KeysOk) {o : Options} (ho : o.outputType ≠ .hex)
include hk ho

theorem fineInv : ChannelInv env fun tr c => FineHistory o c tr := by
  refine ⟨?_, ?_, ?_⟩
  · rintro tr c c' ⟨⟨w, i⟩, hl⟩ q
    exact ⟨⟨w, (idInv hk o w).quiet tr c c' i q⟩, hl⟩
  · rintro tr c g s c' h ⟨⟨w, i⟩, hl⟩ he
    refine ⟨⟨w, (idInv hk o w).handle tr c g s c' h i he⟩, ?_⟩
    intro l hm
    unfold printedLines at hm
    rw [List.filterMap_append, List.mem_append] at hm
    rcases hm with hm | hm
    · exact hl l hm
    · obtain ⟨t, ht, hm⟩ := List.mem_filterMap.mp hm
      rw [List.mem_singleton.mp ht] at hm
      exact handle_fine hk i he ho l hm
  · rintro tr c ⟨⟨w, i⟩, hl⟩
    refine ⟨⟨w, (idInv hk o w).reset tr c i⟩, ?_⟩
    intro l hm
    unfold printedLines at hm
    rw [List.filterMap_append, List.mem_append] at hm
    rcases hm with hm | hm
    · exact hl l hm
    · simp at hm

omit hk ho in
theorem new_fine (o : Options) (w : Nat) : FineHistory o (Channel.new o w) [] :=
  ⟨⟨w, channel_new_good o w, rfl, rfl, rfl, rfl, (by intro p hp; cases hp), (by intro _ hh; cases hh), rfl, rfl⟩,
    by intro l hl; cases hl⟩

variable {S C : Type} (ar : Arith S) (L : Liquid S C)

theorem streamTurn_fine {delay : Nat → Int} {time : Int} (bits : List (List Bool)) {n : Nat} {m m' : MpxChannel L}
    {tr0 tr : List Trace} (h : FineHistory o m.channel tr0)
    (he : streamTurn L env delay time n m bits = some (m', tr)) : FineHistory o m'.channel (tr0 ++ tr) := by
  induction bits generalizing n m tr0 tr with
  | nil =>
    cases he
    rw [List.append_nil]
    exact h
  | cons b rest ih =>
    rw [streamTurn] at he
    obtain ⟨r, h1, he⟩ := Option.bind_eq_some_iff.mp he
    obtain ⟨reset, -, he⟩ := Option.bind_eq_some_iff.mp he
    obtain ⟨q, h2, he⟩ := Option.bind_eq_some_iff.mp he
    cases he
    have f1 := inv_processBits (fineInv hk ho) b h h1
    rw [List.append_assoc, ← List.append_assoc]
    cases reset with
    | false => exact ih (m := ⟨m.subcarriers, r.1⟩) f1 h2
    | true =>
      rw [if_pos rfl, ← List.append_assoc]
      exact ih (m := ⟨m.subcarriers.reset L, r.1.resetPI⟩) ((fineInv hk ho).reset _ _ f1) h2

omit hk ho in
theorem lines_right {tr tr' : List Trace} (h : ∀ l ∈ printedLines (tr ++ tr'), l.Fine) : ∀ l ∈ printedLines tr', l.Fine := by
  intro l hl
  refine h l ?_
  unfold printedLines
  rw [List.filterMap_append]
  exact List.mem_append_right _ hl

/-- All channels have only printed such lines. -/
def AllFine {S C : Type} {L : Liquid S C} (o : Options) (ms : List (MpxChannel L)) : Prop :=
  ∀ m ∈ ms, ∃ tr, FineHistory o m.channel tr

theorem channelsTurn_fine {delay : Nat → Int} {num : Nat} {time : Int} {reader : MPXReader S} (ms : List (MpxChannel L))
    {k : Nat} {ms' : List (MpxChannel L)} {tr : List (Nat × Trace)} (h : AllFine o ms)
    (he : channelsTurn ar L env delay num time reader k ms = some (ms', tr)) :
    AllFine o ms' ∧ ∀ l ∈ printedLines (tr.map (·.2)), l.Fine := by
  induction ms generalizing k ms' tr with
  | nil =>
    cases he
    exact ⟨(by intro m hm; cases hm), (by intro l hl; cases hl)⟩
  | cons m ms ih =>
    rw [channelsTurn] at he
    obtain ⟨chunk, -, he⟩ := Option.bind_eq_some_iff.mp he
    obtain ⟨r, h1, he⟩ := Option.bind_eq_some_iff.mp he
    obtain ⟨rs, h2, he⟩ := Option.bind_eq_some_iff.mp he
    cases he
    obtain ⟨i1, i2⟩ := ih (fun m hm => h m (List.mem_cons_of_mem _ hm)) h2
    obtain ⟨tr0, h0⟩ := h m List.mem_cons_self
    unfold channelTurn at h1
    obtain ⟨s, -, h1⟩ := Option.bind_eq_some_iff.mp h1
    have f := streamTurn_fine hk ho L _ (m := ⟨s.1, m.channel⟩) h0 h1
    refine ⟨?_, ?_⟩
    · intro x hx
      rcases List.mem_cons.mp hx with rfl | hx
      · exact ⟨_, f⟩
      · exact i1 x hx
    · intro l hl
      unfold printedLines at hl
      rw [List.map_append, List.filterMap_append, List.mem_append] at hl
      rcases hl with hl | hl
      · rw [List.map_map, show ((fun x : Nat × Trace => x.2) ∘ fun t => (k, t)) = id from rfl, List.map_id] at hl
        exact lines_right f.2 l hl
      · exact i2 l hl

theorem mpxLoop_fine {delay : Nat → Int} {num : Nat} {clock : Nat → Int} (fuel : Nat) {reader : MPXReader S}
    {ms ms' : List (MpxChannel L)} {tr : List (Nat × Trace)} (h : AllFine o ms)
    (he : mpxLoop ar L env delay num clock fuel reader ms = some (ms', tr)) :
    AllFine o ms' ∧ ∀ l ∈ printedLines (tr.map (·.2)), l.Fine := by
  induction fuel generalizing reader ms ms' tr with
  | zero => cases he
  | succ fuel ih =>
    rw [mpxLoop] at he
    split at he
    · cases he
      exact ⟨h, by intro l hl; cases hl⟩
    · obtain ⟨r, h1, he⟩ := Option.bind_eq_some_iff.mp he
      obtain ⟨rs, h2, he⟩ := Option.bind_eq_some_iff.mp he
      cases he
      obtain ⟨f1, f2⟩ := channelsTurn_fine hk ho ar L ms h h1
      obtain ⟨g1, g2⟩ := ih f1 h2
      refine ⟨g1, ?_⟩
      intro l hl
      unfold printedLines at hl
      rw [List.map_append, List.filterMap_append, List.mem_append] at hl
      exact hl.elim (f2 l) (g2 l)

theorem flushChannels_fine {now : Nat → Nat → Int} (ms : List (MpxChannel L)) {k : Nat} {tr : List (Nat × Trace)}
    (h : AllFine o ms) (he : flushChannels L env now k ms = some tr) : ∀ l ∈ printedLines (tr.map (·.2)), l.Fine := by
  induction ms generalizing k tr with
  | nil =>
    cases he
    intro l hl
    cases hl
  | cons m ms ih =>
    rw [flushChannels] at he
    obtain ⟨r, h1, he⟩ := Option.bind_eq_some_iff.mp he
    obtain ⟨rs, h2, he⟩ := Option.bind_eq_some_iff.mp he
    cases he
    obtain ⟨tr0, h0⟩ := h m List.mem_cons_self
    have f := inv_flush (fineInv hk ho) _ h0 h1
    intro l hl
    unfold printedLines at hl
    rw [List.map_append, List.filterMap_append, List.mem_append] at hl
    rcases hl with hl | hl
    · rw [List.map_map, show ((fun x : Nat × Trace => x.2) ∘ fun h => (k, Trace.handled h)) = Trace.handled from rfl] at hl
      exact lines_right f.2 l hl
    · exact ih (fun m hm => h m (List.mem_cons_of_mem _ hm)) h2 l hl

theorem processMPX_fine {delay : Nat → Int} {resampling : Bool} {clock : Nat → Int} {now : Nat → Nat → Int}
    {fuel channels : Nat} {file : List S} {tr : List (Nat × Trace)}
    (he : processMPXInput ar L env delay o resampling clock now fuel channels file = some tr) :
    ∀ l ∈ printedLines (tr.map (·.2)), l.Fine := by
  unfold processMPXInput at he
  obtain ⟨r, h1, he⟩ := Option.bind_eq_some_iff.mp he
  obtain ⟨f, h2, he⟩ := Option.bind_eq_some_iff.mp he
  cases he
  have h0 : AllFine o ((List.range channels).map fun ch =>
      (⟨SubcarrierSet.new ar L resampling, Channel.new o ch⟩ : MpxChannel L)) := by
    intro m hm
    obtain ⟨ch, -, rfl⟩ := List.mem_map.mp hm
    exact ⟨[], new_fine o ch⟩
  obtain ⟨g1, g2⟩ := mpxLoop_fine hk ho ar L _ h0 h1
  intro l hl
  unfold printedLines at hl
  rw [List.map_append, List.filterMap_append, List.mem_append] at hl
  exact hl.elim (g2 l) (flushChannels_fine hk ho L _ g1 h2 l)

end

end Redsea
