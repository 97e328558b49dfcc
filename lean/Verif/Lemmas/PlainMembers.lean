import Verif.Lemmas.OutputOptions
import Verif.Lemmas.StationKeys

/-
Which members are written about a group without `-p`.
-/

namespace Redsea

/-- The members that are written about a group without `-p`. -/
def plainMembers : List String := [
  "di", "ta", "is_music", "alt_frequencies_a", "alt_frequencies_b", "ps", "debug",
  "prog_item_number", "prog_item_started", "has_linkage", "country", "tmc_id",
  "language", "slc_broadcaster_bits", "ews", "radiotext", "open_data_app", "tmc", "clock_time", "pty_name", "other_network",
  "dab", "radiotext_plus", "ert_plus", "enhanced_radiotext", "unknown_oda", "transparent_data", "in_house_data", "long_ps", "rft"]

section
variable (env : Env) (st : Station) (g : Group)

theorem plain_C : KeysOf plainMembers (st.decodeC g) := by
  unfold Station.decodeC
  simp only [Option.bind_eq_bind, Option.pure_def]
  refine keysOf_ite (fun _ => keysOf_some keys_nil) fun _ => keysOf_bind fun r _ => ?_
  refine keysOf_ite (fun _ => keysOf_some (by unfold plainMembers; keys_ok)) fun _ => ?_
  refine keysOf_ite (fun _ => keysOf_some ?_) fun _ => ?_
  · unfold plainMembers
    keys_ok
  refine keysOf_ite (fun _ => keysOf_some (by unfold plainMembers; keys_ok)) fun _ => ?_
  refine keysOf_ite (fun _ => ?_) fun _ => keysOf_some (by unfold plainMembers; keys_ok)
  refine keysOf_ite (fun _ => keysOf_some ?_) fun _ => keysOf_some (by unfold plainMembers; keys_ok)
  unfold plainMembers Station.rftInfoOps
  keys_ok

theorem plain_ps (h : st.options.showPartial = false) : KeysIn plainMembers (st.decodePs env g).2 := by
  unfold Station.decodePs
  split
  · exact keys_nil
  · dsimp only
    rw [h]
    refine keys_ite (by unfold plainMembers; keys_ok) keys_nil

theorem plain_af {l : AltFreqList} {w : Word} {r : AltFreqList × AfOut} (h : afReceive false l w = some r) :
    KeysIn plainMembers (Station.afOps r.2) := by
  unfold afReceive at h
  obtain ⟨l1, h1, h⟩ := Option.bind_eq_some_iff.mp h
  obtain ⟨l2, h2, h⟩ := Option.bind_eq_some_iff.mp h
  have key : ∀ q : Option (AltFreqList × AfOut), q = some r → (∀ r raw, q = some r → r.2 ≠ .partialList raw) →
      KeysIn plainMembers (Station.afOps r.2) := by
    intro q hq hn
    have := hn r
    cases hr : r.2 with
    | partialList raw => exact absurd hr (this raw hq)
    | _ => simp only [Station.afOps]; unfold plainMembers; keys_ok
  refine key _ h ?_
  intro r raw hr
  split at hr
  · obtain ⟨l3, -, hr⟩ := Option.bind_eq_some_iff.mp hr
    obtain ⟨isB, -, hr⟩ := Option.bind_eq_some_iff.mp hr
    obtain ⟨out, ho, hr⟩ := Option.bind_eq_some_iff.mp hr
    have := Option.some.inj hr
    rw [← this]
    dsimp only
    unfold afComplete at ho
    repeat' split at ho
    all_goals cases ho
    all_goals simp
  · have := Option.some.inj hr
    rw [← this]
    simp

theorem plain_type0 (h : st.options.showPartial = false) : KeysOf plainMembers (st.decodeType0 env g) := by
  unfold Station.decodeType0
  rw [h]
  simp only [Option.bind_eq_bind, Option.pure_def]
  refine keysOf_bind fun key _ => keysOf_ite (fun _ => keysOf_bind fun af _ => keysOf_some (by unfold plainMembers; keys_ok))
    fun _ => keysOf_ite (fun _ => keysOf_bind fun r hr => keysOf_some ?_) fun _ => keysOf_some ?_
  · exact keys_append (keys_append (by unfold plainMembers; keys_ok) (plain_af hr)) (plain_ps env _ g h)
  · exact keys_append (by unfold plainMembers; keys_ok) (plain_ps env _ g h)

theorem plain_15A (h : st.options.showPartial = false) : KeysIn plainMembers (st.decodeType15A env g).2 := by
  unfold Station.decodeType15A
  dsimp only
  rw [h]
  exact keys_ite (by unfold plainMembers; keys_ok) keys_nil

theorem plain_rt (he : st.radiotext.text.encoding = .basic) :
    KeysIn plainMembers (Station.rtOps env (decodeType2 env.ucs2 false st.radiotext g).2) := by
  obtain ⟨rt, a, t, s, hts⟩ := type2_shape g env.ucs2 st.radiotext he
  rw [hts]
  unfold Station.rtOps
  dsimp only
  simp only [Bool.false_eq_true, if_false, Option.map_none, Option.toList_none, List.nil_append, List.append_nil]
  cases t <;> unfold plainMembers <;> keys_ok

theorem plain_dispatch (h : st.options.showPartial = false) (he : st.radiotext.text.encoding = .basic) :
    KeysOf plainMembers (st.dispatch env g) := by
  by_cases hC : g.type.version = .C
  · unfold Station.dispatch
    dsimp only
    rw [if_pos hC]
    exact plain_C st g
  by_cases h0 : g.type.number = 0
  · unfold Station.dispatch
    dsimp only
    rw [if_neg hC, if_pos h0]
    exact plain_type0 env st g h
  by_cases h2 : g.type.number = 2
  · unfold Station.dispatch
    dsimp only
    rw [if_neg hC, if_neg h0, if_neg (by omega), if_pos h2, h]
    exact keysOf_some (plain_rt env st g he)
  by_cases h15 : g.type = ⟨15, .A⟩ ∧ st.odaForGroup g.type = none
  · unfold Station.dispatch
    dsimp only
    rw [h15.2]
    rw [h15.1]
    simp only [reduceCtorEq, if_false, Nat.reduceEqDiff, false_and, and_false, Option.isSome_none, Bool.false_eq_true,
      and_self, if_true, OfNat.ofNat_ne_zero]
    exact keysOf_some (plain_15A env st g h)
  have hd := dispatch_keys env st g hC
  intro q hq
  refine keys_mono (hd q hq) ?_
  intro k hk
  split at hk
  · unfold fixedMembers at hk
    rw [if_neg h0, if_neg (c := g.type.number = 2) h2] at hk
    repeat' split at hk
    all_goals
      revert k
      unfold plainMembers
      simp
  · cases ho : st.odaForGroup g.type with
    | some a =>
      rw [ho] at hk
      dsimp only at hk
      unfold appMembers at hk
      repeat' split at hk
      all_goals
        revert k
        unfold plainMembers
        simp
    | none =>
      rw [ho] at hk
      dsimp only at hk
      unfold primaryMembers at hk
      rw [if_neg (c := g.type = ⟨15, .A⟩) (fun e => h15 ⟨e, ho⟩)] at hk
      repeat' split at hk
      all_goals
        revert k
        unfold plainMembers
        simp
end
end Redsea
