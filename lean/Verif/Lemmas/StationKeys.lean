import Verif.Spec.Station
import Verif.Lemmas.ChannelId

/-
Which members of the JSON object each decoder writes.
-/

namespace Redsea

/-- All operations of a decoder's result are on members from a list. -/
def KeysOf (s : List String) (o : Option (Station × List JOp)) : Prop :=
  ∀ r, o = some r → KeysIn s r.2

/-- The operation is on a member from a list. -/
def JOp.On (s : List String) (op : JOp) : Prop := ∃ k, op.key = some k ∧ k ∈ s

theorem keys_nil {s : List String} : KeysIn s [] := by intro op hop; simp at hop

theorem keys_cons {s : List String} {op : JOp} {ops : List JOp} (h : op.On s) (h2 : KeysIn s ops) :
    KeysIn s (op :: ops) := by
  intro o ho
  rcases List.mem_cons.1 ho with rfl | ho
  · exact h
  · exact h2 o ho

theorem keys_append {s : List String} {a b : List JOp} (ha : KeysIn s a) (hb : KeysIn s b) :
    KeysIn s (a ++ b) := by
  intro op hop
  rcases List.mem_append.1 hop with h | h
  · exact ha op h
  · exact hb op h

theorem keys_ite {s : List String} {c : Prop} [Decidable c] {a b : List JOp} (ha : KeysIn s a)
    (hb : KeysIn s b) : KeysIn s (if c then a else b) := by
  split <;> assumption

theorem keys_map {s : List String} {α : Type} {l : List α} {f : α → JOp} (h : ∀ a, (f a).On s) :
    KeysIn s (l.map f) := by
  intro op hop
  obtain ⟨a, -, rfl⟩ := List.mem_map.1 hop
  exact h a

theorem keys_toList {s : List String} {α : Type} {o : Option α} {f : α → JOp} (h : ∀ a, (f a).On s) :
    KeysIn s (o.map f).toList := by
  cases o with
  | none => exact keys_nil
  | some a => exact keys_cons (h a) keys_nil

theorem keys_mono {s t : List String} {a : List JOp} (h : KeysIn s a) (hs : ∀ k ∈ s, k ∈ t) :
    KeysIn t a := by
  intro op hop
  obtain ⟨k, h1, h2⟩ := h op hop
  exact ⟨k, h1, hs k h2⟩

theorem on_set {s : List String} (p : List String) (v : J) (h : ∃ k, p.head? = some k ∧ k ∈ s) :
    (JOp.set p v).On s := h
theorem on_push {s : List String} (p : List String) (v : J) (h : ∃ k, p.head? = some k ∧ k ∈ s) :
    (JOp.push p v).On s := h
theorem on_touch {s : List String} (p : List String) (h : ∃ k, p.head? = some k ∧ k ∈ s) :
    (JOp.touch p).On s := h
theorem on_debug {s : List String} (t : Str) (h : "debug" ∈ s) : (debugOp t).On s := ⟨_, rfl, h⟩

/-- Shows that the listed operations are on the given members. -/
macro "keys_ok" : tactic => `(tactic| (
  try dsimp only
  repeat' first
    | with_reducible exact keys_nil
    | with_reducible refine keys_cons ?_ ?_
    | with_reducible refine keys_append ?_ ?_
    | with_reducible refine keys_ite ?_ ?_
    | (with_reducible refine keys_map ?_; intro _)
    | (with_reducible refine keys_toList ?_; intro _)
    | with_reducible refine on_debug _ ?_
    | with_reducible refine on_set _ _ ⟨_, rfl, ?_⟩
    | with_reducible refine on_push _ _ ⟨_, rfl, ?_⟩
    | with_reducible refine on_touch _ ⟨_, rfl, ?_⟩
    | (show _ ∈ _; simp; done)))

theorem keysOf_some {s : List String} {st : Station} {ops : List JOp} (h : KeysIn s ops) :
    KeysOf s (some (st, ops)) := by
  intro r hr
  cases hr
  exact h

theorem keysOf_bind {s : List String} {α : Type} {x : Option α} {f : α → Option (Station × List JOp)}
    (h : ∀ a, x = some a → KeysOf s (f a)) : KeysOf s (x.bind f) := by
  intro r hr
  obtain ⟨a, ha, hr⟩ := Option.bind_eq_some_iff.1 hr
  exact h a ha r hr

theorem keysOf_ite {s : List String} {c : Prop} [Decidable c] {a b : Option (Station × List JOp)}
    (ha : c → KeysOf s a) (hb : ¬ c → KeysOf s b) : KeysOf s (if c then a else b) := by
  by_cases h : c
  · rw [if_pos h]; exact ha h
  · rw [if_neg h]; exact hb h

/-- The same for decoders that return operations only. -/
def KeysOpt (s : List String) (o : Option (List JOp)) : Prop := ∀ ops, o = some ops → KeysIn s ops

theorem keysOpt_some {s : List String} {ops : List JOp} (h : KeysIn s ops) : KeysOpt s (some ops) := by
  intro r hr
  cases hr
  exact h

theorem keysOpt_bind {s : List String} {α : Type} {x : Option α} {f : α → Option (List JOp)}
    (h : ∀ a, x = some a → KeysOpt s (f a)) : KeysOpt s (x.bind f) := by
  intro r hr
  obtain ⟨a, ha, hr⟩ := Option.bind_eq_some_iff.1 hr
  exact h a ha r hr

theorem keysOpt_ite {s : List String} {c : Prop} [Decidable c] {a b : Option (List JOp)}
    (ha : c → KeysOpt s a) (hb : ¬ c → KeysOpt s b) : KeysOpt s (if c then a else b) := by
  by_cases h : c
  · rw [if_pos h]; exact ha h
  · rw [if_neg h]; exact hb h

theorem keysOf_opt {s : List String} {st : Station} {o : Option (List JOp)} (h : KeysOpt s o) :
    KeysOf s (o.map fun ops => (st, ops)) := by
  intro r hr
  obtain ⟨a, ha, rfl⟩ := Option.map_eq_some_iff.1 hr
  exact h a ha

theorem afOps_keys (out : AfOut) :
    KeysIn ["alt_frequencies_a", "alt_frequencies_b", "partial_alt_frequencies"] (Station.afOps out) := by
  cases out <;> simp only [Station.afOps] <;> keys_ok

theorem decodePs_keys (env : Env) (st : Station) (g : Group) :
    KeysIn ["ps", "partial_ps", "debug"] (st.decodePs env g).2 := by
  unfold Station.decodePs
  split
  · exact keys_nil
  · dsimp only
    refine keys_ite (by keys_ok) (keys_ite (keys_cons ?_ keys_nil) keys_nil)
    cases RDSString.str env.ucs2 _ with
    | none => exact on_debug _ (by simp)
    | some t => exact on_set _ _ ⟨_, rfl, by simp⟩

theorem type0_keys (env : Env) (st : Station) (g : Group) :
    KeysOf ["di", "ta", "is_music", "alt_frequencies_a", "alt_frequencies_b",
      "partial_alt_frequencies", "ps", "partial_ps", "debug"] (st.decodeType0 env g) := by
  unfold Station.decodeType0
  simp only [Option.bind_eq_bind, Option.pure_def]
  refine keysOf_bind fun key _ => keysOf_ite (fun _ => keysOf_bind fun af _ => keysOf_some (by keys_ok))
    fun _ => keysOf_ite (fun _ => keysOf_bind fun r _ => keysOf_some ?_) fun _ => keysOf_some ?_
  · exact keys_append (keys_append (by keys_ok) (keys_mono (afOps_keys _) (by simp)))
      (keys_mono (decodePs_keys _ _ _) (by simp))
  · exact keys_append (by keys_ok) (keys_mono (decodePs_keys _ _ _) (by simp))

theorem pin_keys {s : List String} (p : PinOut) (h1 : "prog_item_number" ∈ s)
    (h2 : "prog_item_started" ∈ s) : KeysIn s (Station.pinOps [] p) :=
  keys_cons ⟨_, rfl, h1⟩ (keys_cons ⟨_, rfl, h2⟩ (keys_cons ⟨_, rfl, h2⟩ keys_nil))

theorem pin_keys_other {s : List String} (p : PinOut) (h1 : "other_network" ∈ s) :
    KeysIn s (Station.pinOps ["other_network"] p) :=
  keys_cons ⟨_, rfl, h1⟩ (keys_cons ⟨_, rfl, h1⟩ (keys_cons ⟨_, rfl, h1⟩ keys_nil))

theorem slowLabel_keys (st : Station) (g : Group) :
    KeysOpt ["country", "tmc_id", "language", "slc_broadcaster_bits", "ews", "debug"]
      (st.slowLabel g) := by
  unfold Station.slowLabel
  simp only [Option.bind_eq_bind, Option.pure_def]
  split
  · exact keysOpt_ite (fun _ => keysOpt_bind fun _ _ => keysOpt_some (by keys_ok))
      fun _ => keysOpt_some keys_nil
  · exact keysOpt_some (by keys_ok)
  · exact keysOpt_some keys_nil
  · exact keysOpt_bind fun _ _ => keysOpt_some (by keys_ok)
  · exact keysOpt_some (by keys_ok)
  · exact keysOpt_some (by keys_ok)
  · exact keysOpt_some (keys_cons (on_debug _ (by simp)) keys_nil)

theorem type1_keys (st : Station) (g : Group) :
    KeysOpt ["prog_item_number", "prog_item_started", "has_linkage", "country", "tmc_id", "language",
      "slc_broadcaster_bits", "ews", "debug"] (st.decodeType1 g) := by
  unfold Station.decodeType1
  simp only [Option.bind_eq_bind, Option.pure_def]
  have hpin : KeysIn ["prog_item_number", "prog_item_started", "has_linkage", "country", "tmc_id",
      "language", "slc_broadcaster_bits", "ews", "debug"] (if g.get .b4 ≠ 0 then
        ((decodePIN (g.get .b4)).map (Station.pinOps [])).getD [debugOp (ascii "invalid PIN")]
        else []) := by
    refine keys_ite ?_ keys_nil
    cases decodePIN (g.get .b4) with
    | none => exact keys_cons (on_debug _ (by simp)) keys_nil
    | some p => exact pin_keys p (by simp) (by simp)
  refine keysOpt_ite (fun _ => keysOpt_some keys_nil) fun _ => keysOpt_ite
    (fun _ => keysOpt_bind fun label hl => keysOpt_some ?_) fun _ => keysOpt_some hpin
  exact keys_append (keys_append hpin (by keys_ok)) (keys_mono (slowLabel_keys st g label hl) (by simp))

theorem rt_keys (env : Env) (out : RTOut) :
    KeysIn ["rt_ab", "radiotext", "partial_radiotext", "debug"] (Station.rtOps env out) := by
  unfold Station.rtOps
  keys_ok

theorem system_keys (s : TMCService) (w : Word) :
    ∀ r, s.receiveSystemGroup w = some r → KeysIn ["tmc"] r.2 := by
  unfold TMCService.receiveSystemGroup
  simp only [Option.bind_eq_bind, Option.pure_def]
  split
  · intro r hr; cases hr; keys_ok
  · intro r hr
    obtain ⟨a, -, hr⟩ := Option.bind_eq_some_iff.1 hr
    cases hr; keys_ok
  · intro r hr
    split at hr
    · split at hr
      · obtain ⟨a, -, hr⟩ := Option.bind_eq_some_iff.1 hr
        cases hr; keys_ok
      · cases hr; keys_ok
    · cases hr; keys_ok
  · intro r hr; cases hr; keys_ok

theorem type3A_keys (st : Station) (g : Group) :
    KeysOf ["open_data_app", "tmc", "debug"] (st.decodeType3A g) := by
  unfold Station.decodeType3A
  simp only [Option.bind_eq_bind, Option.pure_def]
  refine keysOf_ite (fun _ => keysOf_some keys_nil) fun _ => keysOf_ite (fun _ => keysOf_some keys_nil)
    fun _ => keysOf_ite (fun _ => keysOf_some (by keys_ok)) fun _ => keysOf_ite
    (fun _ => keysOf_some (by keys_ok)) fun _ => keysOf_ite (fun _ => keysOf_some (by keys_ok)) fun _ =>
    keysOf_ite (fun _ => keysOf_some (by keys_ok)) fun _ => keysOf_ite
    (fun _ => keysOf_bind fun r hr => keysOf_some ?_) fun _ => keysOf_some (by keys_ok)
  exact keys_append (by keys_ok) (keys_mono (system_keys _ _ r hr) (by simp))

theorem clock_keys (o : ClockOut) : KeysIn ["clock_time", "debug"] (Station.clockOps o) := by
  cases o <;> simp only [Station.clockOps] <;> keys_ok

theorem type10A_keys (env : Env) (st : Station) (g : Group) :
    KeysIn ["pty_name"] (st.decodeType10A env g).2 := by
  unfold Station.decodeType10A
  split
  · exact keys_nil
  · keys_ok

theorem eonVariant_keys (env : Env) (st : Station) (g : Group) :
    KeysOf ["other_network", "debug"] (st.eonVariant env g) := by
  unfold Station.eonVariant
  simp only [Option.bind_eq_bind, Option.pure_def]
  refine keysOf_ite (fun _ => keysOf_some (by keys_ok)) fun _ => ?_
  refine keysOf_ite (fun _ => keysOf_bind fun l _ => keysOf_bind fun l2 _ => ?_) fun _ => ?_
  · exact keysOf_ite (fun _ => keysOf_bind fun raw _ => keysOf_some (by keys_ok))
      fun _ => keysOf_some (by keys_ok)
  refine keysOf_ite (fun _ => keysOf_some (by keys_ok)) fun _ => ?_
  refine keysOf_ite (fun _ => keysOf_some (by keys_ok)) fun _ => ?_
  refine keysOf_ite (fun _ => keysOf_bind fun p _ => keysOf_some (by keys_ok)) fun _ => ?_
  refine keysOf_ite (fun _ => keysOf_some (keys_ite ?_ keys_nil)) fun _ => ?_
  · cases decodePIN (g.get .b3) with
    | none => exact keys_nil
    | some p => exact pin_keys_other p (by simp)
  refine keysOf_ite (fun _ => keysOf_some (by keys_ok)) fun _ => ?_
  exact keysOf_some (by keys_ok)

theorem type14_keys (env : Env) (st : Station) (g : Group) :
    KeysOf ["other_network", "debug"] (st.decodeType14 env g) := by
  unfold Station.decodeType14
  simp only [Option.bind_eq_bind, Option.pure_def]
  refine keysOf_ite (fun _ => keysOf_some keys_nil) fun _ => keysOf_ite (fun _ => keysOf_some (by keys_ok))
    fun _ => keysOf_ite (fun _ => keysOf_some (by keys_ok)) fun _ => keysOf_bind fun r hr => keysOf_some ?_
  exact keys_append (by keys_ok) (eonVariant_keys env st g r hr)

theorem type15A_keys (env : Env) (st : Station) (g : Group) :
    KeysIn ["long_ps", "partial_long_ps", "debug"] (st.decodeType15A env g).2 := by
  unfold Station.decodeType15A
  dsimp only
  refine keys_ite (by keys_ok) (keys_ite (keys_cons ?_ keys_nil) keys_nil)
  cases RDSString.str env.ucs2 _ with
  | none => exact on_debug _ (by simp)
  | some t => exact on_set _ _ ⟨_, rfl, by simp⟩

theorem type15B_keys (g : Group) : KeysOpt ["di", "ta", "is_music"] (Station.decodeType15B g) := by
  unfold Station.decodeType15B
  simp only [Option.bind_eq_bind, Option.pure_def]
  exact keysOpt_bind fun _ _ => keysOpt_some (by keys_ok)

theorem type5_keys (env : Env) (st : Station) (g : Group) :
    KeysOf ["transparent_data"] (st.decodeType5 env g) := by
  unfold Station.decodeType5
  simp only [Option.bind_eq_bind, Option.pure_def]
  refine keysOf_ite (fun _ => keysOf_ite (fun _ => keysOf_bind fun f hf => keysOf_bind fun _ _ =>
    keysOf_some ?_) fun _ => keysOf_bind fun f hf => keysOf_bind fun _ _ => keysOf_some ?_) fun _ =>
    keysOf_bind fun _ _ => keysOf_some (by keys_ok)
  · refine keys_append (keys_append (by keys_ok) ?_) (by keys_ok)
    obtain ⟨t, -, rfl⟩ := Option.map_eq_some_iff.1 hf
    keys_ok
  · refine keys_append (keys_append (by keys_ok) ?_) (by keys_ok)
    have := Option.some.inj hf
    rw [← this]; exact keys_nil

theorem type6_keys (g : Group) : KeysIn ["in_house_data"] (Station.decodeType6 g) := by
  unfold Station.decodeType6
  keys_ok

theorem rtPlusTag_keys (key : String) (text : Str) (ct start len : Nat) :
    KeysOpt [key] (Station.rtPlusTagOps key text ct start len) := by
  unfold Station.rtPlusTagOps
  simp only [Option.bind_eq_bind, Option.pure_def]
  exact keysOpt_ite (fun _ => keysOpt_bind fun _ _ => keysOpt_some (by keys_ok))
    fun _ => keysOpt_some keys_nil

theorem rtPlus_keys (key : String) (rt : RadioText) (g : Group) :
    ∀ r, Station.parseRadioTextPlus key rt g = some r → KeysIn [key] r.2 := by
  unfold Station.parseRadioTextPlus
  simp only [Option.bind_eq_bind, Option.pure_def]
  generalize (if (getBool (g.get .b2) 4 != rt.plus.toggle || getBool (g.get .b2) 3 != rt.plus.itemRunning) =
    true then _ else rt) = rt'
  intro r hr
  split at hr <;> split at hr <;>
  · obtain ⟨t1, h1, hr⟩ := Option.bind_eq_some_iff.1 hr
    obtain ⟨t2, h2, hr⟩ := Option.bind_eq_some_iff.1 hr
    cases hr
    refine keys_append (keys_append (by keys_ok) ?_) ?_
    · first
        | exact rtPlusTag_keys _ _ _ _ _ _ h1
        | (rw [← Option.some.inj h1]; exact keys_nil)
    · first
        | exact rtPlusTag_keys _ _ _ _ _ _ h2
        | (rw [← Option.some.inj h2]; exact keys_nil)

theorem ert_keys (env : Env) (rt : RadioText) (g : Group) :
    KeysIn ["enhanced_radiotext"] (Station.parseEnhancedRT env rt g).2 := by
  unfold Station.parseEnhancedRT
  keys_ok

theorem dab_keys (g : Group) : KeysOpt ["dab", "debug"] (Station.parseDAB g) := by
  unfold Station.parseDAB
  simp only [Option.bind_eq_bind, Option.pure_def]
  exact keysOpt_ite (fun _ => keysOpt_some (by keys_ok)) fun _ => keysOpt_bind fun _ _ =>
    keysOpt_some (by keys_ok)

theorem location_keys (db : LocationDatabase) (ltn : Nat) (l : Option Word) (e : Int) :
    KeysIn ["tmc"] (decodeLocation db ltn l e) := by
  unfold decodeLocation
  refine keys_ite keys_nil ?_
  split
  · exact keys_nil
  split
  · exact keys_nil
  dsimp only
  refine keys_append (keys_append (by keys_ok) ?_) ?_
  · split
    · keys_ok
    · exact keys_nil
  · split
    · exact keys_nil
    · keys_ok

theorem printMessage_keys (env : TmcEnv) (s : TMCService) (m : Message) :
    KeysOpt ["tmc"] (s.printMessage env m) := by
  unfold TMCService.printMessage
  simp only [Option.bind_eq_bind, Option.pure_def]
  have key : ∀ m' : Message, KeysOpt ["tmc"] (match m'.json env with
      | none => some []
      | some members => some (JOp.set ["tmc", "message"] (.obj members) ::
          decodeLocation (env.locations s.ltn) s.ltn (if m'.isEncrypted then none else some m'.location)
            (if m'.negative then -(m'.extent : Int) else m'.extent))) := by
    intro m'
    split
    · exact keysOpt_some keys_nil
    · exact keysOpt_some (keys_cons ⟨_, rfl, by simp⟩ (location_keys _ _ _ _))
  refine keysOpt_ite (fun _ => ?_) fun _ => keysOpt_bind fun m' _ => key m'
  split
  · exact keysOpt_bind fun m' _ => key m'
  · exact keysOpt_bind fun m' _ => key m'

theorem tuning_keys (env : TmcEnv) (s : TMCService) (x y z : Word) :
    ∀ r, s.tuningInformation env x y z = some r → KeysIn ["tmc", "debug"] r.2 := by
  unfold TMCService.tuningInformation
  simp only [Option.bind_eq_bind, Option.pure_def]
  intro r hr
  split at hr
  · obtain ⟨a, -, hr⟩ := Option.bind_eq_some_iff.1 hr
    obtain ⟨b, -, hr⟩ := Option.bind_eq_some_iff.1 hr
    obtain ⟨c, -, hr⟩ := Option.bind_eq_some_iff.1 hr
    cases hr; keys_ok
  · split at hr <;> (cases hr; keys_ok)
  · cases hr; keys_ok
  · split at hr <;> (cases hr; keys_ok)

theorem user_keys (env : TmcEnv) (s : TMCService) (x y z : Word) :
    ∀ r, s.receiveUserGroup env x y z = some r → KeysIn ["tmc", "debug"] r.2 := by
  unfold TMCService.receiveUserGroup
  simp only [Option.bind_eq_bind, Option.pure_def]
  intro r hr
  split at hr
  · cases hr; keys_ok
  split at hr
  · cases hr; keys_ok
  split at hr
  · exact tuning_keys env s x y z r hr
  split at hr
  · cases hr; keys_ok
  split at hr
  · obtain ⟨a, ha, hr⟩ := Option.bind_eq_some_iff.1 hr
    cases hr
    exact keys_mono (printMessage_keys env _ _ a ha) (by simp)
  generalize (if getBits 3 x 0 ≠ s.message.continuityIndex then _ else s.message : Message) = m at hr
  split at hr
  · obtain ⟨a, ha, hr⟩ := Option.bind_eq_some_iff.1 hr
    cases hr
    exact keys_mono (printMessage_keys env _ _ a ha) (by simp)
  · cases hr; keys_ok

theorem tmc_keys (env : Env) (st : Station) (g : Group) :
    KeysOf ["tmc", "debug"] (st.decodeTmc env g) := by
  unfold Station.decodeTmc
  simp only [Option.bind_eq_bind, Option.pure_def]
  exact keysOf_ite (fun _ => keysOf_bind fun r hr => keysOf_some (user_keys _ _ _ _ _ r hr))
    fun _ => keysOf_some keys_nil

theorem app_keys (env : Env) (st : Station) (g : Group) (app : Word) :
    KeysOf (appMembers app) (st.decodeODAApp env g app) := by
  unfold Station.decodeODAApp appMembers
  by_cases h1 : app = 0x0093
  · rw [if_pos h1, if_pos h1]; exact keysOf_opt (dab_keys g)
  rw [if_neg h1, if_neg h1]
  by_cases h2 : app = 0x4BD7
  · rw [if_pos h2, if_pos h2]
    intro r hr
    obtain ⟨a, ha, rfl⟩ := Option.map_eq_some_iff.1 hr
    exact rtPlus_keys _ _ _ a ha
  rw [if_neg h2, if_neg h2]
  by_cases h3 : app = 0x4BD8
  · rw [if_pos h3, if_pos h3]
    intro r hr
    obtain ⟨a, ha, rfl⟩ := Option.map_eq_some_iff.1 hr
    exact rtPlus_keys _ _ _ a ha
  rw [if_neg h3, if_neg h3]
  by_cases h4 : app = 0x6552
  · rw [if_pos h4, if_pos h4]; exact keysOf_some (ert_keys _ _ _)
  rw [if_neg h4, if_neg h4]
  by_cases h5 : app = 0xCD46
  · rw [if_pos h5, if_pos (.inl h5)]; exact tmc_keys env st g
  by_cases h6 : app = 0xCD47
  · rw [if_neg h5, if_pos h6, if_pos (.inr h6)]; exact tmc_keys env st g
  rw [if_neg h5, if_neg h6, if_neg (fun h => h.elim h5 h6)]
  exact keysOf_some (by keys_ok)

theorem type_cases (t : GroupType) (n : Nat) (v : Version) : t = ⟨n, v⟩ ↔ t.number = n ∧ t.version = v := by
  obtain ⟨a, b⟩ := t
  simp

/-- The members written by the decoder that is chosen. -/
theorem dispatch_keys (env : Env) (st : Station) (g : Group) (hv : g.type.version ≠ .C) :
    KeysOf (if g.type ∈ fixedTypes then fixedMembers g.type
      else match st.odaForGroup g.type with
        | some a => appMembers a
        | none => primaryMembers g.type) (st.dispatch env g) := by
  obtain ⟨n, v, hn⟩ : ∃ n v, g.type = ⟨n, v⟩ := ⟨_, _, rfl⟩
  have hAB : v = .A ∨ v = .B := by
    rw [hn] at hv
    cases v
    · exact .inl rfl
    · exact .inr rfl
    · exact absurd rfl hv
  unfold Station.dispatch
  simp only [hn]
  rw [hn] at hv
  rw [if_neg hv]
  by_cases hf : (⟨n, v⟩ : GroupType) ∈ fixedTypes
  · rw [if_pos hf]
    unfold fixedMembers
    dsimp only
    by_cases h0 : n = 0
    · rw [if_pos h0, if_pos h0]; exact type0_keys env st g
    rw [if_neg h0, if_neg h0]
    by_cases h1 : n = 1
    · rw [if_pos h1, if_pos h1]; exact keysOf_opt (type1_keys st g)
    rw [if_neg h1, if_neg h1]
    by_cases h2 : n = 2
    · rw [if_pos h2, if_pos h2]; exact keysOf_some (rt_keys env _)
    rw [if_neg h2, if_neg h2]
    simp only [fixedTypes, List.mem_cons, GroupType.mk.injEq, h0, h1, h2, false_and, false_or,
      List.not_mem_nil, or_false] at hf
    rcases hf with ⟨rfl, rfl⟩ | ⟨rfl, rfl⟩ | ⟨rfl, rfl⟩ | ⟨rfl, rfl⟩ | ⟨rfl, rfl⟩ | ⟨rfl, rfl⟩
    · exact type3A_keys st g
    · exact keysOf_some (clock_keys _)
    · exact keysOf_some (type10A_keys env st g)
    · exact type14_keys env st g
    · exact type14_keys env st g
    · exact keysOf_opt (type15B_keys g)
  · rw [if_neg hf]
    have hf' : n ≠ 0 ∧ n ≠ 1 ∧ n ≠ 2 ∧ ¬ (n = 3 ∧ v = .A) ∧ ¬ (n = 4 ∧ v = .A) ∧ ¬ (n = 10 ∧ v = .A) ∧
        n ≠ 14 ∧ ¬ (n = 15 ∧ v = .B) := by
      refine ⟨?_, ?_, ?_, ?_, ?_, ?_, ?_, ?_⟩ <;> intro h <;> apply hf
      · rcases hAB with rfl | rfl <;> simp [fixedTypes, h]
      · rcases hAB with rfl | rfl <;> simp [fixedTypes, h]
      · rcases hAB with rfl | rfl <;> simp [fixedTypes, h]
      · simp [fixedTypes, h.1, h.2]
      · simp [fixedTypes, h.1, h.2]
      · simp [fixedTypes, h.1, h.2]
      · rcases hAB with rfl | rfl <;> simp [fixedTypes, h]
      · simp [fixedTypes, h.1, h.2]
    obtain ⟨h0, h1, h2, h3, h4, h10, h14, h15⟩ := hf'
    rw [if_neg h0, if_neg h1, if_neg h2, if_neg h3, if_neg h4, if_neg h10, if_neg h14, if_neg h15]
    cases ho : st.odaForGroup ⟨n, v⟩ with
    | some app =>
      simp only [Option.isSome_some, if_true]
      unfold Station.decodeODAGroup
      rw [hn, ho]
      exact app_keys env st g app
    | none =>
      simp only [Option.isSome_none, Bool.false_eq_true, if_false]
      unfold primaryMembers
      simp only [GroupType.mk.injEq]
      by_cases h5 : n = 5
      · rw [if_pos h5, if_pos h5]; exact type5_keys env st g
      rw [if_neg h5, if_neg h5]
      by_cases h6 : n = 6
      · rw [if_pos h6, if_pos h6]; exact keysOf_some (type6_keys g)
      rw [if_neg h6, if_neg h6]
      by_cases h7 : n = 7 ∧ v = .A
      · rw [if_pos h7, if_pos h7]; exact keysOf_some (by unfold Station.todoOps; keys_ok)
      rw [if_neg h7, if_neg h7]
      by_cases h8 : n = 8 ∧ v = .A
      · rw [if_pos h8, if_pos h8]; exact tmc_keys env st g
      rw [if_neg h8, if_neg h8]
      by_cases h9 : n = 9 ∧ v = .A
      · rw [if_pos h9, if_pos h9]; exact keysOf_some (by unfold Station.todoOps; keys_ok)
      rw [if_neg h9, if_neg h9]
      by_cases hA : n = 15 ∧ v = .A
      · rw [if_pos hA, if_pos hA]; exact keysOf_some (type15A_keys env st g)
      rw [if_neg hA, if_neg hA]
      unfold Station.decodeODAGroup
      rw [hn, ho]
      exact keysOf_some (by keys_ok)

end Redsea
