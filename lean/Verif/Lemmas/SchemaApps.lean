import Verif.Lemmas.SchemaOps

/-
What the decoders of applications, traffic messages, and files write fits the schema.
-/

namespace Redsea
open _root_.Redsea.Spec

/-! ### RadioText Plus -/

/-- The schema below a member for RadioText Plus. -/
def plusSchema (key : String) : Bool :=
  leadsTo [key, "item_running"] .bool && leadsTo [key, "item_toggle"] (.number 0 1) &&
    leadsToArray [key, "tags"] .object && decide (kindAt [key, "tags", "[]", "content-type"] = some .text) &&
    decide (kindAt [key, "tags", "[]", "data"] = some .text)

theorem stays_tag {key : String} (hk : plusSchema key = true) (text : Str) (ct start len : Nat) :
    StaysOpt (Station.rtPlusTagOps key text ct start len) := by
  unfold plusSchema at hk
  simp only [Bool.and_eq_true, decide_eq_true_eq] at hk
  unfold Station.rtPlusTagOps
  simp only [Option.bind_eq_bind, Option.pure_def]
  refine staysOpt_ite (fun _ => staysOpt_bind fun n _ => staysOpt_some (stays_cons (typed_push hk.1.1.2 fun h => ?_) stays_nil))
    fun _ => staysOpt_some stays_nil
  refine conforms_obj.2 ⟨h, ?_⟩
  intro m hm
  rcases List.mem_cons.1 hm with rfl | hm
  · exact c_text _ hk.1.2
  · rw [List.mem_singleton] at hm
    subst hm
    exact c_text _ hk.2

theorem stays_plus {key : String} (hk : plusSchema key = true) (rt : RadioText) (g : Group) :
    ∀ r, Station.parseRadioTextPlus key rt g = some r → Stays r.2 := by
  have hk' := hk
  unfold plusSchema at hk'
  simp only [Bool.and_eq_true, decide_eq_true_eq] at hk'
  have hops : Stays [JOp.touch [key], .set [key, "item_running"] (.bool (getBool (g.get .b2) 3)),
      .set [key, "item_toggle"] (.nat (if getBool (g.get .b2) 4 then 1 else 0))] := by
    refine stays_touch (stays_cons (t_bool _ hk'.1.1.1.1) (stays_cons (t_nat 1 ?_ hk'.1.1.1.2) stays_nil))
    split <;> omega
  unfold Station.parseRadioTextPlus
  simp only [Option.bind_eq_bind, Option.pure_def]
  generalize (if (getBool (g.get .b2) 4 != rt.plus.toggle || getBool (g.get .b2) 3 != rt.plus.itemRunning) =
    true then _ else rt) = rt'
  intro r hr
  split at hr <;> split at hr <;>
  · obtain ⟨t1, h1, hr⟩ := Option.bind_eq_some_iff.1 hr
    obtain ⟨t2, h2, hr⟩ := Option.bind_eq_some_iff.1 hr
    cases hr
    refine stays_append (stays_append hops ?_) ?_
    · first
        | exact stays_tag hk _ _ _ _ _ h1
        | (rw [← Option.some.inj h1]; exact stays_nil)
    · first
        | exact stays_tag hk _ _ _ _ _ h2
        | (rw [← Option.some.inj h2]; exact stays_nil)

theorem stays_ert (env : Env) (rt : RadioText) (g : Group) : Stays (Station.parseEnhancedRT env rt g).2 := by
  unfold Station.parseEnhancedRT
  stays_ok

/-! ### DAB -/

theorem stays_dab (g : Group) : StaysOpt (Station.parseDAB g) := by
  unfold Station.parseDAB
  simp only [Option.bind_eq_bind, Option.pure_def]
  refine staysOpt_ite (fun _ => staysOpt_some (by stays_ok)) fun _ => staysOpt_bind fun mode hm => staysOpt_some ?_
  refine stays_append (stays_append (stays_cons ?_ (stays_cons ?_ stays_nil)) (by stays_ok)) (by stays_ok)
  · exact typed_set (k := .oneOf _) (by decide +kernel) (c_oneOf (List.mem_of_getElem? hm))
  · exact t_nat 4194288 (by have := getBits2_lt 18 (g.get .b2) (g.get .b3) 0; omega) (by decide +kernel)

/-! ### Traffic messages -/

theorem stays_location (db : LocationDatabase) (ltn : Nat) (l : Option Word) (e : Int) :
    Stays (decodeLocation db ltn l e) := by
  unfold decodeLocation
  refine stays_ite (fun _ => stays_nil) fun _ => ?_
  split
  · exact stays_nil
  split
  · exact stays_nil
  dsimp only
  refine stays_append (stays_append (stays_cons ?_ stays_nil) ?_) ?_
  · refine typed_set (k := .array) (by decide +kernel) fun h => conforms_arr.2 ⟨h, ?_⟩
    intro j hj
    obtain ⟨p, -, rfl⟩ := List.mem_map.1 hj
    refine conforms_obj.2 ⟨by decide +kernel, ?_⟩
    intro m hm
    rcases List.mem_cons.1 hm with rfl | hm
    · exact c_float _ (by dsimp only; decide +kernel)
    · rw [List.mem_singleton] at hm
      subst hm
      exact c_float _ (by dsimp only; decide +kernel)
  · split
    · stays_ok
    · exact stays_nil
  · split
    · exact stays_nil
    · stays_ok

theorem c_list {k : String} (l : List Nat) (h1 : kindAt ["tmc", "message", k] = some .array)
    (h2 : kindAt ["tmc", "message", k, "[]"] = some .whole) :
    ∀ m ∈ Message.listMember k l, Conforms ["tmc", "message", m.1] m.2 := by
  intro m hm
  unfold Message.listMember at hm
  split at hm
  · cases hm
  · rw [List.mem_singleton] at hm
    subst hm
    refine conforms_arr.2 ⟨h1, ?_⟩
    intro j hj
    obtain ⟨n, -, rfl⟩ := List.mem_map.1 hj
    exact c_whole n h2

theorem message_conforms (env : TmcEnv) (m : Message) {ms : List (String × J)} (h : m.json env = some ms) :
    Conforms ["tmc", "message"] (.obj ms) := by
  refine conforms_obj.2 ⟨by decide +kernel, ?_⟩
  unfold Message.json at h
  split at h
  · cases h
  cases h
  intro x hx
  show Conforms ["tmc", "message", x.1] x.2
  simp only [List.mem_append] at hx
  have one : ∀ {α : Type} {o : Option α} {f : α → String × J},
      (∀ a, Conforms ["tmc", "message", (f a).1] (f a).2) → x ∈ (o.map f).toList → Conforms ["tmc", "message", x.1] x.2 := by
    intro α o f hf hx
    cases o with
    | none => cases hx
    | some a =>
      simp only [Option.map_some, Option.toList_some, List.mem_singleton] at hx
      rw [hx]
      exact hf a
  rcases hx with (((((((((((hx | hx) | hx) | hx) | hx) | hx) | hx) | hx) | hx) | hx) | hx) | hx)
  · exact c_list _ (by decide +kernel) (by decide +kernel) x hx
  · exact c_list _ (by decide +kernel) (by decide +kernel) x hx
  · exact one (fun a => c_whole _ (by dsimp only; decide +kernel)) hx
  · split at hx
    · cases hx
    · rw [List.mem_singleton] at hx
      subst hx
      exact c_text _ (by dsimp only; decide +kernel)
  · exact c_list _ (by decide +kernel) (by decide +kernel) x hx
  · exact one (fun a => c_text _ (by dsimp only; decide +kernel)) hx
  · split at hx
    · rw [List.mem_singleton] at hx
      subst hx
      exact c_nat (hi := 65535) (by have := m.encryptedLocation.isLt; omega) (by dsimp only; decide +kernel)
    · cases hx
  · split at hx
    · rw [List.mem_singleton] at hx
      subst hx
      exact c_nat (hi := 65535) (by have := m.location.isLt; omega) (by dsimp only; decide +kernel)
    · cases hx
  · rcases List.mem_cons.1 hx with rfl | hx
    · dsimp only
      split
      · exact c_oneOf (ts := ["both", "single"]) (by simp) (by decide +kernel)
      · exact c_oneOf (ts := ["both", "single"]) (by simp) (by decide +kernel)
    · rw [List.mem_singleton] at hx
      subst hx
      exact c_text _ (by dsimp only; decide +kernel)
  · exact one (fun a => c_text _ (by dsimp only; decide +kernel)) hx
  · exact one (fun a => c_text _ (by dsimp only; decide +kernel)) hx
  · rw [List.mem_singleton] at hx
    subst hx
    dsimp only
    cases m.urgency
    · exact c_oneOf (t := "none") (ts := ["none", "U", "X"]) (by simp) (by decide +kernel)
    · exact c_oneOf (t := "U") (ts := ["none", "U", "X"]) (by simp) (by decide +kernel)
    · exact c_oneOf (t := "X") (ts := ["none", "U", "X"]) (by simp) (by decide +kernel)

theorem stays_printMessage (env : TmcEnv) (s : TMCService) (m : Message) : StaysOpt (s.printMessage env m) := by
  unfold TMCService.printMessage
  simp only [Option.bind_eq_bind, Option.pure_def]
  have key : ∀ m' : Message, StaysOpt (match m'.json env with
      | none => some []
      | some members => some (JOp.set ["tmc", "message"] (.obj members) ::
          decodeLocation (env.locations s.ltn) s.ltn (if m'.isEncrypted then none else some m'.location)
            (if m'.negative then -(m'.extent : Int) else m'.extent))) := by
    intro m'
    split
    · exact staysOpt_some stays_nil
    · rename_i ms hms
      exact staysOpt_some (stays_cons (typed_set (k := .object) (by decide +kernel) fun _ => message_conforms env m' hms)
        (stays_location _ _ _ _))
  refine staysOpt_ite (fun _ => ?_) fun _ => staysOpt_bind fun m' _ => key m'
  split
  · exact staysOpt_bind fun m' _ => key m'
  · exact staysOpt_bind fun m' _ => key m'

theorem stays_tuning (env : TmcEnv) (s : TMCService) (x y z : Word) :
    ∀ r, s.tuningInformation env x y z = some r → Stays r.2 := by
  unfold TMCService.tuningInformation
  simp only [Option.bind_eq_bind, Option.pure_def]
  intro r hr
  split at hr
  · obtain ⟨l1, h1, hr⟩ := Option.bind_eq_some_iff.1 hr
    obtain ⟨l2, h2, hr⟩ := Option.bind_eq_some_iff.1 hr
    obtain ⟨raw, h3, hr⟩ := Option.bind_eq_some_iff.1 hr
    cases hr
    obtain ⟨x, hx, w1⟩ := afWF_insert afWF_new (getUint8 y 8).toNat
    rw [h1] at hx
    cases hx
    obtain ⟨x, hx, w2⟩ := afWF_insert w1 (getUint8 y 0).toNat
    rw [h2] at hx
    cases hx
    exact stays_append (by stays_ok) (stays_map fun f hf => t_push_int (raw_range w2 h3 f hf) (by decide +kernel))
  · split at hr <;> (cases hr; stays_ok)
  · cases hr
    refine stays_append (by stays_ok) (stays_map fun t ht => ?_)
    obtain ⟨s, hs, rfl⟩ := scope_mem _ t ht
    exact typed_push (k := .oneOf _) (by decide +kernel) (c_oneOf hs)
  · split at hr <;> (cases hr; stays_ok)

theorem stays_user (env : TmcEnv) (s : TMCService) (x y z : Word) :
    ∀ r, s.receiveUserGroup env x y z = some r → Stays r.2 := by
  unfold TMCService.receiveUserGroup
  simp only [Option.bind_eq_bind, Option.pure_def]
  intro r hr
  split at hr
  · cases hr; exact stays_nil
  split at hr
  · cases hr; stays_ok
  split at hr
  · exact stays_tuning env s x y z r hr
  split at hr
  · cases hr; exact stays_nil
  split at hr
  · obtain ⟨a, ha, hr⟩ := Option.bind_eq_some_iff.1 hr
    cases hr
    exact stays_printMessage env _ _ a ha
  generalize (if getBits 3 x 0 ≠ s.message.continuityIndex then _ else s.message : Message) = m at hr
  split at hr
  · obtain ⟨a, ha, hr⟩ := Option.bind_eq_some_iff.1 hr
    cases hr
    exact stays_printMessage env _ _ a ha
  · cases hr; exact stays_nil

theorem stays_tmc (env : Env) (st : Station) (g : Group) : StaysOf (st.decodeTmc env g) := by
  unfold Station.decodeTmc
  simp only [Option.bind_eq_bind, Option.pure_def]
  exact staysOf_ite (fun _ => staysOf_bind fun r hr => staysOf_some (stays_user _ _ _ _ _ r hr))
    fun _ => staysOf_some stays_nil

/-! ### Applications -/

theorem stays_app (env : Env) (st : Station) (g : Group) (app : Word) : StaysOf (st.decodeODAApp env g app) := by
  unfold Station.decodeODAApp
  refine staysOf_ite (fun _ => staysOf_opt (stays_dab g)) fun _ => staysOf_ite (fun _ => ?_) fun _ =>
    staysOf_ite (fun _ => ?_) fun _ => staysOf_ite (fun _ => staysOf_some (stays_ert env st.ert g)) fun _ =>
    staysOf_ite (fun _ => stays_tmc env st g) fun _ => staysOf_some (by stays_ok)
  · intro r hr
    obtain ⟨a, ha, rfl⟩ := Option.map_eq_some_iff.1 hr
    exact stays_plus (by decide +kernel) _ _ a ha
  · intro r hr
    obtain ⟨a, ha, rfl⟩ := Option.map_eq_some_iff.1 hr
    exact stays_plus (by decide +kernel) _ _ a ha

theorem stays_oda (env : Env) (st : Station) (g : Group) : StaysOf (st.decodeODAGroup env g) := by
  unfold Station.decodeODAGroup
  split
  · exact staysOf_some (by stays_ok)
  · exact stays_app env st g _

/-! ### Files -/

theorem stays_rftInfo (g : Group) : Stays (Station.rftInfoOps g) := by
  unfold Station.rftInfoOps
  dsimp only
  refine stays_ite (fun _ => by stays_ok) fun _ => stays_ite (fun _ => stays_ite (fun _ => by stays_ok) fun h0 =>
    stays_ite (fun _ => ?_) fun _ => by stays_ok) fun _ => stays_ite (fun _ => by stays_ok) fun _ => by stays_ok
  refine stays_cons (t_word _ (by decide +kernel)) (stays_cons (t_bits 9 _ _ (by decide +kernel)) (stays_cons ?_ stays_nil))
  exact t_number (lo := 1) (hi := 7) (by omega) (by have := getBits_lt 3 (g.get .b3) 9; omega) (by decide +kernel)

theorem stays_C (st : Station) (g : Group) : StaysOf (st.decodeC g) := by
  unfold Station.decodeC
  simp only [Option.bind_eq_bind, Option.pure_def]
  refine staysOf_ite (fun _ => staysOf_some stays_nil) fun _ => staysOf_bind fun r _ => ?_
  refine staysOf_ite (fun _ => staysOf_some (by stays_ok)) fun _ => ?_
  refine staysOf_ite (fun _ => staysOf_some (stays_append (stays_append (by stays_ok) ?_) (by stays_ok))) fun _ => ?_
  · refine stays_cons (t_nat 15 Nat.and_le_right (by decide +kernel)) (stays_cons (t_bits 1 _ _ (by decide +kernel))
      (stays_cons (t_nat 163835 ?_ (by decide +kernel)) (stays_cons ?_ stays_nil)))
    · have := getBits2_lt 15 (g.get .b1) (g.get .b2) 8
      omega
    · unfold Station.segmentData
      exact t_bytes _ (by decide +kernel)
  refine staysOf_ite (fun _ => staysOf_some (by stays_ok)) fun _ => ?_
  refine staysOf_ite (fun _ => ?_) fun _ => staysOf_some (by stays_ok)
  refine staysOf_ite (fun _ => staysOf_some ?_) fun _ => staysOf_some (by stays_ok)
  exact stays_append (by stays_ok) (stays_ite (fun _ => stays_rftInfo g) fun _ => by stays_ok)

/-! ### All groups -/

theorem stays_dispatch (env : Env) (st : Station) (g : Group) (hg : st.Good) : StaysOf (st.dispatch env g) := by
  unfold Station.dispatch
  dsimp only
  refine staysOf_ite (fun _ => stays_C st g) fun _ => staysOf_ite (fun _ => stays_type0 env st g hg) fun _ =>
    staysOf_ite (fun _ => staysOf_opt (stays_type1 st g)) fun _ => staysOf_ite (fun _ => staysOf_some (stays_rt env _)) fun _ =>
    staysOf_ite (fun _ => stays_type3A st g) fun _ => staysOf_ite (fun _ => staysOf_some (stays_clock _)) fun _ =>
    staysOf_ite (fun _ => staysOf_some (stays_type10A env st g)) fun _ => staysOf_ite (fun _ => stays_type14 env st g hg) fun _ =>
    staysOf_ite (fun _ => staysOf_opt (stays_type15B g)) fun _ => staysOf_ite (fun _ => stays_oda env st g) fun _ =>
    staysOf_ite (fun _ => stays_type5 env st g) fun _ => staysOf_ite (fun _ => staysOf_some (stays_type6 g)) fun _ =>
    staysOf_ite (fun _ => staysOf_some (stays_cons (t_debug _) stays_nil)) fun _ => staysOf_ite (fun _ => stays_tmc env st g) fun _ =>
    staysOf_ite (fun _ => staysOf_some (stays_cons (t_debug _) stays_nil)) fun _ =>
    staysOf_ite (fun _ => staysOf_some (stays_type15A env st g)) fun _ => stays_oda env st g

/-- A member is created the same way in nothing and in an empty object. -/
theorem build_null (ops : List JOp) (hne : ops ≠ []) (h : ∀ op ∈ ops, ∃ k, op.key = some k) :
    J.build ops .null = J.build ops (.obj []) := by
  cases ops with
  | nil => exact absurd rfl hne
  | cons op ops =>
    obtain ⟨k, hk⟩ := h op List.mem_cons_self
    have : op.apply .null = op.apply (.obj []) := by
      unfold JOp.key at hk
      cases op with
      | set p v =>
        cases p with
        | nil => cases hk
        | cons a r => rfl
      | push p v =>
        cases p with
        | nil => cases hk
        | cons a r => rfl
      | touch p =>
        cases p with
        | nil => cases hk
        | cons a r => rfl
    rw [J.build, J.build, List.foldlM_cons, List.foldlM_cons, this]

/-- What is built for a group conforms. -/
theorem group_conforms (env : Env) (st st' : Station) (g : Group) (hg : st.Good) {basics body : List JOp} {j : J}
    (hb : (st.checkPI g).1.decodeBasics g = some basics)
    (hd : (if g.hasType then (st.checkPI g).1.dispatch env g else some ((st.checkPI g).1, [])) = some (st', body))
    (hne : st.headerOps env g ++ basics ++ body ≠ [])
    (hk : ∀ op ∈ st.headerOps env g ++ basics ++ body, ∃ k, op.key = some k)
    (h : J.build (st.headerOps env g ++ basics ++ body) .null = some j) : Conforms [] j := by
  have hbody : Stays body := by
    split at hd
    · exact stays_dispatch env _ g (checkPI_good st g hg) _ hd
    · cases hd
      exact stays_nil
  rw [build_null _ hne hk] at h
  exact stays_append (stays_append (stays_header env st g) (stays_basics _ g basics hb)) hbody _ j
    (conforms_obj.2 ⟨by decide +kernel, by simp⟩) h

end Redsea
