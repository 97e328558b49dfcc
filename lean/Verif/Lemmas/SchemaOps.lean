import Verif.Lemmas.Schema

/-
What the decoders write fits the schema.
-/

namespace Redsea
open _root_.Redsea.Spec

/-- All operations of a decoder's result keep the object conforming. -/
def StaysOf (o : Option (Station × List JOp)) : Prop := ∀ r, o = some r → Stays r.2

/-- The same for decoders that return operations only. -/
def StaysOpt (o : Option (List JOp)) : Prop := ∀ ops, o = some ops → Stays ops

theorem staysOf_some {st : Station} {ops : List JOp} (h : Stays ops) : StaysOf (some (st, ops)) := by
  intro r hr
  cases hr
  exact h

theorem staysOf_bind {α : Type} {x : Option α} {f : α → Option (Station × List JOp)}
    (h : ∀ a, x = some a → StaysOf (f a)) : StaysOf (x.bind f) := by
  intro r hr
  obtain ⟨a, ha, hr⟩ := Option.bind_eq_some_iff.1 hr
  exact h a ha r hr

theorem staysOf_ite {c : Prop} [Decidable c] {a b : Option (Station × List JOp)}
    (ha : c → StaysOf a) (hb : ¬ c → StaysOf b) : StaysOf (if c then a else b) := by
  by_cases h : c
  · rw [if_pos h]; exact ha h
  · rw [if_neg h]; exact hb h

theorem staysOpt_some {ops : List JOp} (h : Stays ops) : StaysOpt (some ops) := by
  intro r hr
  cases hr
  exact h

theorem staysOpt_bind {α : Type} {x : Option α} {f : α → Option (List JOp)}
    (h : ∀ a, x = some a → StaysOpt (f a)) : StaysOpt (x.bind f) := by
  intro r hr
  obtain ⟨a, ha, hr⟩ := Option.bind_eq_some_iff.1 hr
  exact h a ha r hr

theorem staysOpt_ite {c : Prop} [Decidable c] {a b : Option (List JOp)}
    (ha : c → StaysOpt a) (hb : ¬ c → StaysOpt b) : StaysOpt (if c then a else b) := by
  by_cases h : c
  · rw [if_pos h]; exact ha h
  · rw [if_neg h]; exact hb h

theorem staysOf_opt {st : Station} {o : Option (List JOp)} (h : StaysOpt o) :
    StaysOf (o.map fun ops => (st, ops)) := by
  intro r hr
  obtain ⟨a, ha, rfl⟩ := Option.map_eq_some_iff.1 hr
  exact h a ha

/-- Bit fields fit the range of their width. -/
theorem t_bits {p : List String} (n : Nat) (w : Word) (s : Nat) (h : leadsTo p (.number 0 ((2 ^ n - 1 : Nat) : Int)) = true) :
    (JOp.set p (.nat (getBits n w s))).Typed :=
  t_nat (2 ^ n - 1) (by have := getBits_lt n w s; omega) h

theorem getBits2_lt (n : Nat) (w v : Word) (s : Nat) : getBits2 n w v s < 2 ^ n := by
  unfold getBits2; exact Nat.mod_lt _ (Nat.two_pow_pos n)

theorem t_bits2 {p : List String} (n : Nat) (w v : Word) (s : Nat)
    (h : leadsTo p (.number 0 ((2 ^ n - 1 : Nat) : Int)) = true) :
    (JOp.set p (.nat (getBits2 n w v s))).Typed :=
  t_nat (2 ^ n - 1) (by have := getBits2_lt n w v s; omega) h

theorem t_bytes {p : List String} (l : List Byte) (h : leadsToArray p byteKind = true) :
    (JOp.set p (Station.byteArray l)).Typed := by
  rw [leadsToArray, Bool.and_eq_true, Bool.and_eq_true, decide_eq_true_eq, decide_eq_true_eq] at h
  refine ⟨h.1.1, conforms_arr.2 ⟨h.1.2, ?_⟩⟩
  intro j hj
  obtain ⟨b, -, rfl⟩ := List.mem_map.1 hj
  exact c_nat (hi := 255) (by have := b.isLt; omega) h.2

theorem t_push_int {p : List String} {i : Int} (hi : 153 ≤ i ∧ i ≤ 107900) (h : leadsToArray p frequency = true) :
    (JOp.push p (.int i)).Typed := typed_push h (c_number hi.1 hi.2)
theorem t_push_bits {p : List String} {n : Nat} (hn : n ≤ 65535) (h : leadsToArray p wordKind = true) :
    (JOp.push p (.nat n)).Typed := typed_push h (c_nat (hi := 65535) hn)
theorem t_push_pi {p : List String} (v : Nat) (h : leadsToArray p (.hex "0x" 4) = true) :
    (JOp.push p (.str (prefixedHex4 v))).Typed := typed_push h (c_hex "0x" 4 v)

/-- Shows that the listed operations fit the schema. -/
macro "stays_ok" : tactic => `(tactic| (
  try dsimp only
  repeat' first
    | with_reducible exact stays_nil
    | with_reducible refine stays_cons ?_ ?_
    | with_reducible refine stays_append ?_ ?_
    | (with_reducible refine stays_ite ?_ ?_ <;> intro _)
    | (with_reducible refine stays_toList ?_; intro _ _)
    | with_reducible exact t_debug _
    | with_reducible exact t_push_debug _
    | with_reducible exact t_bool _ (by decide +kernel)
    | with_reducible exact t_pi _ (by decide +kernel)
    | with_reducible exact t_hex0 _ _ (by decide +kernel)
    | with_reducible exact t_hex _ _ _ (by decide +kernel)
    | with_reducible exact t_bits _ _ _ (by decide +kernel)
    | with_reducible exact t_bits2 _ _ _ _ (by decide +kernel)
    | with_reducible exact t_word _ (by decide +kernel)
    | with_reducible exact t_whole _ (by decide +kernel)
    | with_reducible exact t_bytes _ (by decide +kernel)
    | with_reducible exact t_push_pi _ (by decide +kernel)
    | with_reducible exact t_text _ (by decide +kernel)
    | fail))

/-- A text is written, or the reason why there is none. -/
theorem t_getD {o : Option Str} {p : List String} {s : Str} (h : leadsTo p .text = true) :
    ((o.map fun t => JOp.set p (.str t)).getD (debugOp s)).Typed := by
  cases o with
  | none => exact t_debug s
  | some t => exact t_text t h

theorem stays_header (env : Env) (st : Station) (g : Group) : Stays (st.headerOps env g) := by
  unfold Station.headerOps Station.streamOps Station.piOps Station.timeOps Station.blerOps Station.channelOps Station.rawOps
  stays_ok
  split <;> exact t_text _ (by decide +kernel)

theorem stays_basics (st : Station) (g : Group) : StaysOpt (st.decodeBasics g) := by
  unfold Station.decodeBasics
  simp only [Option.bind_eq_bind, Option.pure_def]
  refine staysOpt_ite (fun _ => staysOpt_some (by stays_ok)) fun _ => staysOpt_ite
    (fun _ => staysOpt_bind fun p _ => staysOpt_some (by stays_ok)) fun _ => staysOpt_ite
    (fun _ => staysOpt_bind fun p _ => staysOpt_some (by stays_ok)) fun _ => staysOpt_some stays_nil

/-! ### Frequencies -/

theorem raw_range {l : AltFreqList} (wf : AfWF l) {raw : List Int} (h : l.getRawList = some raw) :
    ∀ f ∈ raw, 153 ≤ f ∧ f ≤ 107900 := by
  unfold AltFreqList.getRawList at h
  split at h
  · cases h
    exact wf.range
  · cases h

theorem pairs_mem (tuned : Int) (l : List Int) (r : List Int × List Int) (h : methodBPairs tuned l = some r) :
    ∀ f, f ∈ r.1 ∨ f ∈ r.2 → f ∈ l := by
  fun_induction methodBPairs tuned l generalizing r with
  | case1 => cases h; simp
  | case2 => cases h
  | case3 => cases h
  | case4 f1 f2 rest nonTuned a b hq hlt ih =>
    cases h
    have := ih _ hq
    have hn : nonTuned = f1 ∨ nonTuned = f2 := by
      show (if f1 = tuned then f2 else f1) = f1 ∨ (if f1 = tuned then f2 else f1) = f2
      split <;> simp
    intro f hf
    have := this f
    simp only [List.mem_cons] at hf ⊢
    grind
  | case5 f1 f2 rest nonTuned a b hq hlt ih =>
    cases h
    have := ih _ hq
    have hn : nonTuned = f1 ∨ nonTuned = f2 := by
      show (if f1 = tuned then f2 else f1) = f1 ∨ (if f1 = tuned then f2 else f1) = f2
      split <;> simp
    intro f hf
    have := this f
    simp only [List.mem_cons] at hf ⊢
    grind

theorem stays_afComplete {raw : List Int} {isB : Bool} {out : AfOut} (h : afComplete raw isB = some out)
    (hr : ∀ f ∈ raw, 153 ≤ f ∧ f ≤ 107900) : Stays (Station.afOps out) := by
  unfold afComplete at h
  split at h
  · split at h
    · cases h
    · rename_i tuned rest
      split at h
      · cases h
      · rename_i same regional hm
        have hmem := pairs_mem tuned rest _ hm
        split at h
        · cases h
          refine stays_cons (t_number (hr tuned (by simp)).1 (hr tuned (by simp)).2 (by decide +kernel))
            (stays_append (stays_map fun f hf => ?_) (stays_map fun f hf => ?_))
          · exact t_push_int (hr f (List.mem_cons_of_mem _ (hmem f (.inl hf)))) (by decide +kernel)
          · exact t_push_int (hr f (List.mem_cons_of_mem _ (hmem f (.inr hf)))) (by decide +kernel)
        · cases h
          exact stays_nil
  · cases h
    exact stays_map fun f hf => t_push_int (hr f hf) (by decide +kernel)

theorem stays_af {l : AltFreqList} (wf : AfWF l) {sp : Bool} {w : Word} {r : AltFreqList × AfOut}
    (h : afReceive sp l w = some r) : Stays (Station.afOps r.2) := by
  unfold afReceive at h
  obtain ⟨l1, h1, h⟩ := Option.bind_eq_some_iff.mp h
  obtain ⟨l2, h2, h⟩ := Option.bind_eq_some_iff.mp h
  obtain ⟨x, hx, w1⟩ := afWF_insert wf (getUint8 w 8).toNat
  rw [h1] at hx
  cases hx
  obtain ⟨x, hx, w2⟩ := afWF_insert w1 (getUint8 w 0).toNat
  rw [h2] at hx
  cases hx
  split at h
  · obtain ⟨raw, hraw, h⟩ := Option.bind_eq_some_iff.mp h
    obtain ⟨isB, -, h⟩ := Option.bind_eq_some_iff.mp h
    obtain ⟨out, ho, h⟩ := Option.bind_eq_some_iff.mp h
    cases h
    exact stays_afComplete ho (raw_range w2 hraw)
  · split at h
    · obtain ⟨raw, hraw, h⟩ := Option.bind_eq_some_iff.mp h
      cases h
      dsimp only
      split
      · exact stays_nil
      · exact stays_map fun f hf => t_push_int (raw_range w2 hraw f hf) (by decide +kernel)
    · cases h
      exact stays_nil

/-! ### Fixed groups -/

theorem stays_ps (env : Env) (st : Station) (g : Group) : Stays (st.decodePs env g).2 := by
  unfold Station.decodePs
  split
  · exact stays_nil
  · dsimp only
    exact stays_ite (fun _ => by stays_ok) fun _ => stays_ite
      (fun _ => stays_cons (t_getD (by decide +kernel)) stays_nil) fun _ => stays_nil

theorem t_di {i : Nat} (hi : i < 4) {key : String} (h : Station.diKey i = some key) (b : Bool) :
    (JOp.set ["di", key] (.bool b)).Typed := by
  have hk : leadsTo ["di", key] .bool = true := by
    unfold Station.diKey at h
    rw [if_pos hi] at h
    have hm := List.mem_of_getElem? h
    have : ∀ key ∈ diCodes, leadsTo ["di", key] .bool = true := by decide +kernel
    exact this key hm
  exact t_bool b hk

theorem stays_type0 (env : Env) (st : Station) (g : Group) (hg : st.Good) : StaysOf (st.decodeType0 env g) := by
  unfold Station.decodeType0
  simp only [Option.bind_eq_bind, Option.pure_def]
  obtain ⟨codes, haf⟩ := hg.af
  refine staysOf_bind fun key hk => ?_
  have hd := fun b => t_di (getBits_lt 2 (g.get .b2) 0) hk b
  have hflags : Stays [JOp.set ["di", key] (.bool (getBool (g.get .b2) 2)),
      .set ["ta"] (.bool (getBool (g.get .b2) 4)), .set ["is_music"] (.bool (getBool (g.get .b2) 3))] :=
    stays_cons (hd _) (by stays_ok)
  refine staysOf_ite (fun _ => staysOf_bind fun af _ => staysOf_some hflags)
    fun _ => staysOf_ite (fun _ => staysOf_bind fun r hr => staysOf_some ?_) fun _ => staysOf_some ?_
  · exact stays_append (stays_append hflags (stays_af haf.wf hr)) (stays_ps env _ g)
  · exact stays_append hflags (stays_ps env _ g)

theorem decodePIN_day {w : Word} {p : PinOut} (h : decodePIN w = some p) : 1 ≤ p.day ∧ p.day ≤ 31 := by
  unfold decodePIN at h
  dsimp only at h
  split at h
  · rename_i hc
    cases h
    exact ⟨hc.1, by have := getBits_lt 5 w 11; dsimp only; omega⟩
  · cases h

theorem stays_pin {w : Word} {p : PinOut} (h : decodePIN w = some p) : Stays (Station.pinOps [] p) := by
  obtain ⟨h1, h2⟩ := decodePIN_day h
  unfold Station.pinOps
  refine stays_cons (t_word _ (by decide +kernel)) (stays_cons (t_number (lo := 1) (hi := 31) ?_ ?_ (by decide +kernel)) (by stays_ok))
  · omega
  · omega

theorem stays_pin_other {w : Word} {p : PinOut} (h : decodePIN w = some p) : Stays (Station.pinOps ["other_network"] p) := by
  obtain ⟨h1, h2⟩ := decodePIN_day h
  unfold Station.pinOps
  refine stays_cons (t_word _ (by decide +kernel)) (stays_cons (t_number (lo := 1) (hi := 31) ?_ ?_ (by decide +kernel)) (by stays_ok))
  · omega
  · omega

theorem stays_label (st : Station) (g : Group) : StaysOpt (st.slowLabel g) := by
  unfold Station.slowLabel
  simp only [Option.bind_eq_bind, Option.pure_def]
  split
  · exact staysOpt_ite (fun _ => staysOpt_bind fun _ _ => staysOpt_some (by stays_ok))
      fun _ => staysOpt_some stays_nil
  · exact staysOpt_some (by stays_ok)
  · exact staysOpt_some stays_nil
  · exact staysOpt_bind fun _ _ => staysOpt_some (by stays_ok)
  · exact staysOpt_some (by stays_ok)
  · exact staysOpt_some (by stays_ok)
  · exact staysOpt_some (by stays_ok)

theorem stays_type1 (st : Station) (g : Group) : StaysOpt (st.decodeType1 g) := by
  unfold Station.decodeType1
  simp only [Option.bind_eq_bind, Option.pure_def]
  have hpin : Stays (if g.get .b4 ≠ 0 then
        ((decodePIN (g.get .b4)).map (Station.pinOps [])).getD [debugOp (ascii "invalid PIN")]
        else []) := by
    refine stays_ite (fun _ => ?_) fun _ => stays_nil
    cases h : decodePIN (g.get .b4) with
    | none => exact stays_cons (t_debug _) stays_nil
    | some p => exact stays_pin h
  refine staysOpt_ite (fun _ => staysOpt_some stays_nil) fun _ => staysOpt_ite
    (fun _ => staysOpt_bind fun label hl => staysOpt_some ?_) fun _ => staysOpt_some hpin
  exact stays_append (stays_append hpin (by stays_ok)) (stays_label st g label hl)

theorem stays_rt (env : Env) (out : RTOut) : Stays (Station.rtOps env out) := by
  unfold Station.rtOps
  refine stays_append (stays_append (stays_append (stays_toList fun ab _ => ?_) (by stays_ok)) (by stays_ok)) (by stays_ok)
  exact typed_set (k := .oneOf ["A", "B"]) (by decide +kernel) (c_oneOf (by cases ab <;> simp))

theorem scope_mem (w : Word) : ∀ t ∈ getScopeStrings w, ∃ s ∈ ["inter-road", "national", "regional", "urban"], t = ascii s := by
  intro t ht
  unfold getScopeStrings at ht
  grind

theorem stays_system (s : TMCService) (w : Word) :
    ∀ r, s.receiveSystemGroup w = some r → Stays r.2 := by
  unfold TMCService.receiveSystemGroup
  simp only [Option.bind_eq_bind, Option.pure_def]
  split
  · intro r hr
    cases hr
    refine stays_append (by stays_ok) (stays_map fun t ht => ?_)
    obtain ⟨s, hs, rfl⟩ := scope_mem _ t ht
    exact typed_push (k := .oneOf _) (by decide +kernel) (c_oneOf hs)
  · intro r hr
    obtain ⟨a, ha, hr⟩ := Option.bind_eq_some_iff.1 hr
    cases hr
    have hgap : 3 ≤ a ∧ a ≤ 11 := by
      have : ∀ a ∈ TMCService.gapValues, 3 ≤ a ∧ a ≤ 11 := by decide
      exact this a (List.mem_of_getElem? ha)
    refine stays_append (stays_cons (t_bits 6 _ _ (by decide +kernel)) (stays_cons
      (t_number (lo := 3) (hi := 11) (by omega) (by omega) (by decide +kernel)) stays_nil)) (stays_ite (fun hc => ?_) fun _ => stays_nil)
    exact stays_cons (t_number (lo := 1) (hi := 15) (by omega) (by have := getBits_lt 4 w 0; omega) (by decide +kernel)) stays_nil
  · intro r hr
    have hltecc : 0 < (getUint8 w 0).toNat →
        (JOp.set ["tmc", "system_info", "ltecc"] (.nat (getUint8 w 0).toNat)).Typed := by
      intro h
      exact t_number (lo := 1) (hi := 255) (by omega) (by have := (getUint8 w 0).isLt; omega) (by decide +kernel)
    split at hr
    · rename_i hc
      split at hr
      · obtain ⟨a, -, hr⟩ := Option.bind_eq_some_iff.1 hr
        cases hr
        exact stays_cons (hltecc hc) (by stays_ok)
      · cases hr
        exact stays_cons (hltecc hc) stays_nil
    · cases hr; exact stays_nil
  · intro r hr; cases hr; exact stays_nil

theorem stays_type3A (st : Station) (g : Group) : StaysOf (st.decodeType3A g) := by
  unfold Station.decodeType3A
  simp only [Option.bind_eq_bind, Option.pure_def]
  have hops : ∀ (a b : Str), Stays [JOp.set ["open_data_app", "oda_group"] (.str a),
      .set ["open_data_app", "app_name"] (.str b)] := fun a b => by stays_ok
  refine staysOf_ite (fun _ => staysOf_some stays_nil) fun _ => staysOf_ite (fun _ => staysOf_some stays_nil)
    fun _ => staysOf_ite (fun _ => staysOf_some (hops _ _)) fun _ => staysOf_ite
    (fun _ => staysOf_some (hops _ _)) fun _ => staysOf_ite (fun _ => staysOf_some (hops _ _)) fun _ =>
    staysOf_ite (fun _ => staysOf_some (hops _ _)) fun _ => staysOf_ite
    (fun _ => staysOf_bind fun r hr => staysOf_some ?_) fun _ => staysOf_some ?_
  · exact stays_append (hops _ _) (stays_system _ _ r hr)
  · exact stays_append (hops _ _) (by stays_ok)

theorem stays_clock (o : ClockOut) : Stays (Station.clockOps o) := by
  cases o <;> simp only [Station.clockOps] <;> stays_ok

theorem stays_type10A (env : Env) (st : Station) (g : Group) : Stays (st.decodeType10A env g).2 := by
  unfold Station.decodeType10A
  split
  · exact stays_nil
  · stays_ok

theorem fm_kHz (c : Nat) (h : CarrierFrequency.isValid { code := c } = true) :
    87600 ≤ CarrierFrequency.kHz { code := c } ∧ CarrierFrequency.kHz { code := c } ≤ 107900 := by
  obtain ⟨h1, h2⟩ := (isValid_iff c false).1 h
  have : CarrierFrequency.kHz { code := c } = fmKhz c := kHz_fm c h1 h2
  rw [this]
  simp only [Bool.false_eq_true, if_false] at h2
  unfold fmKhz
  omega

theorem stays_eonVariant (env : Env) (st : Station) (g : Group) (hg : st.Good) : StaysOf (st.eonVariant env g) := by
  unfold Station.eonVariant
  simp only [Option.bind_eq_bind, Option.pure_def]
  refine staysOf_ite (fun _ => staysOf_some (by stays_ok)) fun _ => ?_
  refine staysOf_ite (fun _ => staysOf_bind fun l1 h1 => staysOf_bind fun l2 h2 => ?_) fun _ => ?_
  · obtain ⟨x, hx, w1⟩ := afWF_insert (hg.eonAf (g.get .b4)) (getUint8 (g.get .b3) 8).toNat
    rw [h1] at hx
    cases hx
    obtain ⟨x, hx, w2⟩ := afWF_insert w1 (getUint8 (g.get .b3) 0).toNat
    rw [h2] at hx
    cases hx
    exact staysOf_ite (fun _ => staysOf_bind fun raw hr => staysOf_some
      (stays_map fun f hf => t_push_int (raw_range w2 hr f hf) (by decide +kernel)))
      fun _ => staysOf_some stays_nil
  refine staysOf_ite (fun _ => staysOf_some (stays_ite (fun hv => ?_) fun _ => stays_nil)) fun _ => ?_
  · obtain ⟨a, b⟩ := fm_kHz _ hv
    exact stays_cons (t_number a b (by decide +kernel)) stays_nil
  refine staysOf_ite (fun _ => staysOf_some (stays_cons (t_bool _ (by decide +kernel))
    (stays_ite (fun hc => stays_cons ?_ stays_nil) fun _ => stays_nil))) fun _ => ?_
  · exact t_number (lo := 1) (hi := 4095) (by have := hc.2; omega) (by have := getBits_lt 12 (g.get .b3) 0; omega)
      (by decide +kernel)
  refine staysOf_ite (fun _ => staysOf_bind fun p _ => staysOf_some (by stays_ok)) fun _ => ?_
  refine staysOf_ite (fun _ => staysOf_some (stays_ite (fun _ => ?_) fun _ => stays_nil)) fun _ => ?_
  · cases h : decodePIN (g.get .b3) with
    | none => exact stays_nil
    | some p => exact stays_pin_other h
  refine staysOf_ite (fun _ => staysOf_some (by stays_ok)) fun _ => ?_
  exact staysOf_some (by stays_ok)

theorem stays_type14 (env : Env) (st : Station) (g : Group) (hg : st.Good) : StaysOf (st.decodeType14 env g) := by
  unfold Station.decodeType14
  simp only [Option.bind_eq_bind, Option.pure_def]
  have hops : Stays [JOp.set ["other_network", "pi"] (.str (prefixedHex4 (g.get .b4).toNat)),
      .set ["other_network", "tp"] (.bool (getBool (g.get .b2) 4))] := by stays_ok
  refine staysOf_ite (fun _ => staysOf_some stays_nil) fun _ => staysOf_ite
    (fun _ => staysOf_some (stays_append hops (by stays_ok)))
    fun _ => staysOf_ite (fun _ => staysOf_some hops) fun _ => staysOf_bind fun r hr => staysOf_some ?_
  exact stays_append hops (stays_eonVariant env st g hg r hr)

theorem stays_type15A (env : Env) (st : Station) (g : Group) : Stays (st.decodeType15A env g).2 := by
  unfold Station.decodeType15A
  dsimp only
  exact stays_ite (fun _ => by stays_ok) fun _ => stays_ite
    (fun _ => stays_cons (t_getD (by decide +kernel)) stays_nil) fun _ => stays_nil

theorem stays_type15B (g : Group) : StaysOpt (Station.decodeType15B g) := by
  unfold Station.decodeType15B
  simp only [Option.bind_eq_bind, Option.pure_def]
  exact staysOpt_bind fun _ hk => staysOpt_some (stays_cons (t_di (getBits_lt 2 (g.get .b2) 0) hk _) (by stays_ok))

theorem stays_type5 (env : Env) (st : Station) (g : Group) : StaysOf (st.decodeType5 env g) := by
  unfold Station.decodeType5
  simp only [Option.bind_eq_bind, Option.pure_def]
  refine staysOf_ite (fun _ => staysOf_ite (fun _ => staysOf_bind fun f hf => staysOf_bind fun _ _ =>
    staysOf_some ?_) fun _ => staysOf_bind fun f hf => staysOf_bind fun _ _ => staysOf_some ?_) fun _ =>
    staysOf_bind fun _ _ => staysOf_some (by stays_ok)
  · refine stays_append (stays_append (by stays_ok) ?_) (by stays_ok)
    obtain ⟨t, -, rfl⟩ := Option.map_eq_some_iff.1 hf
    stays_ok
  · refine stays_append (stays_append (by stays_ok) ?_) (by stays_ok)
    have := Option.some.inj hf
    rw [← this]; exact stays_nil

theorem t_house (n : Nat) (w : Word) (s : Nat) (hn : n ≤ 16) : (JOp.push ["in_house_data"] (.nat (getBits n w s))).Typed := by
  have h1 := getBits_lt n w s
  have h2 : 2 ^ n ≤ 2 ^ 16 := Nat.pow_le_pow_right (by decide) hn
  exact t_push_bits (by omega) (by decide +kernel)

theorem stays_type6 (g : Group) : Stays (Station.decodeType6 g) := by
  unfold Station.decodeType6
  dsimp only
  have hc : ∀ ops, Stays ops → Stays (JOp.push ["in_house_data"] (.nat (getBits 16 (g.get .b3) 0)) :: ops) :=
    fun ops h => stays_cons (t_house _ _ _ (by decide)) h
  have hd : Stays [JOp.push ["in_house_data"] (.nat (getBits 16 (g.get .b4) 0))] :=
    stays_cons (t_house _ _ _ (by decide)) stays_nil
  exact stays_cons (t_house _ _ _ (by decide)) (stays_ite (fun _ => stays_ite (fun _ => hc _ (stays_ite (fun _ => hd) fun _ => stays_nil))
    fun _ => stays_nil) fun _ => stays_ite (fun _ => hd) fun _ => stays_nil)

end Redsea
