import Verif.Props.StationTexts

/-
RadioText of a station after a history.
-/

namespace Redsea

open _root_.Redsea.Spec

theorem rtLength_eq (g : Group) : rtLength g = rtSize (rtIsA g) := rfl

theorem plusFlags_eq (g : Group) : (getBool (g.get .b2) 4, getBool (g.get .b2) 3) = plusFlags g := by
  rw [getBool_eq_div, getBool_eq_div]
  rfl

theorem lastPlus_snoc (app : Word) (gs : List Group) (g : Group) :
    lastPlus app (gs ++ [g]) = if appGroup app gs g then plusFlags g else lastPlus app gs := by
  unfold lastPlus
  rw [history_snoc]
  cases appGroup app gs g <;> simp

theorem rtGroup_iff (g : Group) : rtGroup g = true ↔
    g.hasType = true ∧ (g.type = ⟨2, .A⟩ ∨ g.type = ⟨2, .B⟩) ∧ RtUsable g = true := by
  unfold rtGroup
  simp only [Bool.and_eq_true, decide_eq_true_eq, and_assoc]

theorem appGroup_iff (app : Word) (ds : List Group) (g : Group) : appGroup app ds g = true ↔
    g.hasType = true ∧ g.type.version ≠ .C ∧ g.type ∉ fixedTypes ∧ assignedApp ds g.type = some app := by
  unfold appGroup
  simp only [Bool.and_eq_true, decide_eq_true_eq, and_assoc]

theorem plusNext_facts (rt : RadioText) (g : Group) :
    ((plusNext rt g).plus.toggle, (plusNext rt g).plus.itemRunning) = plusFlags g ∧
    (plusNext rt g).ab = rt.ab ∧
    (plusNext rt g).previousPotentiallyComplete = rt.previousPotentiallyComplete ∧
    ∀ ucs2, (plusNext rt g).text = rt.text.ops ucs2
      (if plusFlags g ≠ (rt.plus.toggle, rt.plus.itemRunning) then [.clear] else []) := by
  rw [← plusFlags_eq]
  unfold plusNext
  by_cases hc : (getBool (g.get .b2) 4, getBool (g.get .b2) 3) = (rt.plus.toggle, rt.plus.itemRunning)
  · have h1 : getBool (g.get .b2) 4 = rt.plus.toggle := congrArg Prod.fst hc
    have h2 : getBool (g.get .b2) 3 = rt.plus.itemRunning := congrArg Prod.snd hc
    rw [if_neg (c := _ = true) (by rw [h1, h2]; simp), if_neg (not_not.mpr hc)]
    exact ⟨by rw [h1, h2], rfl, rfl, fun _ => rfl⟩
  · rw [if_pos (c := _ = true), if_pos hc]
    · exact ⟨rfl, rfl, rfl, fun _ => rfl⟩
    · simp only [Bool.or_eq_true, bne_iff_ne]
      by_contra hn
      simp only [not_or, not_not] at hn
      exact hc (by rw [hn.1, hn.2])

theorem rtReceive_plus (ucs2 : Ucs2Decoder) (rt : RadioText) (g : Group) (isA c : Bool) (pos : Nat) :
    (rtReceive ucs2 rt g isA c pos).plus = rt.plus ∧
    (rtReceive ucs2 rt g isA c pos).previousPotentiallyComplete = rt.previousPotentiallyComplete := by
  unfold rtReceive
  cases isA <;> cases c <;> cases g.has .b4 <;> simp [RadioText.update]

/-- A usable group: the text kept for comparison, and what is printed. -/
theorem decodeType2_kept (ucs2 : Ucs2Decoder) (sp : Bool) (rt : RadioText) (g : Group)
    (hu : RtUsable g = true) (he : rt.text.encoding = .basic) :
    (decodeType2 ucs2 sp rt g).1.plus = rt.plus ∧
    ((∃ m, m = rtrim (rdsText rt.text.getData) ∧
        (g.block2.data.toNat % 16 = 0 ∧ 1 < rt.text.seqLen ∧ rt.text.isComplete = false ∧
          (0x0D : Byte) ∉ rt.text.data) ∧
        (decodeType2 ucs2 sp rt g).1.previousPotentiallyComplete = m ∧
        (decodeType2 ucs2 sp rt g).2 =
          rtPrint ucs2 sp (decodeType2 ucs2 sp rt g).1
            (if m == rt.previousPotentiallyComplete then some m else none)
            { rtAb := if sp then some (rtFlag g) else none }) ∨
      ((decodeType2 ucs2 sp rt g).1.previousPotentiallyComplete = rt.previousPotentiallyComplete ∧
        (decodeType2 ucs2 sp rt g).2 =
          rtPrint ucs2 sp (decodeType2 ucs2 sp rt g).1 none
            { rtAb := if sp then some (rtFlag g) else none })) := by
  have h34 : (!(g.has .b3 && g.has .b4)) = false := by
    simpa [RtUsable, Group.has, Group.block] using hu
  have ht : rt.text.str ucs2 = some (rdsText rt.text.getData) := by
    rw [RDSString.str, he]; rfl
  simp only [decodeType2, h34, getBool_flag, ht, Bool.false_eq_true, if_false]
  by_cases hp : rtPotential { rt with ab := rtFlag g }
      (getBits 4 (g.get .b2) 0 * (if g.type.version == .A then 4 else 2)) = true
  · rw [if_pos hp]
    refine ⟨(rtReceive_plus _ _ _ _ _ _).1, .inl ⟨_, rfl, ?_, (rtReceive_plus _ _ _ _ _ _).2, rfl⟩⟩
    unfold rtPotential at hp
    simp only [Bool.and_eq_true, decide_eq_true_eq, Bool.not_eq_true'] at hp
    obtain ⟨⟨⟨h1, h2⟩, h3⟩, h4⟩ := hp
    refine ⟨?_, h2, h3, ?_⟩
    · rw [low_bits] at h1
      have : g.block2.data.toNat % 16 * (if g.type.version == .A then 4 else 2) = 0 := h1
      rcases Nat.mul_eq_zero.mp this with h | h
      · exact h
      · split at h <;> cases h
    · intro hm
      unfold RDSString.hasPreviouslyReceivedTerminators at h4
      rw [List.any_eq_false] at h4
      exact h4 _ hm (by decide)
  · rw [if_neg hp]
    exact ⟨(rtReceive_plus _ _ _ _ _ _).1, .inr ⟨(rtReceive_plus _ _ _ _ _ _).2, rfl⟩⟩

theorem ops_encoding (ucs2 : Ucs2Decoder) (s : RDSString) (h : List TextOp) :
    (s.ops ucs2 h).encoding = s.encoding ∧ (s.ops ucs2 h).data.length = s.data.length := by
  induction h using snocInduction with
  | nil => exact ⟨rfl, rfl⟩
  | snoc h o ih =>
    rw [RDSString.ops_snoc]
    cases o with
    | recv pos b => exact ⟨(set_encoding ..).trans ih.1, (set_length ..).trans ih.2⟩
    | clear => exact ih

/-! ### The state after a history -/

/-- What is known about the flags after any history. -/
structure RtFacts (ds : List Group) (rt : RadioText) : Prop where
  enc : rt.text.encoding = .basic
  ab : rt.ab = lastFlag rtGroup ds
  plus : (rt.plus.toggle, rt.plus.itemRunning) = lastPlus 0x4BD7 ds

/-- The text after one more group. -/
def rtTextNext (ucs2 : Ucs2Decoder) (ds : List Group) (s : RDSString) (g : Group) : RDSString :=
  (if rtGroup g then s.resize (rtLength g) else s).ops ucs2 (radiotextOps ds g)

theorem rt_no_type {ds : List Group} {g : Group} (ht : g.hasType = false) :
    rtGroup g = false ∧ (∀ app, appGroup app ds g = false) ∧ radiotextOps ds g = [] := by
  have h1 : rtGroup g = false := by simp [rtGroup, ht]
  have h2 : ∀ app, appGroup app ds g = false := fun app => by simp [appGroup, ht]
  exact ⟨h1, h2, by rw [radiotextOps, h1, h2]; rfl⟩

theorem rtNext (env : Env) (o : Options) (ds : List Group) (s : Slots) (g : Group)
    (ht : g.hasType = true) (facts : RtFacts ds s.radiotext) :
    RtFacts (ds ++ [g]) (slotsNext env o (assignedApp ds g.type) s g).radiotext ∧
    (slotsNext env o (assignedApp ds g.type) s g).radiotext.text =
      rtTextNext env.ucs2 ds s.radiotext.text g := by
  rw [slotsNext_radiotext]
  have hfix : g.type = ⟨2, .A⟩ ∨ g.type = ⟨2, .B⟩ → g.type ∈ fixedTypes := by
    rintro (h | h) <;> rw [h] <;> decide
  by_cases h2 : g.type = ⟨2, .A⟩ ∨ g.type = ⟨2, .B⟩
  · rw [if_pos h2]
    have ha : ∀ app, appGroup app ds g = false := by
      intro app
      cases hx : appGroup app ds g with
      | false => rfl
      | true => exact absurd (hfix h2) ((appGroup_iff _ _ _).mp hx).2.2.1
    cases hu : RtUsable g with
    | false =>
      have hr : rtGroup g = false := by simp [rtGroup, hu]
      rw [decodeType2_unusable _ _ _ _ hu]
      refine ⟨⟨facts.enc, ?_, ?_⟩, ?_⟩
      · rw [lastFlag_snoc, hr]; exact facts.ab
      · rw [lastPlus_snoc, ha]; exact facts.plus
      · rw [rtTextNext, radiotextOps, hr, ha]; rfl
    | true =>
      have hr : rtGroup g = true := (rtGroup_iff g).mpr ⟨ht, h2, hu⟩
      obtain ⟨e1, e2, -⟩ := decodeType2_usable env.ucs2 o.showPartial s.radiotext g hu facts.enc
      obtain ⟨e3, -⟩ := decodeType2_kept env.ucs2 o.showPartial s.radiotext g hu facts.enc
      have etext : (decodeType2 env.ucs2 o.showPartial s.radiotext g).1.text =
          rtTextNext env.ucs2 ds s.radiotext.text g := by
        rw [e1, rtTextStep, rtTextNext, hr, radiotextOps, hr, if_pos rfl, if_pos rfl, facts.ab,
          RDSString.ops_append]
        cases rtFlag g != lastFlag rtGroup ds <;> rfl
      refine ⟨⟨?_, ?_, ?_⟩, etext⟩
      · rw [etext, rtTextNext, (ops_encoding _ _ _).1, hr]
        exact facts.enc
      · rw [lastFlag_snoc, hr, e2]; rfl
      · rw [lastPlus_snoc, ha, e3]; exact facts.plus
  · rw [if_neg h2]
    have hr : rtGroup g = false := by
      cases hx : rtGroup g with
      | false => rfl
      | true => exact absurd ((rtGroup_iff g).mp hx).2.1 h2
    by_cases hp : g.type.version ≠ .C ∧ g.type ∉ fixedTypes ∧ assignedApp ds g.type = some 0x4BD7
    · rw [if_pos hp]
      have ha : appGroup 0x4BD7 ds g = true := (appGroup_iff _ _ _).mpr ⟨ht, hp⟩
      obtain ⟨p1, p2, -, p3⟩ := plusNext_facts s.radiotext g
      have etext : (plusNext s.radiotext g).text = rtTextNext env.ucs2 ds s.radiotext.text g := by
        rw [p3 env.ucs2, rtTextNext, hr, radiotextOps, hr, ha, facts.plus]
        rfl
      refine ⟨⟨?_, ?_, ?_⟩, etext⟩
      · rw [etext, rtTextNext, (ops_encoding _ _ _).1, hr]
        exact facts.enc
      · rw [lastFlag_snoc, hr, p2]; exact facts.ab
      · rw [lastPlus_snoc, ha, p1]; rfl
    · rw [if_neg hp]
      have ha : appGroup 0x4BD7 ds g = false := by
        cases hx : appGroup 0x4BD7 ds g with
        | false => rfl
        | true => exact absurd ((appGroup_iff _ _ _).mp hx).2 hp
      refine ⟨⟨facts.enc, ?_, ?_⟩, ?_⟩
      · rw [lastFlag_snoc, hr]; exact facts.ab
      · rw [lastPlus_snoc, ha]; exact facts.plus
      · rw [rtTextNext, radiotextOps, hr, ha]; rfl

theorem rtFacts_no_type {ds : List Group} {g : Group} {rt : RadioText} (ht : g.hasType = false)
    (facts : RtFacts ds rt) : RtFacts (ds ++ [g]) rt := by
  obtain ⟨h1, h2, -⟩ := rt_no_type (ds := ds) ht
  refine ⟨facts.enc, ?_, ?_⟩
  · rw [lastFlag_snoc, h1]; exact facts.ab
  · rw [lastPlus_snoc, h2]; exact facts.plus

theorem rtFacts_init : RtFacts [] {} := ⟨rfl, rfl, rfl⟩

theorem rt_facts {env : Env} (hk : env.tmc.KeysOk) {o : Options} {w : Nat} {p : Word} {gs : List Group}
    {st : Station} {ls : List (Option Line)}
    (h : Station.receive env (Station.withPI o w p) gs = some (st, ls)) :
    RtFacts (decodedGroups gs ls) st.radiotext :=
  slots_induction hk (fun ds s => RtFacts ds s.radiotext) rtFacts_init
    (fun _ _ _ ht facts => rtFacts_no_type ht facts)
    (fun ds s g ht facts => (rtNext env o ds s g ht facts).1) gs st ls h

/-- After a group with RadioText, as long as the version stays the same, the text comes from the
events since, on a buffer of the right size. -/
theorem rt_since {env : Env} (hk : env.tmc.KeysOk) {o : Options} {w : Nat} {p : Word} {gs : List Group}
    {st : Station} {ls : List (Option Line)}
    (h : Station.receive env (Station.withPI o w p) gs = some (st, ls)) (ds1 ds2 : List Group) (g1 : Group)
    (hd : decodedGroups gs ls = ds1 ++ g1 :: ds2) (hg1 : rtGroup g1 = true)
    (hv : ∀ x ∈ ds2, rtGroup x = true → rtIsA x = rtIsA g1) :
    ∃ s0 : RDSString, s0.data.length = rtLength g1 ∧ s0.encoding = .basic ∧
      st.radiotext.text = s0.ops env.ucs2 (historyFrom radiotextOps ds1 (g1 :: ds2)) := by
  have := slots_induction hk (fun ds s => RtFacts ds s.radiotext ∧ ∀ ds1 ds2 g1, ds = ds1 ++ g1 :: ds2 →
      rtGroup g1 = true → (∀ x ∈ ds2, rtGroup x = true → rtIsA x = rtIsA g1) →
      ∃ s0 : RDSString, s0.data.length = rtLength g1 ∧ s0.encoding = .basic ∧
        s.radiotext.text = s0.ops env.ucs2 (historyFrom radiotextOps ds1 (g1 :: ds2)))
    ⟨rtFacts_init, by intro ds1 ds2 g1 h; simp at h⟩ ?_ ?_ gs st ls h
  · exact this.2 ds1 ds2 g1 hd hg1 hv
  all_goals
    intro ds s g ht ih
    obtain ⟨facts, ih⟩ := ih
  · refine ⟨rtFacts_no_type ht facts, ?_⟩
    intro ds1 ds2 g1 hd hg1 hv
    obtain ⟨n1, -, n3⟩ := rt_no_type (ds := ds) ht
    rcases List.eq_nil_or_concat ds2 with rfl | ⟨ds2', g', rfl⟩
    · have := (List.append_inj' hd rfl).2
      cases this
      rw [n1] at hg1; cases hg1
    · rw [List.concat_eq_append, ← List.cons_append, ← List.append_assoc] at hd
      obtain ⟨hd1, hd2⟩ := List.append_inj' hd rfl
      cases hd2
      obtain ⟨s0, h1, h2, h3⟩ := ih ds1 ds2' g1 hd1 hg1 (fun x hx => hv x (by simp [hx]))
      refine ⟨s0, h1, h2, ?_⟩
      rw [List.concat_eq_append, ← List.cons_append, historyFrom_snoc, ← hd1, n3, List.append_nil]
      exact h3
  · obtain ⟨facts', etext⟩ := rtNext env o ds s g ht facts
    refine ⟨facts', ?_⟩
    intro ds1 ds2 g1 hd hg1 hv
    rcases List.eq_nil_or_concat ds2 with rfl | ⟨ds2', g', rfl⟩
    · obtain ⟨hd1, hd2⟩ := List.append_inj' hd rfl
      cases hd2
      cases hd1
      refine ⟨s.radiotext.text.resize (rtLength g), resize_length _ _, facts.enc, ?_⟩
      rw [etext, rtTextNext, hg1]
      simp [historyFrom]
    · rw [List.concat_eq_append, ← List.cons_append, ← List.append_assoc] at hd
      obtain ⟨hd1, hd2⟩ := List.append_inj' hd rfl
      cases hd2
      obtain ⟨s0, h1, h2, h3⟩ := ih ds1 ds2' g1 hd1 hg1 (fun x hx => hv x (by simp [hx]))
      refine ⟨s0, h1, h2, ?_⟩
      rw [List.concat_eq_append, ← List.cons_append, historyFrom_snoc, ← hd1, RDSString.ops_append, ← h3,
        etext, rtTextNext]
      cases hr : rtGroup g with
      | false => rfl
      | true =>
        have hl : s.radiotext.text.data.length = rtLength g := by
          rw [h3, (ops_encoding _ _ _).2, h1, rtLength, rtLength, hv g (by simp) hr]
        rw [if_pos rfl, ← hl, resize_same]

end Redsea
