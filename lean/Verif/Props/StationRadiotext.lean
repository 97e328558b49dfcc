import Verif.Lemmas.StationRadiotext

/-
C63: the RadioText of a station is printed as sent.
-/

namespace Redsea

open _root_.Redsea.Spec

/-- The characters received in order so far (more than one, and no end mark) show the text `t`. -/
def HeldSoFar (ops : List TextOp) (t : Str) : Prop :=
  ∃ bs : List Byte, 1 < bs.length ∧ (0x0D : Byte) ∉ bs ∧ (∀ i b, bs[i]? = some b → LatestByte ops i b) ∧
    t = rtrim (rdsText (bs.map display))

/-- A group with the first characters of a RadioText. -/
def rtFirst (g : Group) : Bool := rtGroup g && g.block2.data.toNat % 16 == 0

/-- Before some group with the first characters, the text so far was `t`. -/
def HeldEarlier (ds : List Group) (t : Str) : Prop :=
  ∃ ds1 g1 ds2, ds = ds1 ++ g1 :: ds2 ∧ rtFirst g1 = true ∧ HeldSoFar (history radiotextOps ds1) t

theorem HeldEarlier.snoc {ds : List Group} {t : Str} (h : HeldEarlier ds t) (g : Group) :
    HeldEarlier (ds ++ [g]) t := by
  obtain ⟨ds1, g1, ds2, h1, h2, h3⟩ := h
  exact ⟨ds1, g1, ds2 ++ [g], by rw [h1]; simp, h2, h3⟩

theorem rtrim_blanks (s : Str) (n : Nat) : rtrim (s ++ List.replicate n 0x20) = rtrim s := by
  unfold rtrim
  congr 1
  rw [List.reverse_append, List.reverse_replicate]
  induction n with
  | zero => rfl
  | succ n ih =>
    rw [List.replicate_succ, List.cons_append, List.dropWhile_cons_of_pos (by decide)]
    exact ih

theorem dropWhile_twice (q : Byte → Bool) (l : List Byte) :
    (l.dropWhile q).dropWhile q = l.dropWhile q := by
  induction l with
  | nil => rfl
  | cons a l ih =>
    rw [List.dropWhile_cons]
    split
    · exact ih
    · rename_i h
      rw [List.dropWhile_cons, if_neg h]

theorem rtrim_rtrim (s : Str) : rtrim (rtrim s) = rtrim s := by
  unfold rtrim
  rw [List.reverse_reverse, dropWhile_twice]

theorem rdsText_append (a b : List Byte) : rdsText (a ++ b) = rdsText a ++ rdsText b := by
  simp [rdsText]

theorem rdsText_blanks (n : Nat) : rdsText (List.replicate n 0x20) = List.replicate n 0x20 := by
  induction n with
  | zero => rfl
  | succ n ih =>
    rw [List.replicate_succ, show rdsText (0x20 :: List.replicate n 0x20) =
      getRDSCharString 0x20 ++ rdsText (List.replicate n 0x20) from rfl, ih,
      show getRDSCharString 0x20 = [0x20] by decide +kernel]
    rfl

/-- What is shown of an incomplete text without end marks in the buffer. -/
theorem held_of_potential {ucs2 : Ucs2Decoder} {n : Nat} {ops : List TextOp} {s : RDSString}
    (inv : TextInv ucs2 n .basic ops s) (h1 : 1 < s.seqLen) (hT : (0x0D : Byte) ∉ s.data) :
    HeldSoFar ops (rtrim (rdsText s.getData)) := by
  have hlen : (s.data.take s.seqLen).length = s.seqLen := by
    rw [List.length_take, inv.len]
    exact Nat.min_eq_left inv.seq
  refine ⟨s.data.take s.seqLen, by rw [hlen]; exact h1, fun hm => hT (List.mem_of_mem_take hm), ?_, ?_⟩
  · intro i b hb
    rw [List.getElem?_take] at hb
    split at hb
    · obtain ⟨c, hc1, hc2⟩ := inv.bytes i (by assumption)
      rw [hc1] at hb
      cases hb
      exact hc2
    · cases hb
  · have he : s.getExpectedLength = s.data.length := by
      unfold RDSString.getExpectedLength
      have : s.data.findIdx (· == kStringTerminator) = s.data.length := by
        rw [List.findIdx_eq_length]
        intro x hx
        by_contra hc
        simp only [Bool.not_eq_false, beq_iff_eq] at hc
        rw [hc] at hx
        exact hT hx
      rw [this]
      omega
    have hd : s.getData = (s.data.take s.seqLen).map display ++
        List.replicate (n - s.seqLen) 0x20 := by
      apply List.ext_getElem?
      intro i
      unfold RDSString.getData
      rw [he, inv.len, List.getElem?_map]
      by_cases hi : i < s.seqLen
      · have hin : i < n := Nat.lt_of_lt_of_le hi inv.seq
        rw [List.getElem?_append_left (by rw [List.length_map, hlen]; exact hi), List.getElem?_map,
          List.getElem?_take, if_pos hi, List.getElem?_range hin]
        obtain ⟨c, hc, -⟩ := inv.bytes i hi
        rw [hc, Option.map_some, Option.map_some]
        unfold RDSString.shownByte display
        have : s.data.getD i 0 = c := by simp [List.getD, hc]
        simp only [this]
        congr 1
        by_cases h0 : c = 0
        · simp [h0, kBlankSpace]
        · by_cases hd : c = 0x0D
          · simp [hd, kBlankSpace, kStringTerminator]
          · rw [if_pos ⟨hi, hd, h0⟩, if_neg (fun hx => hx.elim hd h0)]
      · rw [List.getElem?_append_right (by rw [List.length_map, hlen]; omega), List.length_map, hlen,
          List.getElem?_replicate]
        by_cases hin : i < n
        · rw [List.getElem?_range hin, if_pos (by omega), Option.map_some]
          unfold RDSString.shownByte
          simp only
          rw [if_neg (fun hx => hi hx.1)]
          rfl
        · rw [List.getElem?_eq_none (by simp; omega), if_neg (by omega), Option.map_none]
    rw [hd, rdsText_append, rdsText_blanks, rtrim_blanks]

/-- The invariant for stations that switch between 2A and 2B only together with the A/B flag. -/
structure RtKnown (ucs2 : Ucs2Decoder) (ds : List Group) (rt : RadioText) (v : Option Bool) : Prop where
  stable : RtStable ucs2 v (lastFlag rtGroup ds) (history radiotextOps ds) rt
  rest : ∀ gs', VersionsStable none false (ds.filter rtGroup ++ gs') →
    VersionsStable v (lastFlag rtGroup ds) gs'
  prev : rt.previousPotentiallyComplete = [] ∨ HeldEarlier ds rt.previousPotentiallyComplete

theorem versionsStable_prefix (gs' : List Group) : ∀ (gs : List Group) v ab,
    VersionsStable v ab (gs ++ gs') → VersionsStable v ab gs := by
  intro gs
  induction gs with
  | nil => intro _ _ _; trivial
  | cons x xs ih =>
    intro v ab h
    simp only [List.cons_append, VersionsStable] at h ⊢
    split
    · rename_i hx; simp only [hx, if_true] at h; exact ⟨h.1, ih _ _ h.2⟩
    · rename_i hx; simp only [hx] at h; exact ih _ _ h

theorem rtKnown_skip {ucs2 : Ucs2Decoder} {ds : List Group} {rt : RadioText} {v : Option Bool} {g : Group}
    (known : RtKnown ucs2 ds rt v) (hr : rtGroup g = false) (ho : radiotextOps ds g = []) :
    RtKnown ucs2 (ds ++ [g]) rt v := by
  have hfl : lastFlag rtGroup (ds ++ [g]) = lastFlag rtGroup ds := by rw [lastFlag_snoc, hr]; rfl
  refine ⟨?_, ?_, ?_⟩
  · rw [hfl, history_snoc, ho, List.append_nil]; exact known.stable
  · rw [hfl, List.filter_append]
    simpa [hr] using known.rest
  · exact known.prev.imp id (fun h => h.snoc g)

theorem rtKnown_step (env : Env) (o : Options) (ds : List Group) (s : Slots) (g : Group)
    (ht : g.hasType = true) (facts : RtFacts ds s.radiotext) {v : Option Bool}
    (known : RtKnown env.ucs2 ds s.radiotext v)
    (hv : VersionsStable none false ((ds ++ [g]).filter rtGroup)) :
    ∃ v', RtKnown env.ucs2 (ds ++ [g]) (slotsNext env o (assignedApp ds g.type) s g).radiotext v' ∧
      (rtGroup g = true → v' = some (rtIsA g)) := by
  rw [slotsNext_radiotext]
  cases hr : rtGroup g with
  | true =>
    obtain ⟨-, h2, hu⟩ := (rtGroup_iff g).mp hr
    rw [if_pos h2]
    have hfl : lastFlag rtGroup (ds ++ [g]) = rtFlag g := by rw [lastFlag_snoc, hr]; rfl
    have hf : (ds ++ [g]).filter rtGroup = ds.filter rtGroup ++ [g] := by simp [hr]
    rw [hf] at hv
    have hv1 := known.rest [g] hv
    simp only [VersionsStable, hu, if_true] at hv1
    refine ⟨some (rtIsA g), ⟨?_, ?_, ?_⟩, fun _ => rfl⟩
    · have := rtStable_step o.showPartial known.stable g hu hv1.1
      rw [hfl, history_snoc, radiotextOps, hr, if_pos rfl]
      exact this
    · intro gs' hgs
      rw [hfl]
      rw [hf, List.append_assoc] at hgs
      have := known.rest _ hgs
      simp only [List.cons_append, List.nil_append, VersionsStable, hu, if_true] at this
      exact this.2
    · obtain ⟨-, hcase⟩ := decodeType2_kept env.ucs2 o.showPartial s.radiotext g hu facts.enc
      rcases hcase with ⟨m, hm, ⟨h0, h1, -, hT⟩, hp, -⟩ | ⟨hp, -⟩
      · right
        rw [hp, hm]
        exact ⟨ds, g, [], rfl, by simp [rtFirst, hr, h0], held_of_potential known.stable.2.1 h1 hT⟩
      · rw [hp]
        exact known.prev.imp id (fun h => h.snoc g)
  | false =>
    refine ⟨v, ?_, by intro h; cases h⟩
    by_cases h2 : g.type = ⟨2, .A⟩ ∨ g.type = ⟨2, .B⟩
    · have hu : RtUsable g = false := by
        cases hu : RtUsable g with
        | false => rfl
        | true => rw [(rtGroup_iff g).mpr ⟨ht, h2, hu⟩] at hr; cases hr
      have ha : appGroup 0x4BD7 ds g = false := by
        cases hx : appGroup 0x4BD7 ds g with
        | false => rfl
        | true =>
          refine absurd ?_ ((appGroup_iff _ _ _).mp hx).2.2.1
          rcases h2 with h | h <;> rw [h] <;> decide
      rw [if_pos h2, decodeType2_unusable _ _ _ _ hu]
      exact rtKnown_skip known hr (by rw [radiotextOps, hr, ha]; rfl)
    · rw [if_neg h2]
      by_cases hp : g.type.version ≠ .C ∧ g.type ∉ fixedTypes ∧ assignedApp ds g.type = some 0x4BD7
      · rw [if_pos hp]
        have ha : appGroup 0x4BD7 ds g = true := (appGroup_iff _ _ _).mpr ⟨ht, hp⟩
        have hfl : lastFlag rtGroup (ds ++ [g]) = lastFlag rtGroup ds := by rw [lastFlag_snoc, hr]; rfl
        obtain ⟨-, p2, p3, p4⟩ := plusNext_facts s.radiotext g
        refine ⟨⟨?_, ?_, ?_⟩, ?_, ?_⟩
        · rw [hfl, p2]; exact known.stable.1
        · rw [p4 env.ucs2, history_snoc, radiotextOps, hr, ha, facts.plus]
          refine textInv_ops ?_ known.stable.2.1 _
          cases v with
          | none => decide
          | some a => exact rtSize_pos a
        · intro hvn
          rw [p4 env.ucs2]
          have := known.stable.2.2 hvn
          split
          · rfl
          · exact this
        · rw [hfl, List.filter_append]
          simpa [hr] using known.rest
        · rw [p3]
          exact known.prev.imp id (fun h => h.snoc g)
      · rw [if_neg hp]
        have ha : appGroup 0x4BD7 ds g = false := by
          cases hx : appGroup 0x4BD7 ds g with
          | false => rfl
          | true => exact absurd ((appGroup_iff _ _ _).mp hx).2 hp
        exact rtKnown_skip known hr (by rw [radiotextOps, hr, ha]; rfl)

theorem rtKnown_init (ucs2 : Ucs2Decoder) : RtKnown ucs2 [] {} none :=
  ⟨rtStable_init ucs2, fun _ h => h, .inl rfl⟩

theorem rt_known {env : Env} (hk : env.tmc.KeysOk) {o : Options} {w : Nat} {p : Word} {gs : List Group}
    {st : Station} {ls : List (Option Line)}
    (h : Station.receive env (Station.withPI o w p) gs = some (st, ls))
    (hv : VersionsStable none false ((decodedGroups gs ls).filter rtGroup)) :
    ∃ v, RtKnown env.ucs2 (decodedGroups gs ls) st.radiotext v := by
  have := slots_induction hk (fun ds s => RtFacts ds s.radiotext ∧
      (VersionsStable none false (ds.filter rtGroup) → ∃ v, RtKnown env.ucs2 ds s.radiotext v))
    ⟨rtFacts_init, fun _ => ⟨none, rtKnown_init _⟩⟩ ?_ ?_ gs st ls h
  · exact this.2 hv
  · intro ds s g ht ih
    obtain ⟨n1, -, n3⟩ := rt_no_type (ds := ds) ht
    refine ⟨rtFacts_no_type ht ih.1, fun hv => ?_⟩
    obtain ⟨v, hv⟩ := ih.2 (by simpa [List.filter_append, n1] using hv)
    exact ⟨v, rtKnown_skip hv n1 n3⟩
  · intro ds s g ht ih
    refine ⟨(rtNext env o ds s g ht ih.1).1, fun hv => ?_⟩
    obtain ⟨v, hv1⟩ := ih.2 (by rw [List.filter_append] at hv; exact versionsStable_prefix _ _ _ _ hv)
    obtain ⟨v', h', -⟩ := rtKnown_step env o ds s g ht ih.1 hv1 hv
    exact ⟨v', h'⟩

/-! ### The printed member -/

theorem own_radiotext {g : Group} {app : Option Word} (h : "radiotext" ∈ ownMembers g app) :
    g.hasType = true ∧ (g.type = ⟨2, .A⟩ ∨ g.type = ⟨2, .B⟩) := by
  obtain ⟨ht, h | h | h | h | h⟩ := own_text h (by decide)
  · exact absurd h.2 (by decide)
  · exact ⟨ht, h.1⟩
  · exact absurd h.2 (by decide)
  · exact absurd h.2.2.2 (by decide)
  · exact absurd h.2.2 (by decide)

theorem rtOps_at {env : Env} {hd : List JOp} {out : RTOut} {j : J}
    (hb : J.build (hd ++ Station.rtOps env out) .null = some j) (hkd : KeysIn commonMembers hd) :
    j.at? ["radiotext"] = out.radiotext.map J.str := by
  unfold Station.rtOps at hb
  have hpost : ∀ op ∈ (out.partialRadiotext.map fun t => JOp.set ["partial_radiotext"] (.str t)).toList ++
      (if out.debug then [debugOp env.what] else []), op.Away ["radiotext"] := by
    intro op hop
    rcases List.mem_append.mp hop with hop | hop
    · cases hx : out.partialRadiotext with
      | none => rw [hx] at hop; cases hop
      | some t =>
        rw [hx] at hop
        simp only [Option.map_some, Option.toList_some, List.mem_singleton] at hop
        rw [hop]; rfl
    · split at hop
      · simp only [List.mem_singleton] at hop
        rw [hop]; rfl
      · cases hop
  have hpre : ∀ op ∈ (out.rtAb.map fun ab => JOp.set ["rt_ab"]
      (.str (ascii (if ab then "B" else "A")))).toList, op.Away ["radiotext"] := by
    intro op hop
    cases hx : out.rtAb with
    | none => rw [hx] at hop; cases hop
    | some t =>
      rw [hx] at hop
      simp only [Option.map_some, Option.toList_some, List.mem_singleton] at hop
      rw [hop]; rfl
  cases hx : out.radiotext with
  | none =>
    refine member_none hb hkd (by decide) ?_
    rw [hx]
    intro op hop
    simp only [Option.map_none, Option.toList_none, List.append_nil] at hop
    rw [List.append_assoc] at hop
    rcases List.mem_append.mp hop with hop | hop
    · exact hpre op hop
    · exact hpost op hop
  | some t =>
    rw [hx] at hb
    rw [List.append_assoc, List.append_assoc] at hb
    exact member_set hb hpost

/-- The RadioText that is printed. -/
theorem radiotext_member {env : Env} (hk : env.tmc.KeysOk) {o : Options} {w : Nat} {p : Word}
    {gs : List Group} {st : Station} {ls : List (Option Line)}
    (h : Station.receive env (Station.withPI o w p) gs = some (st, ls)) {g : Group} {st' : Station} {j : J}
    (hu : st.updateAndPrint env g = some (st', some (.json j))) :
    (rtGroup g = false ∧ j.at? ["radiotext"] = none) ∨
    (rtGroup g = true ∧ st'.radiotext = (decodeType2 env.ucs2 o.showPartial st.radiotext g).1 ∧
      j.at? ["radiotext"] =
        ((decodeType2 env.ucs2 o.showPartial st.radiotext g).2.radiotext).map J.str) := by
  obtain ⟨hd, body, hb, hkd, hkb, -, -, hdisp, ho, -⟩ := text_parts hk h hu
  by_cases hty : g.hasType = true ∧ (g.type = ⟨2, .A⟩ ∨ g.type = ⟨2, .B⟩)
  · obtain ⟨b, hd0⟩ := hdisp hty.1
    have hd1 : some ({ ({ st with lastGroupHadPi := b } : Station) with
          radiotext := (decodeType2 env.ucs2 st.options.showPartial st.radiotext g).1 },
        Station.rtOps env (decodeType2 env.ucs2 st.options.showPartial st.radiotext g).2) =
        some (st', body) := by
      unfold Station.dispatch at hd0
      rcases hty.2 with ht | ht <;> simpa [ht] using hd0
    have hbody := some_snd hd1
    have hst := (some_fst hd1).symm
    rw [ho] at hbody hst
    rw [hbody] at hb
    have hat := rtOps_at hb hkd
    cases hus : RtUsable g with
    | false =>
      left
      refine ⟨by simp [rtGroup, hus], ?_⟩
      rw [hat, decodeType2_unusable _ _ _ _ hus]
      rfl
    | true =>
      right
      exact ⟨(rtGroup_iff g).mpr ⟨hty.1, hty.2, hus⟩, by rw [hst], hat⟩
  · left
    refine ⟨?_, member_none hb hkd (by decide) (keysIn_away hkb "radiotext" [] (fun hx => hty (own_radiotext hx)))⟩
    cases hr : rtGroup g with
    | false => rfl
    | true =>
      obtain ⟨h1, h2, -⟩ := (rtGroup_iff g).mp hr
      exact absurd ⟨h1, h2⟩ hty

/-- **C63** (partial), RadioText. For a station that switches between 2A and 2B only together with
the A/B flag, whatever else it sends: a printed RadioText is either a whole text of the latest received
characters, without blanks at its end; or, with the first group of a repetition, the text received so
far, if it has no end mark and the text was the same before an earlier repetition (or is blank).
Missing for the full property: version changes without a flag change, see
`C27_alternating_versions_violated`. -/
theorem C63_radiotext_partial (env : Env) (hk : env.tmc.KeysOk) (o : Options) (w : Nat) (p : Word)
    (gs : List Group) (st : Station) (ls : List (Option Line))
    (h : Station.receive env (Station.withPI o w p) gs = some (st, ls)) (g : Group) (st' : Station) (j : J)
    (hu : st.updateAndPrint env g = some (st', some (.json j)))
    (hv : VersionsStable none false ((decodedGroups gs ls ++ [g]).filter rtGroup)) (v : J)
    (hj : j.at? ["radiotext"] = some v) :
    rtGroup g = true ∧
    ((∃ bs, WholeText (rtLength g) bs ∧
        (∀ i b, bs[i]? = some b → LatestByte (history radiotextOps (decodedGroups gs ls ++ [g])) i b) ∧
        v = .str (rtrim (rdsText (bs.map display)))) ∨
     (rtFirst g = true ∧ ∃ t, v = .str t ∧ HeldSoFar (history radiotextOps (decodedGroups gs ls)) t ∧
        (t = [] ∨ HeldEarlier (decodedGroups gs ls) t))) := by
  rcases radiotext_member hk h hu with ⟨-, hn⟩ | ⟨hr, hst, hat⟩
  · rw [hn] at hj; cases hj
  refine ⟨hr, ?_⟩
  obtain ⟨ht, h2, hus⟩ := (rtGroup_iff g).mp hr
  have facts := rt_facts hk h
  obtain ⟨vv, known⟩ := rt_known hk h
    (by rw [List.filter_append] at hv; exact versionsStable_prefix _ _ _ _ hv)
  have hv1 := known.rest [g] (by simpa [List.filter_append, hr] using hv)
  simp only [VersionsStable, hus, if_true] at hv1
  have hstep := rtStable_step o.showPartial known.stable g hus hv1.1
  have hops : history radiotextOps (decodedGroups gs ls) ++
      ((if rtFlag g != lastFlag rtGroup (decodedGroups gs ls) then [.clear] else []) ++
        (rtReceptions g).map (fun p => .recv p.1 p.2)) =
      history radiotextOps (decodedGroups gs ls ++ [g]) := by
    rw [history_snoc, radiotextOps, hr, if_pos rfl]
  rw [hops] at hstep
  obtain ⟨-, hinv, -⟩ := hstep
  change TextInv env.ucs2 (rtSize (rtIsA g)) .basic _ _ at hinv
  rw [hat] at hj
  obtain ⟨t, hrt, rfl⟩ := Option.map_eq_some_iff.mp hj
  obtain ⟨-, hcase⟩ := decodeType2_kept env.ucs2 o.showPartial st.radiotext g hus facts.enc
  generalize hd2 : decodeType2 env.ucs2 o.showPartial st.radiotext g = r at *
  cases hc : r.1.text.isComplete with
  | true =>
    left
    have hout : r.2.radiotext = some (rtrim r.1.text.lastCompleteString) := by
      rcases hcase with ⟨m, -, -, -, h⟩ | ⟨-, h⟩ <;> (rw [h]; unfold rtPrint; rw [if_pos hc])
    have hstr := (hinv.complete hc).2
    rw [RDSString.str, hinv.enc, getData_of_complete _ hc] at hstr
    simp only [RDSString.decode, Option.some.injEq] at hstr
    refine ⟨r.1.text.data.take r.1.text.getExpectedLength, ?_, ?_, ?_⟩
    · have := wholeText_take r.1.text (by rw [hinv.len]; exact rtSize_pos _)
      rwa [hinv.len] at this
    · intro i b hb
      rw [isComplete_iff] at hc
      rw [List.getElem?_take] at hb
      split at hb
      · obtain ⟨c, hc1, hc2⟩ := hinv.bytes i (by omega)
        rw [hc1] at hb
        cases hb
        exact hc2
      · cases hb
    · rw [hout] at hrt
      rw [← Option.some.inj hrt, ← hstr]
      rfl
  | false =>
    right
    rcases hcase with ⟨m, hm, ⟨h0, h1, -, hT⟩, -, hout⟩ | ⟨-, hout⟩
    · rw [hout] at hrt
      unfold rtPrint at hrt
      rw [if_neg (by rw [hc]; simp)] at hrt
      by_cases hconf : (m == st.radiotext.previousPotentiallyComplete) = true
      · rw [if_pos hconf] at hrt
        have hmt : rtrim m = t := Option.some.inj hrt
        rw [hm, rtrim_rtrim, ← hm] at hmt
        subst hmt
        refine ⟨by simp [rtFirst, hr, h0], m, rfl, ?_, ?_⟩
        · rw [hm]
          exact held_of_potential known.stable.2.1 h1 hT
        · rw [beq_iff_eq] at hconf
          rw [hconf]
          exact known.prev
      · rw [if_neg hconf] at hrt
        exfalso
        revert hrt
        dsimp only
        repeat' split
        all_goals (intro hx; cases hx)
    · rw [hout] at hrt
      unfold rtPrint at hrt
      rw [if_neg (by rw [hc]; simp)] at hrt
      exfalso
      revert hrt
      dsimp only
      repeat' split
      all_goals (intro hx; cases hx)

/-- **C63**, RadioText is printed when it was received in order. Whatever was received before some group
with RadioText: if the version does not change from then on, and the characters received since end in
a whole text in order (with anything after its end), the text is printed. -/
theorem C63_radiotext_complete (env : Env) (hk : env.tmc.KeysOk) (o : Options) (w : Nat) (p : Word)
    (gs : List Group) (st : Station) (ls : List (Option Line))
    (h : Station.receive env (Station.withPI o w p) gs = some (st, ls)) (g : Group) (st' : Station) (j : J)
    (hu : st.updateAndPrint env g = some (st', some (.json j))) (hg : rtGroup g = true)
    (ds1 ds2 : List Group) (g1 : Group) (hd : decodedGroups gs ls ++ [g] = ds1 ++ g1 :: ds2)
    (hg1 : rtGroup g1 = true) (hv : ∀ x ∈ ds2, rtGroup x = true → rtIsA x = rtIsA g1)
    (earlier : List TextOp) (bs : List Byte) (hw : WholeText (rtLength g1) bs)
    (later : List (Nat × Byte)) (hl : ∀ x ∈ later, bs.length ≤ x.1)
    (he : historyFrom radiotextOps ds1 (g1 :: ds2) =
      earlier ++ (inOrder 0 bs ++ later.map fun x => .recv x.1 x.2)) :
    j.at? ["radiotext"] = some (.str (rtrim (rdsText (bs.map display)))) := by
  obtain ⟨-, -, -, -, -, hrec, hdec, -, -, -⟩ := text_parts hk h hu
  rcases radiotext_member hk h hu with ⟨hn, -⟩ | ⟨hr, hst, hat⟩
  · rw [hg] at hn; cases hn
  obtain ⟨-, -, hus⟩ := (rtGroup_iff g).mp hr
  obtain ⟨s0, h1, h2, h3⟩ := rt_since hk hrec ds1 ds2 g1 (by rw [hdec]; exact hd) hg1 hv
  rw [he, RDSString.ops_append] at h3
  obtain ⟨c1, -, c3⟩ := C25_characters_after_the_end env.ucs2 (s0.ops env.ucs2 earlier) bs
    (by rw [(ops_encoding _ _ _).2, h1]; exact hw) (rdsText (bs.map display))
    (by rw [(ops_encoding _ _ _).1, h2]; rfl) later hl
  rw [← h3] at c1 c3
  have facts := rt_facts hk h
  obtain ⟨-, hcase⟩ := decodeType2_kept env.ucs2 o.showPartial st.radiotext g hus facts.enc
  rw [hat]
  rw [hst] at c1 c3
  generalize hd2 : decodeType2 env.ucs2 o.showPartial st.radiotext g = r at *
  have hout : r.2.radiotext = some (rtrim r.1.text.lastCompleteString) := by
    rcases hcase with ⟨m, -, -, -, h⟩ | ⟨-, h⟩ <;> (rw [h]; unfold rtPrint; rw [if_pos c1])
  rw [hout, c3]
  rfl

/-! ### Examples -/

/-- A change of the RadioText Plus flags between two texts: the second text is printed, after a
2A text that was not finished. -/
def demoRtGroups : List Group :=
  [demoGroup 0x6204 0x3016 0x0000 0x4BD7, demoGroup 0x6204 0x2000 0x4F6C 0x6420,
   demoGroup 0x6204 0xB010 0x0000 0x0000, demoGroup 0x6204 0x2000 0x4E65 0x7720,
   demoGroup 0x6204 0x2001 0x736F 0x6E67]

example : history radiotextOps demoRtGroups =
      [.recv 0 0x4F, .recv 1 0x6C, .recv 2 0x64, .recv 3 0x20, .clear] ++ inOrder 0 (ascii "New song") ∧
    historyFrom radiotextOps (demoRtGroups.take 3) (demoRtGroups.drop 3 ++ [demoGroup 0x6204 0x2002 0x0D20 0x2020]) =
      [] ++ (inOrder 0 (ascii "New song" ++ [0x0D]) ++ [.recv 9 0x20, .recv 10 0x20, .recv 11 0x20]) ∧
    demoMember demoRtGroups (demoGroup 0x6204 0x2002 0x0D20 0x2020) ["radiotext"] = some (ascii "New song") := by
  decide +kernel

example : WholeText 64 (ascii "New song" ++ [0x0D]) := by
  unfold WholeText
  decide

/-- Without an end mark, the text is printed with the beginning of the third repetition. -/
example :
    let twice := [demoGroup 0x6204 0x2000 0x4E65 0x7720, demoGroup 0x6204 0x2001 0x736F 0x6E67,
      demoGroup 0x6204 0x2000 0x4E65 0x7720, demoGroup 0x6204 0x2001 0x736F 0x6E67]
    demoMember (twice.take 2) (demoGroup 0x6204 0x2000 0x4E65 0x7720) ["radiotext"] = none ∧
    demoMember twice (demoGroup 0x6204 0x2000 0x4E65 0x7720) ["radiotext"] = some (ascii "New song") := by
  decide +kernel

end Redsea
