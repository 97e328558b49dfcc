import Verif.Lemmas.RadioTextWindow

/-
Properties C27 and C29: RadioText versions and the A/B flag.
-/

namespace Redsea

open Spec

/-- Text of bytes in the RDS character set. -/
def rdsText (bs : List Byte) : Str := bs.flatMap getRDSCharString

/-- **C27** (partial). For a station that switches between 2A and 2B only together with the
A/B flag (in particular for one that uses one version only): whenever the RadioText is
complete after a group, the printed text consists of received bytes, each the latest for its
position since the last position 0 and the last flag change, and forms a whole text for the
version in use. Missing for the full property: version changes without a flag change, see
`C27_alternating_versions_violated`. -/
theorem C27_radiotext_received_partial (ucs2 : Ucs2Decoder) (sp : Bool) (gs : List Group)
    (g : Group) (hu : RtUsable g = true) (hv : VersionsStable none false (gs ++ [g])) :
    let r := decodeType2 ucs2 sp (rtAfter ucs2 sp gs) g
    r.1.text.isComplete = true →
      ∃ bs, WholeText (if rtIsA g then 64 else 32) bs ∧
        (∀ i b, bs[i]? = some b → LatestByte (rtOps false (gs ++ [g])) i b) ∧
        r.2.radiotext = some (rtrim (rdsText (bs.map display))) := by
  intro r hc
  -- the state before and after the group
  have hpre : ∀ (gs : List Group) v ab, VersionsStable v ab (gs ++ [g]) → VersionsStable v ab gs := by
    intro gs
    induction gs with
    | nil => intro _ _ _; trivial
    | cons x xs ih =>
      intro v ab h
      simp only [List.cons_append, VersionsStable] at h ⊢
      split
      · rename_i hx; simp only [hx, if_true] at h; exact ⟨h.1, ih _ _ h.2⟩
      · rename_i hx; simp only [hx] at h; exact ih _ _ h
  obtain ⟨v, ab, h1, h2⟩ := rtStable_run sp gs (rtStable_init ucs2) (hpre gs _ _ hv)
  obtain ⟨h3, h4⟩ := h2 [g] hv
  simp only [VersionsStable, hu, if_true] at h3
  have h5 := rtStable_step sp h1 g hu h3.1
  have hops : rtOps false (gs ++ [g]) = [] ++ rtOps false gs ++
      ((if rtFlag g != ab then [.clear] else []) ++
        (rtReceptions g).map (fun p => .recv p.1 p.2)) := by
    rw [h4]
    simp [rtOps, hu]
  rw [← hops] at h5
  obtain ⟨_, hinv, _⟩ := h5
  change TextInv ucs2 (rtSize (rtIsA g)) .basic _ r.1.text at hinv
  refine ⟨r.1.text.data.take r.1.text.getExpectedLength, ?_, ?_, ?_⟩
  · have := wholeText_take r.1.text (by rw [hinv.len]; exact rtSize_pos _)
    rwa [hinv.len] at this
  · intro i b hb
    rw [isComplete_iff] at hc
    rw [List.getElem?_take] at hb
    split at hb
    · obtain ⟨c, hc1, hc2⟩ := hinv.bytes i (by omega)
      rw [hc1] at hb
      cases hb
      exact hc2
    · cases hb
  · obtain ⟨_, _, hout⟩ := decodeType2_usable ucs2 sp (rtAfter ucs2 sp gs) g hu h1.2.1.enc
    have hstr := (hinv.complete hc).2
    rw [RDSString.str, hinv.enc, getData_of_complete _ hc] at hstr
    simp only [RDSString.decode, Option.some.injEq] at hstr
    have : r.2.radiotext = some (rtrim r.1.text.lastCompleteString) := by
      rcases hout with h | ⟨t, _, h⟩ <;>
        · change r.2 = rtPrint ucs2 sp r.1 _ _ at h
          rw [h, rtPrint, if_pos hc]
    rw [this, ← hstr]
    rfl

/-- A type 2 group with the given block contents. -/
def mkRt (isA : Bool) (seg : Nat) (ab : Bool) (b3 b4 : Word) : Group where
  type := { number := 2, version := if isA then .A else .B }
  hasType := true
  block2 := { data := BitVec.ofNat 16 (0x2000 + (if isA then 0 else 0x800) + (if ab then 16 else 0) + seg),
              isReceived := true }
  block3 := { data := b3, isReceived := true }
  block4 := { data := b4, isReceived := true }

/-- The groups of a text of `4 k` equal characters `c` in version A. -/
def rtRepeat (isA ab : Bool) (k : Nat) (w : Word) : List Group :=
  (List.range k).map fun seg => mkRt isA seg ab w w

/-- Hypotheses of C27 are met by a 2A text followed by a 2B text with changed flag, which is
reported complete. -/
example : VersionsStable none false
    ([mkRt true 0 false 0x4142 0x430D, mkRt false 0 true 0 0x4142] ++ [mkRt false 1 true 0 0x430D]) ∧
    (decodeType2 (fun _ => none) false (rtAfter (fun _ => none) false
      [mkRt true 0 false 0x4142 0x430D, mkRt false 0 true 0 0x4142])
      (mkRt false 1 true 0 0x430D)).2.radiotext = some (ascii "ABC") := by
  refine ⟨?_, by decide +kernel⟩
  simp [VersionsStable, RtUsable, mkRt, rtIsA, rtFlag]

/-- The full C27 is violated: after a complete 64-character 2A text, one 2B group and one 2A
group without a flag change, the text is reported complete, with blanks in its second half
that were never received (positions 32-59). -/
theorem C27_alternating_versions_violated :
    let gs := rtRepeat true false 16 0x4141 ++ [mkRt false 1 false 0 0x4242]
    let g := mkRt true 15 false 0x4343 0x4343
    (decodeType2 (fun _ => none) false (rtAfter (fun _ => none) false gs) g).2.radiotext =
      some (ascii "AABBAAAAAAAAAAAAAAAAAAAAAAAAAAAA                            CCCC") ∧
    -- no blank was ever transmitted
    ∀ g' ∈ gs ++ [g], ∀ p ∈ rtReceptions g', p.2 ≠ 0x20 := by
  decide +kernel

/-- **C29** (partial). Whenever a group that does not change the A/B flag (in particular every
later group after a change) prints a RadioText or a partial RadioText, each shown
character is a blank or was received in a group after the last flag change (all groups since
have the present flag). Missing for the full property: the group that changes the flag, see
`C29_change_group` and `C29_change_group_violated`. -/
theorem C29_flag_separates_partial (ucs2 : Ucs2Decoder) (sp : Bool) (gs : List Group) (g : Group)
    (hu : RtUsable g = true) (hf : rtFlag g = (rtAfter ucs2 sp gs).ab) (t : Str) :
    let r := decodeType2 ucs2 sp (rtAfter ucs2 sp gs) g
    (r.2.radiotext = some t ∨ r.2.partialRadiotext = some t) →
      ∃ bs, (∀ i b, bs[i]? = some b → b = 0x20 ∨ RecSince (gs ++ [g]) (rtFlag g) i b) ∧
        (t = rdsText bs ∨ t = rtrim (rdsText bs) ∨ t = rtrim (rtrim (rdsText bs))) := by
  intro r hprint
  have hw0 := rtWindow ucs2 sp gs
  have hw := rtWindow_step (ucs2 := ucs2) sp gs g _ hw0
  change ShownIn (RecSince (gs ++ [g]) r.1.ab) r.1.text at hw
  obtain ⟨h1, h2, h3⟩ := decodeType2_usable ucs2 sp _ g hu hw0.1
  change r.1.text = _ at h1
  change r.1.ab = _ at h2
  rw [h2] at hw
  have hcomplete : r.1.text.isComplete = true →
      r.1.text.lastCompleteString = rdsText r.1.text.getData := by
    intro hc
    rw [h1] at hc ⊢
    have := rtTextStep_complete hw0.1 hc
    rw [RDSString.str, ← h1, hw.1] at this
    simp only [RDSString.decode, Option.some.injEq] at this
    rw [← h1, ← this]; rfl
  have hcur := getData_shownIn hw
  have hold : ∀ i b, (rtAfter ucs2 sp gs).text.getData[i]? = some b →
      b = 0x20 ∨ RecSince (gs ++ [g]) (rtFlag g) i b := by
    intro i b hb
    refine (getData_shownIn hw0 i b hb).imp id fun hr => ?_
    rw [← hf] at hr
    exact RecSince.snoc hr g fun _ => rfl
  have hstrcur : r.1.text.str ucs2 = some (rdsText r.1.text.getData) := by
    rw [RDSString.str, hw.1]; rfl
  have key : ∀ m : Option Str, (∀ x, m = some x →
      x = rtrim (rdsText (rtAfter ucs2 sp gs).text.getData)) →
      r.2 = rtPrint ucs2 sp r.1 m { rtAb := if sp then some (rtFlag g) else none } →
      ∃ bs, (∀ i b, bs[i]? = some b → b = 0x20 ∨ RecSince (gs ++ [g]) (rtFlag g) i b) ∧
        (t = rdsText bs ∨ t = rtrim (rdsText bs) ∨ t = rtrim (rtrim (rdsText bs))) := by
    intro m hm hr
    rw [hr] at hprint
    simp only [rtPrint] at hprint
    by_cases hc : r.1.text.isComplete = true
    · rw [if_pos hc] at hprint
      simp only [Option.some.injEq, reduceCtorEq, or_false] at hprint
      exact ⟨_, hcur, .inr (.inl (by rw [← hprint, hcomplete hc]))⟩
    · rw [if_neg hc] at hprint
      cases m with
      | some x =>
        simp only [Option.some.injEq, reduceCtorEq, or_false] at hprint
        exact ⟨_, hold, .inr (.inr (by rw [← hprint, hm x rfl]))⟩
      | none =>
        simp only [hstrcur] at hprint
        split at hprint
        · split at hprint
          · simp only [reduceCtorEq, Option.some.injEq, false_or] at hprint
            exact ⟨_, hcur, .inl hprint.symm⟩
          · simp at hprint
        · simp at hprint
  rcases h3 with h3 | ⟨m, hm, h3⟩
  · exact key none (by simp) h3
  · refine key (some (rtrim m)) ?_ h3
    intro x hx
    cases hx
    rw [RDSString.str, hw0.1] at hm
    simp only [RDSString.decode, Option.some.injEq] at hm
    rw [← hm]; rfl

/-- In a group that changes the A/B flag, everything printed still comes from one side of the
change: either all characters were received since the change (in this group), or all of them
were received under the old flag, with no group of the new flag in between. -/
theorem C29_change_group (ucs2 : Ucs2Decoder) (sp : Bool) (gs : List Group) (g : Group)
    (hu : RtUsable g = true) (t : Str) :
    let r := decodeType2 ucs2 sp (rtAfter ucs2 sp gs) g
    (r.2.radiotext = some t ∨ r.2.partialRadiotext = some t) →
      ∃ bs, ((∀ i b, bs[i]? = some b → b = 0x20 ∨ RecSince (gs ++ [g]) (rtFlag g) i b) ∨
          (∀ i b, bs[i]? = some b → b = 0x20 ∨ RecSince gs (rtAfter ucs2 sp gs).ab i b)) ∧
        (t = rdsText bs ∨ t = rtrim (rdsText bs) ∨ t = rtrim (rtrim (rdsText bs))) := by
  intro r hprint
  have hw0 := rtWindow ucs2 sp gs
  have hw := rtWindow_step (ucs2 := ucs2) sp gs g _ hw0
  change ShownIn (RecSince (gs ++ [g]) r.1.ab) r.1.text at hw
  obtain ⟨h1, h2, h3⟩ := decodeType2_usable ucs2 sp _ g hu hw0.1
  change r.1.text = _ at h1
  change r.1.ab = _ at h2
  rw [h2] at hw
  have hcomplete : r.1.text.isComplete = true →
      r.1.text.lastCompleteString = rdsText r.1.text.getData := by
    intro hc
    rw [h1] at hc ⊢
    have := rtTextStep_complete hw0.1 hc
    rw [RDSString.str, ← h1, hw.1] at this
    simp only [RDSString.decode, Option.some.injEq] at this
    rw [← h1, ← this]; rfl
  have hcur := getData_shownIn hw
  have hold := getData_shownIn hw0
  have hstrcur : r.1.text.str ucs2 = some (rdsText r.1.text.getData) := by
    rw [RDSString.str, hw.1]; rfl
  rcases h3 with h3 | ⟨m, hm, h3⟩
  all_goals
    change r.2 = _ at h3
    rw [h3] at hprint
    simp only [rtPrint] at hprint
    by_cases hc : r.1.text.isComplete = true
    · rw [if_pos (show (decodeType2 ucs2 sp (rtAfter ucs2 sp gs) g).1.text.isComplete = true from hc)]
        at hprint
      simp only [Option.some.injEq, reduceCtorEq, or_false] at hprint
      exact ⟨_, .inl hcur, .inr (.inl (by rw [← hprint, ← hcomplete hc]))⟩
    · rw [if_neg (show ¬ (decodeType2 ucs2 sp (rtAfter ucs2 sp gs) g).1.text.isComplete = true from hc)]
        at hprint
      first
      | (simp only [Option.some.injEq, reduceCtorEq, or_false] at hprint
         refine ⟨_, .inr hold, .inr (.inr ?_)⟩
         rw [RDSString.str, hw0.1] at hm
         simp only [RDSString.decode, Option.some.injEq] at hm
         rw [← hprint, ← hm]; rfl)
      | (rw [show RDSString.str ucs2 (decodeType2 ucs2 sp (rtAfter ucs2 sp gs) g).1.text = _ from hstrcur]
           at hprint
         dsimp only at hprint
         split at hprint
         · split at hprint
           · simp only [reduceCtorEq, Option.some.injEq, false_or] at hprint
             exact ⟨_, .inl hcur, .inl hprint.symm⟩
           · simp at hprint
         · simp at hprint)

/-- The full C29 is violated in the group that carries the flag change: a message "ABCD" without
terminator, sent twice, is printed by the first group of the *next* message, whose flag has
changed; none of the printed characters was received since. -/
theorem C29_change_group_violated :
    let gs := [mkRt true 0 false 0x4142 0x4344, mkRt true 0 false 0x4142 0x4344]
    let g := mkRt true 0 true 0x5758 0x595A
    (decodeType2 (fun _ => none) false (rtAfter (fun _ => none) false gs) g).2.radiotext =
      some (ascii "ABCD") := by
  decide +kernel

end Redsea
