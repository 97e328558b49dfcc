import Verif.Model.RadioText
import Verif.Spec.RadioText
import Verif.Lemmas.TextInOrder

namespace Redsea

open Spec

theorem getUint8_hi (w : Word) : getUint8 w 8 = hiByte w := by
  have := w.isLt
  simp only [getUint8, hiByte, getBits, Nat.shiftRight_eq_div_pow]
  congr 1
  omega

theorem getUint8_lo (w : Word) : getUint8 w 0 = loByte w := by
  simp only [getUint8, loByte, getBits, Nat.shiftRight_zero]

theorem getBool_flag (g : Group) : getBool (g.get .b2) 4 = rtFlag g := by
  simp only [getBool, rtFlag, getBits, Nat.shiftRight_eq_div_pow, Group.get, Group.block]
  rcases Nat.mod_two_eq_zero_or_one (g.block2.data.toNat / 16) with h | h <;> simp [h]

/-- Size of the text buffer used for a version. -/
def rtSize (isA : Bool) : Nat := if isA then 64 else 32

theorem rtSize_pos (isA : Bool) : 0 < rtSize isA := by cases isA <;> decide

/-- The state after a list of groups, from state `rt`. -/
def rtAfterFrom (ucs2 : Ucs2Decoder) (sp : Bool) (rt : RadioText) (gs : List Group) : RadioText :=
  gs.foldl (fun rt g => (decodeType2 ucs2 sp rt g).1) rt

/-- The state after a list of type 2 groups, from start-up. -/
def rtAfter (ucs2 : Ucs2Decoder) (sp : Bool) (gs : List Group) : RadioText :=
  rtAfterFrom ucs2 sp {} gs

theorem rtAfter_snoc (ucs2 : Ucs2Decoder) (sp : Bool) (gs : List Group) (g : Group) :
    rtAfter ucs2 sp (gs ++ [g]) = (decodeType2 ucs2 sp (rtAfter ucs2 sp gs) g).1 := by
  simp [rtAfter, rtAfterFrom]

/-- The text buffer after a usable group: clear (on flag change), resize, receive. -/
def rtTextStep (ucs2 : Ucs2Decoder) (s : RDSString) (flagChanged : Bool) (g : Group) : RDSString :=
  ((if flagChanged then s.clear else s).resize (rtSize (rtIsA g))).ops ucs2
    ((rtReceptions g).map fun p => .recv p.1 p.2)

theorem rtReceive_text (ucs2 : Ucs2Decoder) (rt : RadioText) (g : Group) (c : Bool)
    (hu : RtUsable g = true) :
    (rtReceive ucs2 rt g (g.type.version == .A) c
      (getBits 4 (g.get .b2) 0 * (if g.type.version == .A then 4 else 2))).text =
        rtTextStep ucs2 rt.text c g := by
  have hseg : getBits 4 (g.get .b2) 0 = g.block2.data.toNat % 16 := by
    simp [getBits, Group.get, Group.block]
  have h4 : g.has .b4 = true := by
    simp only [RtUsable, Bool.and_eq_true] at hu
    exact hu.2
  rw [hseg]
  unfold rtReceive rtTextStep rtReceptions rtIsA
  rw [h4]
  cases hA : (g.type.version == .A) <;> cases c <;>
    simp [RadioText.update, RDSString.set2, RDSString.ops, RDSString.op, getUint8_hi, getUint8_lo,
      rtSize, Group.get, Group.block, Nat.mul_comm, Nat.add_assoc]

theorem rtReceive_ab (ucs2 : Ucs2Decoder) (rt : RadioText) (g : Group) (isA c : Bool) (pos : Nat) :
    (rtReceive ucs2 rt g isA c pos).ab = rt.ab := by
  unfold rtReceive
  cases isA <;> cases c <;> cases g.has .b4 <;> rfl

theorem decodeType2_unusable (ucs2 : Ucs2Decoder) (sp : Bool) (rt : RadioText) (g : Group)
    (hu : RtUsable g = false) : decodeType2 ucs2 sp rt g = (rt, {}) := by
  have : (!(g.has .b3 && g.has .b4)) = true := by
    change (!RtUsable g) = true
    rw [hu]; rfl
  simp only [decodeType2]
  rw [if_pos this]

/-- State change and printed text for a usable group, when decoding cannot fail. -/
theorem decodeType2_usable (ucs2 : Ucs2Decoder) (sp : Bool) (rt : RadioText) (g : Group)
    (hu : RtUsable g = true) (he : rt.text.encoding = .basic) :
    (decodeType2 ucs2 sp rt g).1.text = rtTextStep ucs2 rt.text (rtFlag g != rt.ab) g ∧
    (decodeType2 ucs2 sp rt g).1.ab = rtFlag g ∧
    ((decodeType2 ucs2 sp rt g).2 =
        rtPrint ucs2 sp (decodeType2 ucs2 sp rt g).1 none
          { rtAb := if sp then some (rtFlag g) else none } ∨
      ∃ t, rt.text.str ucs2 = some t ∧ (decodeType2 ucs2 sp rt g).2 =
        rtPrint ucs2 sp (decodeType2 ucs2 sp rt g).1 (some (rtrim t))
          { rtAb := if sp then some (rtFlag g) else none }) := by
  have h34 : (!(g.has .b3 && g.has .b4)) = false := by
    simpa [RtUsable, Group.has, Group.block] using hu
  have hstr : ∃ t, rt.text.str ucs2 = some t := by
    rw [RDSString.str, he]; exact ⟨_, rfl⟩
  obtain ⟨t, ht⟩ := hstr
  have hne : (rt.ab != rtFlag g) = (rtFlag g != rt.ab) := by
    cases rt.ab <;> cases rtFlag g <;> rfl
  simp only [decodeType2, h34, getBool_flag, hne, ht, Bool.false_eq_true, if_false]
  by_cases hp : rtPotential { rt with ab := rtFlag g }
      (getBits 4 (g.get .b2) 0 * (if g.type.version == .A then 4 else 2)) = true
  · rw [if_pos hp]
    refine ⟨rtReceive_text _ _ _ _ hu, rtReceive_ab _ _ _ _ _ _, ?_⟩
    by_cases hm : (rtrim t == rt.previousPotentiallyComplete) = true
    · right
      exact ⟨t, rfl, by simp only [hm, if_true]⟩
    · left
      simp only [hm, Bool.false_eq_true, if_false]
  · rw [if_neg hp]
    exact ⟨rtReceive_text _ _ _ _ hu, rtReceive_ab _ _ _ _ _ _, .inl rfl⟩

theorem resize_length (s : RDSString) (n : Nat) : (s.resize n).data.length = n := by
  simp [RDSString.resize]; omega

theorem resize_same (s : RDSString) : s.resize s.data.length = s := by
  simp [RDSString.resize]

theorem textInv_ops {ucs2 : Ucs2Decoder} {n : Nat} {e : Encoding} {h : List TextOp} {s : RDSString}
    (hn : 0 < n) (inv : TextInv ucs2 n e h s) (h' : List TextOp) :
    TextInv ucs2 n e (h ++ h') (s.ops ucs2 h') := by
  induction h' using snocInduction with
  | nil => simpa [RDSString.ops] using inv
  | snoc h' o ih =>
    rw [RDSString.ops_snoc, ← List.append_assoc]
    exact textInv_op hn ih o

theorem textInv_of_empty {ucs2 : Ucs2Decoder} {e : Encoding} {h : List TextOp} {s : RDSString}
    {n : Nat} (hn : 0 < n) (he : s.encoding = e) (hs : s.seqLen = 0) :
    TextInv ucs2 n e h (s.resize n) := by
  refine ⟨resize_length s n, he, by simp [RDSString.resize, hs], ?_, fun hc => ?_⟩
  · intro i hi
    simp [RDSString.resize, hs] at hi
  · rw [not_isComplete_of_seq_zero (s.resize n) (by rw [resize_length]; exact hn) hs] at hc
    cases hc

/-- One group on the text buffer, when the buffer size stays the same, or the flag changes, or
nothing was received yet. -/
theorem rtTextStep_inv {ucs2 : Ucs2Decoder} {n : Nat} {h : List TextOp} {s : RDSString}
    (inv : TextInv ucs2 n .basic h s) (c : Bool) (g : Group)
    (hsz : n = rtSize (rtIsA g) ∨ c = true ∨ s.seqLen = 0) :
    TextInv ucs2 (rtSize (rtIsA g)) .basic
      (h ++ ((if c then [.clear] else []) ++ (rtReceptions g).map (fun p => .recv p.1 p.2)))
      (rtTextStep ucs2 s c g) := by
  rw [← List.append_assoc]
  unfold rtTextStep
  apply textInv_ops (rtSize_pos _)
  cases c with
  | true =>
    exact textInv_of_empty (rtSize_pos _) inv.enc rfl
  | false =>
    rcases hsz with hsz | hsz | hsz
    · have : s.data.length = rtSize (rtIsA g) := by rw [inv.len, hsz]
      simp only [Bool.false_eq_true, if_false, List.append_nil]
      rw [← this, resize_same, this, ← hsz]
      exact inv
    · cases hsz
    · exact textInv_of_empty (rtSize_pos _) inv.enc hsz

/-- Invariant of the RadioText state for stations that switch between 2A and 2B only together
with the A/B flag. -/
def RtStable (ucs2 : Ucs2Decoder) (v : Option Bool) (ab : Bool) (h : List TextOp)
    (rt : RadioText) : Prop :=
  rt.ab = ab ∧ TextInv ucs2 (match v with | none => 64 | some a => rtSize a) .basic h rt.text ∧
    (v = none → rt.text.seqLen = 0)

theorem rtStable_step {ucs2 : Ucs2Decoder} {v : Option Bool} {ab : Bool} {h : List TextOp}
    {rt : RadioText} (sp : Bool) (inv : RtStable ucs2 v ab h rt) (g : Group)
    (hu : RtUsable g = true) (hv : v = none ∨ v = some (rtIsA g) ∨ rtFlag g ≠ ab) :
    RtStable ucs2 (some (rtIsA g)) (rtFlag g)
      (h ++ ((if rtFlag g != ab then [.clear] else []) ++
        (rtReceptions g).map (fun p => .recv p.1 p.2)))
      (decodeType2 ucs2 sp rt g).1 := by
  obtain ⟨hab, htx, hno⟩ := inv
  obtain ⟨h1, h2, _⟩ := decodeType2_usable ucs2 sp rt g hu htx.enc
  refine ⟨h2, ?_, by simp⟩
  rw [h1, hab]
  apply rtTextStep_inv htx
  rcases hv with hv | hv | hv
  · exact .inr (.inr (hno hv))
  · subst hv; exact .inl rfl
  · exact .inr (.inl (by simpa using hv))

theorem rtStable_run {ucs2 : Ucs2Decoder} (sp : Bool) (gs : List Group) :
    ∀ {v : Option Bool} {ab : Bool} {h : List TextOp} {rt : RadioText},
      RtStable ucs2 v ab h rt → VersionsStable v ab gs →
      ∃ v' ab', RtStable ucs2 v' ab' (h ++ rtOps ab gs) (rtAfterFrom ucs2 sp rt gs) ∧
        ∀ gs', VersionsStable v ab (gs ++ gs') → VersionsStable v' ab' gs' ∧
          rtOps ab (gs ++ gs') = rtOps ab gs ++ rtOps ab' gs' := by
  induction gs with
  | nil =>
    intro v ab h rt inv _
    exact ⟨v, ab, by simpa [rtOps, rtAfterFrom] using inv, fun gs' h' => ⟨h', by simp [rtOps]⟩⟩
  | cons g gs ih =>
    intro v ab h rt inv hv
    cases hu : RtUsable g with
    | false =>
      simp only [VersionsStable, hu, Bool.false_eq_true, if_false] at hv
      have hs : (decodeType2 ucs2 sp rt g).1 = rt := by rw [decodeType2_unusable _ _ _ _ hu]
      obtain ⟨v', ab', h1, h2⟩ := ih inv hv
      refine ⟨v', ab', ?_, ?_⟩
      · simp only [rtAfterFrom, List.foldl_cons, hs, rtOps, hu, Bool.false_eq_true, if_false]
        exact h1
      · intro gs' h'
        simp only [List.cons_append, VersionsStable, hu, Bool.false_eq_true, if_false] at h'
        simpa [rtOps, hu] using h2 gs' h'
    | true =>
      simp only [VersionsStable, hu, if_true] at hv
      obtain ⟨v', ab', h1, h2⟩ := ih (rtStable_step sp inv g hu hv.1) hv.2
      refine ⟨v', ab', ?_, ?_⟩
      · simp only [rtAfterFrom, List.foldl_cons, rtOps, hu, if_true]
        simpa [rtAfterFrom, List.append_assoc] using h1
      · intro gs' h'
        simp only [List.cons_append, VersionsStable, hu, if_true] at h'
        have := h2 gs' h'.2
        refine ⟨this.1, ?_⟩
        simp only [List.cons_append, rtOps, hu, if_true, this.2, List.append_assoc]

theorem rtStable_init (ucs2 : Ucs2Decoder) : RtStable ucs2 none false [] {} :=
  ⟨rfl, textInv_init ucs2 64 (by decide) .basic, fun _ => rfl⟩

end Redsea
