import Verif.Lemmas.RadioText

namespace Redsea

open Spec

/-- Every byte in the received part of the buffer is a blank or satisfies `S`. -/
def ShownIn (S : Nat → Byte → Prop) (s : RDSString) : Prop :=
  s.encoding = .basic ∧
    ∀ i b, i < s.seqLen → s.data[i]? = some b → b = 0x20 ∨ S i b

theorem ShownIn.mono {S T : Nat → Byte → Prop} {s : RDSString} (h : ShownIn S s)
    (hst : ∀ i b, S i b → T i b) : ShownIn T s :=
  ⟨h.1, fun i b hi hb => (h.2 i b hi hb).imp id (hst i b)⟩

theorem shownIn_clear (S : Nat → Byte → Prop) {s : RDSString} (he : s.encoding = .basic) :
    ShownIn S s.clear := ⟨he, fun i _ hi _ => absurd hi (Nat.not_lt_zero i)⟩

theorem shownIn_resize {S : Nat → Byte → Prop} {s : RDSString} (h : ShownIn S s) (n : Nat) :
    ShownIn S (s.resize n) := by
  refine ⟨h.1, fun i b hi hb => ?_⟩
  simp only [RDSString.resize] at hb
  rw [List.getElem?_append] at hb
  split at hb
  · rw [List.getElem?_take] at hb
    split at hb
    · exact h.2 i b hi hb
    · cases hb
  · rw [List.getElem?_replicate] at hb
    split at hb
    · left; simp only [Option.some.injEq] at hb; exact hb.symm
    · cases hb

theorem shownIn_recv {S : Nat → Byte → Prop} {ucs2 : Ucs2Decoder} {s : RDSString}
    (h : ShownIn S s) (pos : Nat) (c : Byte) (hS : S pos c) : ShownIn S (s.set ucs2 pos c) := by
  by_cases hp : pos < s.data.length
  · have hst : ShownIn S (s.store pos c) := by
      refine ⟨h.1, fun i b hi hb => ?_⟩
      simp only [RDSString.store] at hb hi
      by_cases hip : pos = i
      · subst hip
        rw [List.getElem?_set_self hp] at hb
        simp only [Option.some.injEq] at hb
        subst hb
        exact .inr hS
      · rw [List.getElem?_set_ne hip] at hb
        refine h.2 i b ?_ hb
        split at hi <;> omega
    rw [set_eq ucs2 s pos c hp]
    split
    · split
      · exact shownIn_clear S hst.1
      · exact hst
    · exact hst
  · have : s.set ucs2 pos c = s := by simp [RDSString.set]; omega
    rw [this]; exact h

theorem shownIn_ops {S : Nat → Byte → Prop} {ucs2 : Ucs2Decoder} {s : RDSString}
    (h : ShownIn S s) (rs : List (Nat × Byte)) (hr : ∀ p ∈ rs, S p.1 p.2) :
    ShownIn S (s.ops ucs2 (rs.map fun p => .recv p.1 p.2)) := by
  induction rs generalizing s with
  | nil => exact h
  | cons r rs ih =>
    exact ih (shownIn_recv h r.1 r.2 (hr r (by simp))) (fun p hp => hr p (by simp [hp]))

/-- In the history `gs`, byte `b` was received for position `i`, and from then on all groups
had the A/B flag `ab`. -/
def RecSince (gs : List Group) (ab : Bool) (i : Nat) (b : Byte) : Prop :=
  ∃ gs1 gs2, gs = gs1 ++ gs2 ∧ (∀ x ∈ gs2, RtUsable x = true → rtFlag x = ab) ∧
    ∃ x ∈ gs2, RtUsable x = true ∧ (i, b) ∈ rtReceptions x

theorem RecSince.snoc {gs : List Group} {ab : Bool} {i : Nat} {b : Byte} (h : RecSince gs ab i b)
    (g : Group) (hg : RtUsable g = true → rtFlag g = ab) : RecSince (gs ++ [g]) ab i b := by
  obtain ⟨gs1, gs2, rfl, h2, x, hx, hx2⟩ := h
  refine ⟨gs1, gs2 ++ [g], by simp, ?_, x, by simp [hx], hx2⟩
  intro y hy hu
  rcases List.mem_append.1 hy with hy | hy
  · exact h2 y hy hu
  · simp at hy; subst hy; exact hg hu

theorem rtWindow_step {ucs2 : Ucs2Decoder} (sp : Bool) (gs : List Group) (g : Group)
    (rt : RadioText) (h : ShownIn (RecSince gs rt.ab) rt.text) :
    ShownIn (RecSince (gs ++ [g]) (decodeType2 ucs2 sp rt g).1.ab)
      (decodeType2 ucs2 sp rt g).1.text := by
  cases hu : RtUsable g with
  | false =>
    rw [decodeType2_unusable _ _ _ _ hu]
    exact h.mono fun i b hr => RecSince.snoc hr g (by simp [hu])
  | true =>
    obtain ⟨h1, h2, _⟩ := decodeType2_usable ucs2 sp rt g hu h.1
    rw [h1, h2]
    apply shownIn_ops
    · apply shownIn_resize
      by_cases hf : rtFlag g = rt.ab
      · simp only [hf, bne_self_eq_false, Bool.false_eq_true, if_false]
        exact h.mono fun i b hr => RecSince.snoc hr g (fun _ => hf)
      · have : (rtFlag g != rt.ab) = true := by simpa using hf
        rw [this]
        exact shownIn_clear _ h.1
    · intro p hp
      refine ⟨gs, [g], rfl, ?_, g, by simp, hu, hp⟩
      intro x hx _
      simp at hx; subst hx; rfl

theorem rtWindow (ucs2 : Ucs2Decoder) (sp : Bool) (gs : List Group) :
    ShownIn (RecSince gs (rtAfter ucs2 sp gs).ab) (rtAfter ucs2 sp gs).text := by
  induction gs using snocInduction with
  | nil =>
    refine ⟨rfl, fun i b hi _ => ?_⟩
    exact absurd hi (Nat.not_lt_zero i)
  | snoc gs g ih =>
    rw [rtAfter_snoc]
    exact rtWindow_step sp gs g _ ih

/-- The bytes shown by `getData` are blanks or satisfy `S`. -/
theorem getData_shownIn {S : Nat → Byte → Prop} {s : RDSString} (h : ShownIn S s) :
    ∀ i b, s.getData[i]? = some b → b = 0x20 ∨ S i b := by
  intro i b hb
  simp only [RDSString.getData, List.getElem?_map, Option.map_eq_some_iff] at hb
  obtain ⟨j, hj, rfl⟩ := hb
  rw [List.getElem?_range] at hj
  · cases hj
    simp only [RDSString.shownByte]
    split
    · rename_i hs
      have hd : s.data[i]? = some (s.data.getD i 0) := by
        rw [List.getD_eq_getElem?_getD]
        cases hx : s.data[i]? with
        | none => simp [hx, List.getD_eq_getElem?_getD] at hs
        | some v => simp
      exact h.2 i _ hs.1 hd
    · left; rfl
  · have := List.getElem?_eq_some_iff.1 hj
    obtain ⟨h1, _⟩ := this
    simpa using h1

/-- After a reception inside the buffer, a complete text has just been saved. -/
theorem set_complete {ucs2 : Ucs2Decoder} {s : RDSString} {pos : Nat} {b : Byte}
    (he : s.encoding = .basic) (hp : pos < s.data.length)
    (hc : (s.set ucs2 pos b).isComplete = true) :
    (s.set ucs2 pos b).str ucs2 = some (s.set ucs2 pos b).lastCompleteString := by
  rw [set_eq ucs2 s pos b hp] at hc ⊢
  by_cases hcm : (s.store pos b).isComplete = true
  · rw [if_pos hcm] at hc ⊢
    have hstr : (s.store pos b).str ucs2 =
        some ((s.store pos b).getData.flatMap getRDSCharString) := by
      rw [RDSString.str, show (s.store pos b).encoding = s.encoding from rfl, he]; rfl
    rw [hstr] at hc ⊢
    exact hstr
  · rw [if_neg hcm] at hc
    exact absurd hc hcm

theorem set_length (ucs2 : Ucs2Decoder) (s : RDSString) (pos : Nat) (b : Byte) :
    (s.set ucs2 pos b).data.length = s.data.length := by
  by_cases hp : pos < s.data.length
  · rw [set_eq ucs2 s pos b hp]
    split
    · split <;> simp [RDSString.store, RDSString.clear]
    · simp [RDSString.store]
  · have : s.set ucs2 pos b = s := by simp [RDSString.set]; omega
    rw [this]

theorem set_encoding (ucs2 : Ucs2Decoder) (s : RDSString) (pos : Nat) (b : Byte) :
    (s.set ucs2 pos b).encoding = s.encoding := by
  by_cases hp : pos < s.data.length
  · rw [set_eq ucs2 s pos b hp]
    split
    · split <;> simp [RDSString.store, RDSString.clear]
    · simp [RDSString.store]
  · have : s.set ucs2 pos b = s := by simp [RDSString.set]; omega
    rw [this]

theorem rtTextStep_complete {ucs2 : Ucs2Decoder} {s : RDSString} {c : Bool} {g : Group}
    (he : s.encoding = .basic) (hc : (rtTextStep ucs2 s c g).isComplete = true) :
    (rtTextStep ucs2 s c g).str ucs2 = some (rtTextStep ucs2 s c g).lastCompleteString := by
  have hseg : g.block2.data.toNat % 16 < 16 := Nat.mod_lt _ (by decide)
  have hen : ((if c then s.clear else s).resize (rtSize (rtIsA g))).encoding = .basic := by
    cases c <;> exact he
  have hln := resize_length (if c then s.clear else s) (rtSize (rtIsA g))
  unfold rtTextStep at hc ⊢
  generalize (if c then s.clear else s).resize (rtSize (rtIsA g)) = s' at *
  unfold rtReceptions at hc ⊢
  cases hA : rtIsA g
  · simp only [hA, Bool.false_eq_true, if_false, RDSString.ops, List.map_cons, List.map_nil,
      List.foldl_cons, List.foldl_nil, RDSString.op, rtSize] at hc hln ⊢
    exact set_complete (by simp only [set_encoding, hen]) (by simp only [set_length, hln]; omega) hc
  · simp only [hA, if_true, RDSString.ops, List.map_cons, List.map_nil,
      List.foldl_cons, List.foldl_nil, RDSString.op, rtSize] at hc hln ⊢
    exact set_complete (by simp only [set_encoding, hen]) (by simp only [set_length, hln]; omega) hc

end Redsea
