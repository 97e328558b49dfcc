import Verif.Props.Stream

/-
C12-C14: type and PI of groups assembled from a bit stream.
-/

namespace Redsea
open Spec BlockStream

/-- Facts about the assembly of a group from at most four blocks in transmission order, where
only a third block can have offset C'. -/
theorem buildGroup_type (f : BlockNum → Option Block)
    (hrec : ∀ n b, f n = some b → b.isReceived = true)
    (hoff : ∀ n b, f n = some b → b.offset = .Cprime → n = .b3) :
    let g := buildGroup f 4
    (g.hasType = true ↔ ∃ b2, f .b2 = some b2 ∧ ((GroupType.ofCode (getBits 5 b2.data 11)).version = .A ∨
      ∃ b3, f .b3 = some b3 ∧ b3.offset = .Cprime)) ∧
    (∀ b2, f .b2 = some b2 → g.type = GroupType.ofCode (getBits 5 b2.data 11)) ∧
    (f .b2 = none → g.type = {}) := by
  have hver : ∀ c, (GroupType.ofCode c).version ≠ .A → (GroupType.ofCode c).version = .B := by
    intro c; simp only [GroupType.ofCode]; split <;> simp
  have key : ∀ (x1 x2 x3 x4 : Option Block),
      (∀ b, x1 = some b → b.offset ≠ .Cprime) → (∀ b, x2 = some b → b.offset ≠ .Cprime ∧ b.isReceived = true) →
      (∀ b, x4 = some b → b.offset ≠ .Cprime) →
      let g := addOpt (addOpt (addOpt (addOpt {} .b1 x1) .b2 x2) .b3 x3) .b4 x4
      (g.hasType = true ↔ ∃ b2, x2 = some b2 ∧ ((GroupType.ofCode (getBits 5 b2.data 11)).version = .A ∨
        ∃ b3, x3 = some b3 ∧ b3.offset = .Cprime)) ∧
      (∀ b2, x2 = some b2 → g.type = GroupType.ofCode (getBits 5 b2.data 11)) ∧
      (x2 = none → g.type = {}) := by
    intro x1 x2 x3 x4 h1 h2 h4
    have s1 : (addOpt {} .b1 x1).hasType = false ∧ (addOpt {} .b1 x1).hasCPrime = false ∧
        (addOpt {} .b1 x1).noOffsets = false ∧ (addOpt {} .b1 x1).type = {} ∧
        (addOpt {} .b1 x1).has .b2 = false := by
      cases x1 with
      | none => exact ⟨rfl, rfl, rfl, rfl, rfl⟩
      | some b =>
        have := h1 b rfl
        simp [addOpt, Group.setBlock, Group.putBlock, Group.recogniseType, this, Group.has,
          Group.block]
    dsimp only
    generalize addOpt {} .b1 x1 = g1 at s1 ⊢
    obtain ⟨a1, a2, a3, a4, a5⟩ := s1
    cases x2 with
    | none =>
      have s3 : (addOpt g1 .b3 x3).hasType = false ∧ (addOpt g1 .b3 x3).hasCPrime = false ∧
          (addOpt g1 .b3 x3).type = {} ∧ (addOpt g1 .b3 x3).has .b2 = false := by
        cases x3 with
        | none => exact ⟨a1, a2, a4, a5⟩
        | some b =>
          have hb : g1.block2.isReceived = false := a5
          simp [addOpt, Group.setBlock, Group.putBlock, Group.recogniseType, Group.has,
            Group.block, a1, a2, a4, hb]
      have e : addOpt g1 .b2 none = g1 := rfl
      rw [e]
      generalize addOpt g1 .b3 x3 = g3 at s3 ⊢
      obtain ⟨c1, c2, c3, c4⟩ := s3
      cases x4 with
      | none => simp [addOpt, c1, c3]
      | some b =>
        have := h4 b rfl
        simp [addOpt, Group.setBlock, Group.putBlock, Group.recogniseType, c1, c2, c3, this]
    | some b2 =>
      obtain ⟨h2o, h2r⟩ := h2 b2 rfl
      have s2 : (addOpt g1 .b2 (some b2)).type = GroupType.ofCode (getBits 5 b2.data 11) ∧
          ((addOpt g1 .b2 (some b2)).hasType = true ↔
            (GroupType.ofCode (getBits 5 b2.data 11)).version = .A) ∧
          (addOpt g1 .b2 (some b2)).hasCPrime = false ∧
          (addOpt g1 .b2 (some b2)).block2.isReceived = true := by
        simp [addOpt, Group.setBlock, Group.putBlock, Group.recogniseType, a1, a2, a3, h2o, h2r]
      generalize addOpt g1 .b2 (some b2) = g2 at s2 ⊢
      obtain ⟨b1', b2', b3', b4'⟩ := s2
      have s3 : (addOpt g2 .b3 x3).type = GroupType.ofCode (getBits 5 b2.data 11) ∧
          ((addOpt g2 .b3 x3).hasType = true ↔
            ((GroupType.ofCode (getBits 5 b2.data 11)).version = .A ∨
              ∃ b3, x3 = some b3 ∧ b3.offset = .Cprime)) ∧
          (addOpt g2 .b3 x3).hasCPrime = false := by
        cases x3 with
        | none => simp [addOpt, b1', b2', b3']
        | some b =>
          by_cases hA : (GroupType.ofCode (getBits 5 b2.data 11)).version = .A
          · have : g2.hasType = true := b2'.2 hA
            simp [addOpt, Group.setBlock, Group.putBlock, this, b1', b3', hA]
          · have hf : g2.hasType = false := by
              cases h : g2.hasType with
              | false => rfl
              | true => exact absurd (b2'.1 h) hA
            have hB := hver _ hA
            by_cases hC : b.offset = .Cprime
            · simp [addOpt, Group.setBlock, Group.putBlock, Group.recogniseType, Group.has,
                Group.block, hf, b1', b3', b4', hC, hB]
            · simp [addOpt, Group.setBlock, Group.putBlock, Group.recogniseType, hf, b1', b3',
                hC, hB]
      generalize addOpt g2 .b3 x3 = g3 at s3 ⊢
      obtain ⟨c1, c2, c3⟩ := s3
      cases x4 with
      | none => simp [addOpt, c1, c2]
      | some b =>
        have := h4 b rfl
        have e : (g3.setBlock .b4 b).hasType = g3.hasType ∧ (g3.setBlock .b4 b).type = g3.type := by
          cases hh : g3.hasType <;>
          simp [Group.setBlock, Group.putBlock, Group.recogniseType, c3, this, hh]
        simp [addOpt, e.1, e.2, c1, c2]
  have := key (f .b1) (f .b2) (f .b3) (f .b4)
    (fun b hb hc => by have := hoff _ _ hb hc; cases this)
    (fun b hb => ⟨fun hc => (by have := hoff _ _ hb hc; cases this), hrec _ _ hb⟩)
    (fun b hb hc => by have := hoff _ _ hb hc; cases this)
  exact this

theorem DeliveredFrom.blocks {fec : Bool} {bs : List Bool} {g : Group} (h : DeliveredFrom fec bs g) :
    ∃ f : BlockNum → Option Block, g = buildGroup f 4 ∧
      (∀ n b, f n = some b → b.isReceived = true) ∧
      (∀ n b, f n = some b → b.offset = .Cprime → n = .b3) ∧
      (∀ n, g.block n = (f n).getD {}) := by
  obtain ⟨f, hg, hp⟩ := h
  refine ⟨f, hg, ?_, ?_, ?_⟩
  · intro n b hb
    obtain ⟨o, w, e, _, _, _, _, hr, _⟩ := hp n b hb
    exact hr
  · intro n b hb hc
    obtain ⟨o, w, e, _, _, hi, ho, _⟩ := hp n b hb
    rw [ho] at hc
    cases o <;> simp [toOffset] at hc
    cases n <;> simp [OffsetName.index, BlockNum.toNat] at hi
    rfl
  · intro n
    have := block_buildGroup f 4 (by omega) n
    rw [hg, this, if_pos (by cases n <;> decide)]

/-- The version bit of block 2 (bit 11), and the group type number (top four bits). -/
def versionBit (w : Word) : Bool := w.getLsbD 11
@[inherit_doc versionBit] def typeNumber (w : Word) : Nat := w.toNat / 4096

theorem ofCode_block2 (w : Word) :
    (GroupType.ofCode (getBits 5 w 11)).number = typeNumber w ∧
    (GroupType.ofCode (getBits 5 w 11)).version = if versionBit w then .B else .A := by
  have hlt := w.isLt
  have e : getBits 5 w 11 = w.toNat / 2048 := by
    simp only [getBits, Nat.shiftRight_eq_div_pow]
    exact Nat.mod_eq_of_lt (by omega)
  refine ⟨?_, ?_⟩
  · simp only [GroupType.ofCode, typeNumber, e, Nat.shiftRight_eq_div_pow]
    rw [Nat.mod_eq_of_lt (by omega), Nat.div_div_eq_div_mul]
  · have hv : versionBit w = decide (w.toNat / 2048 % 2 = 1) := by
      unfold versionBit BitVec.getLsbD
      rw [Nat.testBit_eq_decide_div_mod_eq]
    simp only [GroupType.ofCode, hv, e, decide_eq_true_eq]
    generalize w.toNat / 2048 = q
    have h2 : q % 2 = 0 ∨ q % 2 = 1 := by omega
    rcases h2 with h | h <;> simp [h]

/-- C12: type of a group delivered from a bit stream. -/
theorem C12_group_type (fec : Bool) (bs : List Bool) (bit : Bool) (g : Group)
    (h : deliveredAt fec bs bit = some g) :
    (g.hasType = true ↔ g.has .b2 = true ∧
      (versionBit (g.get .b2) = false ∨ (g.has .b3 = true ∧ (g.block .b3).offset = .Cprime))) ∧
    (g.has .b2 = true → g.type.number = typeNumber (g.get .b2) ∧
      g.type.version = if versionBit (g.get .b2) then .B else .A) := by
  obtain ⟨f, hg, hr, ho, hb⟩ := ((step_inv (inv_stateAfter fec bs) bit).2 g h).blocks
  obtain ⟨t1, t2, t3⟩ := buildGroup_type f hr ho
  rw [← hg] at t1 t2 t3
  have hhas : ∀ n, g.has n = true ↔ ∃ b, f n = some b := by
    intro n
    rw [Group.has, hb]
    cases hf : f n with
    | none => simp
    | some b => simp [hr n b hf]
  refine ⟨?_, ?_⟩
  · rw [t1, hhas, hhas]
    constructor
    · rintro ⟨b2, hb2, hv⟩
      refine ⟨⟨b2, hb2⟩, ?_⟩
      have hget : g.get .b2 = b2.data := by rw [Group.get, hb, hb2]; rfl
      rw [hget]
      rcases hv with hv | ⟨b3, hb3, hc⟩
      · left
        rw [(ofCode_block2 b2.data).2] at hv
        cases hvb : versionBit b2.data <;> simp [hvb] at hv ⊢
      · right
        exact ⟨⟨b3, hb3⟩, by rw [hb, hb3]; exact hc⟩
    · rintro ⟨⟨b2, hb2⟩, hv⟩
      refine ⟨b2, hb2, ?_⟩
      have hget : g.get .b2 = b2.data := by rw [Group.get, hb, hb2]; rfl
      rw [hget] at hv
      rcases hv with hv | ⟨⟨b3, hb3⟩, hc⟩
      · left; rw [(ofCode_block2 b2.data).2, hv]; rfl
      · right; exact ⟨b3, hb3, by rw [hb, hb3] at hc; exact hc⟩
  · rw [hhas]
    rintro ⟨b2, hb2⟩
    have hget : g.get .b2 = b2.data := by rw [Group.get, hb, hb2]; rfl
    rw [t2 b2 hb2, hget]
    exact ofCode_block2 b2.data

/-- C12, no offsets available (hex input): a group filled by setting received blocks in order,
the type being that of block 2 as soon as it is set. -/
theorem C12_group_type_hex (b1 b2 b3 b4 : Option Block)
    (hoff : ∀ b, b1 = some b ∨ b2 = some b ∨ b3 = some b ∨ b4 = some b → b.offset = .invalid) :
    let g := addOpt (addOpt (addOpt (addOpt (({} : Group).disableOffsets) .b1 b1) .b2 b2) .b3 b3) .b4 b4
    (g.hasType = true ↔ b2.isSome = true) ∧
    (∀ b, b2 = some b → g.type.number = typeNumber b.data ∧
      g.type.version = if versionBit b.data then .B else .A) := by
  have set_typed : ∀ (g : Group) (n : BlockNum) (x : Option Block), g.hasType = true →
      (addOpt g n x).hasType = true ∧ (addOpt g n x).type = g.type := by
    intro g n x hg
    cases x with
    | none => exact ⟨hg, rfl⟩
    | some b => cases n <;> simp [addOpt, Group.setBlock, Group.putBlock, hg]
  have set_untyped : ∀ (g : Group) (n : BlockNum) (x : Option Block), n ≠ .b2 →
      (∀ b, x = some b → b.offset = .invalid) → g.hasType = false → g.hasCPrime = false →
      (addOpt g n x).hasType = false ∧ (addOpt g n x).hasCPrime = false ∧
        (addOpt g n x).noOffsets = g.noOffsets := by
    intro g n x hn hx h1 h2
    cases x with
    | none => exact ⟨h1, h2, rfl⟩
    | some b =>
      have := hx b rfl
      cases n <;> simp [addOpt, Group.setBlock, Group.putBlock, Group.recogniseType, h1, h2, this]
      exact absurd rfl hn
  intro g
  have s1 := set_untyped (({} : Group).disableOffsets) .b1 b1 (by simp)
    (fun b hb => hoff b (Or.inl hb)) rfl rfl
  have hno : (addOpt (({} : Group).disableOffsets) .b1 b1).noOffsets = true := s1.2.2
  cases b2 with
  | none =>
    have s3 := set_untyped _ .b3 b3 (by simp) (fun b hb => hoff b (by simp [hb])) s1.1 s1.2.1
    have s4 := set_untyped _ .b4 b4 (by simp) (fun b hb => hoff b (by simp [hb])) s3.1 s3.2.1
    refine ⟨?_, by simp⟩
    have : g.hasType = false := s4.1
    simp [this]
  | some b =>
    have hb := hoff b (by simp)
    have s2 : (addOpt (addOpt (({} : Group).disableOffsets) .b1 b1) .b2 (some b)).hasType = true ∧
        (addOpt (addOpt (({} : Group).disableOffsets) .b1 b1) .b2 (some b)).type =
          GroupType.ofCode (getBits 5 b.data 11) := by
      obtain ⟨h1, h2, _⟩ := s1
      generalize addOpt (({} : Group).disableOffsets) .b1 b1 = g1 at *
      simp only [addOpt, Group.setBlock, Group.putBlock, Group.recogniseType, h1, h2, hno, hb]
      simp
    have s3 := set_typed _ .b3 b3 s2.1
    have s4 := set_typed _ .b4 b4 s3.1
    refine ⟨by simp; exact s4.1, ?_⟩
    intro b' hb'
    cases hb'
    have ht : g.type = GroupType.ofCode (getBits 5 b.data 11) := by
      change (addOpt _ _ _).type = _
      rw [s4.2, s3.2, s2.2]
    rw [ht]
    exact ofCode_block2 b.data

/-- C13: PI of a group delivered from a bit stream. -/
theorem C13_group_pi (fec : Bool) (bs : List Bool) (bit : Bool) (g : Group)
    (h : deliveredAt fec bs bit = some g) :
    (g.hasPI = true ↔ g.has .b1 = true ∨ (g.has .b3 = true ∧ (g.block .b3).offset = .Cprime)) ∧
    (g.has .b1 = true → g.getPI = g.get .b1) ∧
    (g.has .b1 = false → g.has .b3 = true → (g.block .b3).offset = .Cprime →
      g.getPI = g.get .b3) := by
  obtain ⟨f, hg, hr, ho, hb⟩ := ((step_inv (inv_stateAfter fec bs) bit).2 g h).blocks
  obtain ⟨t1, t2, t3⟩ := buildGroup_type f hr ho
  rw [← hg] at t2 t3
  have hver : g.type.version ≠ .C := by
    cases hf : f .b2 with
    | none => rw [t3 hf]; simp
    | some b2 =>
      rw [t2 b2 hf, (ofCode_block2 b2.data).2]
      split <;> simp
  simp only [Group.hasPI, Group.getPI, Group.has, Group.get, Group.block]
  refine ⟨?_, ?_, ?_⟩
  · simp [hver]
  · intro h; simp [h]
  · intro h1 h2 h3; simp [h1, h2, h3]

/-- In general (also for groups marked as version C or built by a file reader) there is a PI
exactly when the group is not version C and block 1 or a C' block is present. -/
theorem C13_group_pi_general (g : Group) :
    g.hasPI = true ↔ g.type.version ≠ .C ∧
      (g.has .b1 = true ∨ (g.has .b3 = true ∧ (g.block .b3).offset = .Cprime)) := by
  simp [Group.hasPI, Group.has, Group.block]

/-- The second demonstration group meets the hypotheses of C12 and C13 in their non-trivial
cases: version B with a C' block. -/
example : (deliveredAt true demoBits.dropLast (demoBits.getLastD false)).map
    (fun g => (g.hasType, g.type, g.hasPI, g.getPI)) =
    some (true, ⟨15, .B⟩, true, 0x6204) := by decide +kernel

/-! ### C14 -/

/-- C14 is violated, for every bit stream: a delivered group whose block 2 was lost has no type,
whatever its other blocks are. -/
theorem C14_no_type_without_block2 (fec : Bool) (bs : List Bool) (bit : Bool) (g : Group)
    (h : deliveredAt fec bs bit = some g) (h2 : g.has .b2 = false) : g.hasType = false := by
  have := (C12_group_type fec bs bit g h).1
  rw [h2] at this
  simpa using this

/-- C14, concrete violation: a 15B group whose second block is destroyed beyond repair, but whose
C' and fourth block are received and say 15B, has no type. -/
theorem C14_15B_from_block4_violated :
    ∃ (bs : List Bool) (bit : Bool) (g : Group), deliveredAt true bs bit = some g ∧
      g.has .b2 = false ∧ g.has .b3 = true ∧ (g.block .b3).offset = .Cprime ∧
      g.has .b4 = true ∧ typeNumber (g.get .b4) = 15 ∧ versionBit (g.get .b4) = true ∧
      g.hasType = false := by
  have key : (deliveredAt true (demoBits ++ demoB.damagedBits { e2 := 0b10101 }).dropLast
      ((demoBits ++ demoB.damagedBits { e2 := 0b10101 }).getLastD false)).map
      (fun g => decide (g.has .b2 = false ∧ g.has .b3 = true ∧ (g.block .b3).offset = .Cprime ∧
        g.has .b4 = true ∧ typeNumber (g.get .b4) = 15 ∧ versionBit (g.get .b4) = true ∧
        g.hasType = false)) = some true := by
    decide +kernel
  generalize hd : deliveredAt true (demoBits ++ demoB.damagedBits { e2 := 0b10101 }).dropLast
      ((demoBits ++ demoB.damagedBits { e2 := 0b10101 }).getLastD false) = o at key
  cases o with
  | none => cases key
  | some g =>
    simp only [Option.map_some, Option.some.injEq, decide_eq_true_eq] at key
    exact ⟨_, _, g, hd, key⟩

end Redsea
