import Verif.Props.Station
import Verif.Lemmas.Input

/-
Property C49: the contents of blocks that were not received do not matter.
-/

namespace Redsea

open _root_.Redsea.Spec

/-- What decoders can see of the same group. -/
structure SameData (g g' : Group) : Prop where
  type : g'.type = g.type
  hasType : g'.hasType = g.hasType
  has : ∀ n, g'.has n = g.has n
  get : ∀ n, g.has n = true → g'.get n = g.get n

theorem sameData {g g' : Group} (s : g.SameReceived g') : SameData g g' where
  type := s.type.symm
  hasType := s.hasType.symm
  has := by
    intro n
    cases n
    · exact s.block1.1.symm
    · exact s.block2.1.symm
    · exact s.block3.1.symm
    · exact s.block4.1.symm
  get := by
    intro n h
    cases n
    · exact (s.block1.2.2.2 h).symm
    · exact (s.block2.2.2.2 h).symm
    · exact (s.block3.2.2.2 h).symm
    · exact (s.block4.2.2.2 h).symm

variable {g g' : Group}

set_option linter.unusedSimpArgs false

theorem received_or_not (g : Group) (n : BlockNum) : g.has n = false ∨ g.has n = true := by
  cases g.has n
  · exact .inl rfl
  · exact .inr rfl

theorem same_type0 (s : SameData g g') (h2 : g.has .b2 = true) (env : Env) (st : Station) :
    st.decodeType0 env g' = st.decodeType0 env g := by
  unfold Station.decodeType0 Station.decodePs
  rcases received_or_not g .b3 with h3 | h3 <;> rcases received_or_not g .b4 with h4 | h4
  · simp only [s.has, s.type, s.get .b2 h2, h3, Bool.not_false, if_true]
  · simp only [s.has, s.type, s.get .b2 h2, h3, Bool.not_false, if_true]
  · simp only [s.has, s.type, s.get .b2 h2, s.get .b3 h3, h4, Bool.not_false, if_true]
  · simp only [s.has, s.type, s.get .b2 h2, s.get .b3 h3, s.get .b4 h4]

theorem same_type1 (s : SameData g g') (st : Station) : st.decodeType1 g' = st.decodeType1 g := by
  unfold Station.decodeType1 Station.slowLabel
  rcases received_or_not g .b3 with h3 | h3 <;> rcases received_or_not g .b4 with h4 | h4
  · simp only [s.has, h3, h4, Bool.not_false, Bool.not_true, Bool.and_false, Bool.false_and, Bool.and_true, Bool.true_or,
      Bool.or_true, Bool.or_false, Bool.false_eq_true, if_true, if_false]
  · simp only [s.has, h3, h4, Bool.not_false, Bool.not_true, Bool.and_false, Bool.false_and, Bool.and_true, Bool.true_or,
      Bool.or_true, Bool.or_false, Bool.false_eq_true, if_true, if_false]
  · simp only [s.has, h3, h4, Bool.not_false, Bool.not_true, Bool.and_false, Bool.false_and, Bool.and_true, Bool.true_or,
      Bool.or_true, Bool.or_false, Bool.false_eq_true, if_true, if_false]
  · simp only [s.has, s.type, s.get .b3 h3, s.get .b4 h4]

theorem same_type2 (s : SameData g g') (h2 : g.has .b2 = true) (u : Ucs2Decoder) (b : Bool)
    (rt : RadioText) : decodeType2 u b rt g' = decodeType2 u b rt g := by
  unfold decodeType2 rtReceive
  rcases received_or_not g .b3 with h3 | h3 <;> rcases received_or_not g .b4 with h4 | h4
  · simp only [s.has, h3, h4, Bool.not_false, Bool.not_true, Bool.and_false, Bool.false_and, Bool.and_true, Bool.true_or,
      Bool.or_true, Bool.or_false, Bool.false_eq_true, if_true, if_false]
  · simp only [s.has, h3, h4, Bool.not_false, Bool.not_true, Bool.and_false, Bool.false_and, Bool.and_true, Bool.true_or,
      Bool.or_true, Bool.or_false, Bool.false_eq_true, if_true, if_false]
  · simp only [s.has, h3, h4, Bool.not_false, Bool.not_true, Bool.and_false, Bool.false_and, Bool.and_true, Bool.true_or,
      Bool.or_true, Bool.or_false, Bool.false_eq_true, if_true, if_false]
  · simp only [s.has, s.type, s.get .b2 h2, s.get .b3 h3, s.get .b4 h4]

theorem same_type3A (s : SameData g g') (h2 : g.has .b2 = true) (st : Station) :
    st.decodeType3A g' = st.decodeType3A g := by
  unfold Station.decodeType3A
  rcases received_or_not g .b3 with h3 | h3 <;> rcases received_or_not g .b4 with h4 | h4
  · simp only [s.has, h3, h4, Bool.not_false, Bool.not_true, Bool.and_false, Bool.false_and, Bool.and_true, Bool.true_or,
      Bool.or_true, Bool.or_false, Bool.false_eq_true, if_true, if_false]
  · simp only [s.has, h3, h4, Bool.not_false, Bool.not_true, Bool.and_false, Bool.false_and, Bool.and_true, Bool.true_or,
      Bool.or_true, Bool.or_false, Bool.false_eq_true, if_true, if_false]
  · simp only [s.has, h3, h4, Bool.not_false, Bool.not_true, Bool.and_false, Bool.false_and, Bool.and_true, Bool.true_or,
      Bool.or_true, Bool.or_false, Bool.false_eq_true, if_true, if_false]
  · simp only [s.has, s.type, s.get .b2 h2, s.get .b3 h3, s.get .b4 h4]

theorem same_type4A (s : SameData g g') (h2 : g.has .b2 = true) :
    decodeType4A g' = decodeType4A g := by
  unfold decodeType4A
  rcases received_or_not g .b3 with h3 | h3 <;> rcases received_or_not g .b4 with h4 | h4
  · simp only [s.has, h3, h4, Bool.not_false, Bool.not_true, Bool.and_false, Bool.false_and, Bool.and_true, Bool.true_or,
      Bool.or_true, Bool.or_false, Bool.false_eq_true, if_true, if_false]
  · simp only [s.has, h3, h4, Bool.not_false, Bool.not_true, Bool.and_false, Bool.false_and, Bool.and_true, Bool.true_or,
      Bool.or_true, Bool.or_false, Bool.false_eq_true, if_true, if_false]
  · simp only [s.has, h3, h4, Bool.not_false, Bool.not_true, Bool.and_false, Bool.false_and, Bool.and_true, Bool.true_or,
      Bool.or_true, Bool.or_false, Bool.false_eq_true, if_true, if_false]
  · simp only [s.has, s.get .b2 h2, s.get .b3 h3, s.get .b4 h4]

theorem same_type6 (s : SameData g g') (h2 : g.has .b2 = true) :
    Station.decodeType6 g' = Station.decodeType6 g := by
  unfold Station.decodeType6
  rcases received_or_not g .b3 with h3 | h3 <;> rcases received_or_not g .b4 with h4 | h4
  · simp only [s.has, s.type, s.get .b2 h2, h3, h4, Bool.not_false, Bool.not_true, Bool.and_false, Bool.false_and, Bool.and_true, Bool.true_or,
      Bool.or_true, Bool.or_false, Bool.false_eq_true, if_true, if_false]
  · simp only [s.has, s.type, s.get .b2 h2, h3, h4, s.get .b4 h4, Bool.not_false, Bool.not_true, Bool.and_false, Bool.false_and, Bool.and_true, Bool.true_or,
      Bool.or_true, Bool.or_false, Bool.false_eq_true, if_true, if_false]
  · simp only [s.has, s.type, s.get .b2 h2, h3, h4, s.get .b3 h3, Bool.not_false, Bool.not_true, Bool.and_false, Bool.false_and, Bool.and_true, Bool.true_or,
      Bool.or_true, Bool.or_false, Bool.false_eq_true, if_true, if_false]
  · simp only [s.has, s.type, s.get .b2 h2, s.get .b3 h3, s.get .b4 h4]

theorem same_type10A (s : SameData g g') (h2 : g.has .b2 = true) (env : Env) (st : Station) :
    st.decodeType10A env g' = st.decodeType10A env g := by
  unfold Station.decodeType10A
  rcases received_or_not g .b3 with h3 | h3 <;> rcases received_or_not g .b4 with h4 | h4
  · simp only [s.has, h3, h4, Bool.not_false, Bool.not_true, Bool.and_false, Bool.false_and, Bool.and_true, Bool.true_or,
      Bool.or_true, Bool.or_false, Bool.false_eq_true, if_true, if_false]
  · simp only [s.has, h3, h4, Bool.not_false, Bool.not_true, Bool.and_false, Bool.false_and, Bool.and_true, Bool.true_or,
      Bool.or_true, Bool.or_false, Bool.false_eq_true, if_true, if_false]
  · simp only [s.has, h3, h4, Bool.not_false, Bool.not_true, Bool.and_false, Bool.false_and, Bool.and_true, Bool.true_or,
      Bool.or_true, Bool.or_false, Bool.false_eq_true, if_true, if_false]
  · simp only [s.has, s.get .b2 h2, s.get .b3 h3, s.get .b4 h4]

theorem same_type14 (s : SameData g g') (h2 : g.has .b2 = true) (env : Env) (st : Station) :
    st.decodeType14 env g' = st.decodeType14 env g := by
  unfold Station.decodeType14 Station.eonVariant
  rcases received_or_not g .b3 with h3 | h3 <;> rcases received_or_not g .b4 with h4 | h4
  · simp only [s.has, h3, h4, Bool.not_false, Bool.not_true, Bool.and_false, Bool.false_and, Bool.and_true, Bool.true_or,
      Bool.or_true, Bool.or_false, Bool.false_eq_true, if_true, if_false]
  · simp only [s.has, s.type, s.get .b2 h2, h3, h4, s.get .b4 h4, Bool.not_false, Bool.not_true, Bool.and_false, Bool.false_and, Bool.and_true, Bool.true_or,
      Bool.or_true, Bool.or_false, Bool.false_eq_true, if_true, if_false]
  · simp only [s.has, h3, h4, Bool.not_false, Bool.not_true, Bool.and_false, Bool.false_and, Bool.and_true, Bool.true_or,
      Bool.or_true, Bool.or_false, Bool.false_eq_true, if_true, if_false]
  · simp only [s.has, s.type, s.get .b2 h2, s.get .b3 h3, s.get .b4 h4]

theorem same_type15A (s : SameData g g') (h2 : g.has .b2 = true) (env : Env) (st : Station) :
    st.decodeType15A env g' = st.decodeType15A env g := by
  unfold Station.decodeType15A
  rcases received_or_not g .b3 with h3 | h3 <;> rcases received_or_not g .b4 with h4 | h4
  · simp only [s.has, s.get .b2 h2, h3, h4, Bool.not_false, Bool.not_true, Bool.and_false, Bool.false_and, Bool.and_true, Bool.true_or,
      Bool.or_true, Bool.or_false, Bool.false_eq_true, if_true, if_false]
  · simp only [s.has, s.get .b2 h2, h3, h4, s.get .b4 h4, Bool.not_false, Bool.not_true, Bool.and_false, Bool.false_and, Bool.and_true, Bool.true_or,
      Bool.or_true, Bool.or_false, Bool.false_eq_true, if_true, if_false]
  · simp only [s.has, s.get .b2 h2, h3, h4, s.get .b3 h3, Bool.not_false, Bool.not_true, Bool.and_false, Bool.false_and, Bool.and_true, Bool.true_or,
      Bool.or_true, Bool.or_false, Bool.false_eq_true, if_true, if_false]
  · simp only [s.has, s.get .b2 h2, s.get .b3 h3, s.get .b4 h4]

theorem same_type15B (s : SameData g g') (h2 : g.has .b2 = true) :
    Station.decodeType15B g' = Station.decodeType15B g := by
  unfold Station.decodeType15B
  simp only [s.has, h2, if_true, s.get .b2 h2]

theorem same_rtPlus (s : SameData g g') (h2 : g.has .b2 = true) (key : String) (rt : RadioText) :
    Station.parseRadioTextPlus key rt g' = Station.parseRadioTextPlus key rt g := by
  unfold Station.parseRadioTextPlus
  rcases received_or_not g .b3 with h3 | h3 <;> rcases received_or_not g .b4 with h4 | h4
  · simp only [s.has, s.get .b2 h2, h3, h4, Bool.not_false, Bool.not_true, Bool.and_false, Bool.false_and, Bool.and_true, Bool.true_or,
      Bool.or_true, Bool.or_false, Bool.false_eq_true, if_true, if_false]
  · simp only [s.has, s.get .b2 h2, h3, h4, Bool.not_false, Bool.not_true, Bool.and_false, Bool.false_and, Bool.and_true, Bool.true_or,
      Bool.or_true, Bool.or_false, Bool.false_eq_true, if_true, if_false]
  · simp only [s.has, s.get .b2 h2, h3, h4, s.get .b3 h3, Bool.not_false, Bool.not_true, Bool.and_false, Bool.false_and, Bool.and_true, Bool.true_or,
      Bool.or_true, Bool.or_false, Bool.false_eq_true, if_true, if_false]
  · simp only [s.has, s.get .b2 h2, s.get .b3 h3, s.get .b4 h4]

theorem same_raw (s : SameData g g') (h2 : g.has .b2 = true) :
    Station.odaRaw g' = Station.odaRaw g := by
  unfold Station.odaRaw
  rcases received_or_not g .b3 with h3 | h3 <;> rcases received_or_not g .b4 with h4 | h4
  · simp only [s.has, s.get .b2 h2, h3, h4, Bool.not_false, Bool.not_true, Bool.and_false, Bool.false_and, Bool.and_true, Bool.true_or,
      Bool.or_true, Bool.or_false, Bool.false_eq_true, if_true, if_false]
  · simp only [s.has, s.get .b2 h2, h3, h4, s.get .b4 h4, Bool.not_false, Bool.not_true, Bool.and_false, Bool.false_and, Bool.and_true, Bool.true_or,
      Bool.or_true, Bool.or_false, Bool.false_eq_true, if_true, if_false]
  · simp only [s.has, s.get .b2 h2, h3, h4, s.get .b3 h3, Bool.not_false, Bool.not_true, Bool.and_false, Bool.false_and, Bool.and_true, Bool.true_or,
      Bool.or_true, Bool.or_false, Bool.false_eq_true, if_true, if_false]
  · simp only [s.has, s.get .b2 h2, s.get .b3 h3, s.get .b4 h4]

theorem same_tmc (s : SameData g g') (env : Env) (st : Station) :
    st.decodeTmc env g' = st.decodeTmc env g := by
  unfold Station.decodeTmc
  rcases received_or_not g .b2 with h2 | h2
  · simp only [s.has, h2, Bool.not_false, Bool.not_true, Bool.and_false, Bool.false_and, Bool.and_true, Bool.true_or,
      Bool.or_true, Bool.or_false, Bool.false_eq_true, if_true, if_false]
  rcases received_or_not g .b3 with h3 | h3 <;> rcases received_or_not g .b4 with h4 | h4
  · simp only [s.has, h2, h3, h4, Bool.not_false, Bool.not_true, Bool.and_false, Bool.false_and, Bool.and_true, Bool.true_or,
      Bool.or_true, Bool.or_false, Bool.false_eq_true, if_true, if_false]
  · simp only [s.has, h2, h3, h4, Bool.not_false, Bool.not_true, Bool.and_false, Bool.false_and, Bool.and_true, Bool.true_or,
      Bool.or_true, Bool.or_false, Bool.false_eq_true, if_true, if_false]
  · simp only [s.has, h2, h3, h4, Bool.not_false, Bool.not_true, Bool.and_false, Bool.false_and, Bool.and_true, Bool.true_or,
      Bool.or_true, Bool.or_false, Bool.false_eq_true, if_true, if_false]
  · simp only [s.has, s.get .b2 h2, s.get .b3 h3, s.get .b4 h4]

theorem same_C (s : SameData g g') (st : Station) : st.decodeC g' = st.decodeC g := by
  unfold Station.decodeC Station.segmentData Station.rftInfoOps
  rcases received_or_not g .b1 with h1 | h1
  · simp only [s.has, h1, Bool.not_false, Bool.not_true, Bool.and_false, Bool.false_and, Bool.and_true, Bool.true_or,
      Bool.or_true, Bool.or_false, Bool.false_eq_true, if_true, if_false]
  rcases received_or_not g .b2 with h2 | h2
  · simp only [s.has, h1, h2, Bool.not_false, Bool.not_true, Bool.and_false, Bool.false_and, Bool.and_true, Bool.true_or,
      Bool.or_true, Bool.or_false, Bool.false_eq_true, if_true, if_false]
  rcases received_or_not g .b3 with h3 | h3
  · simp only [s.has, h1, h2, h3, Bool.not_false, Bool.not_true, Bool.and_false, Bool.false_and, Bool.and_true, Bool.true_or,
      Bool.or_true, Bool.or_false, Bool.false_eq_true, if_true, if_false]
  rcases received_or_not g .b4 with h4 | h4
  · simp only [s.has, h1, h2, h3, h4, Bool.not_false, Bool.not_true, Bool.and_false, Bool.false_and, Bool.and_true, Bool.true_or,
      Bool.or_true, Bool.or_false, Bool.false_eq_true, if_true, if_false]
  simp only [s.has, s.get .b1 h1, s.get .b2 h2, s.get .b3 h3, s.get .b4 h4]

/-! ### Decoders that do not ask -/

/-- The blocks (besides block 2) that the decoder of a version A or B group uses without asking
whether they were received. -/
def uncheckedBlocks (st : Station) (g : Group) : List BlockNum :=
  if g.type ∈ fixedTypes then []
  else match st.odaForGroup g.type with
    | none => if g.type = ⟨5, .A⟩ then [.b3, .b4] else if g.type.number = 5 then [.b4] else []
    | some app => if app = 0x0093 then [.b3, .b4] else if app = 0x6552 then [.b3] else []

theorem same_type5A (s : SameData g g') (h2 : g.has .b2 = true) (h3 : g.has .b3 = true)
    (h4 : g.has .b4 = true) (env : Env) (st : Station) :
    st.decodeType5 env g' = st.decodeType5 env g := by
  unfold Station.decodeType5
  simp only [s.type, s.get .b2 h2, s.get .b3 h3, s.get .b4 h4]

theorem same_type5B (s : SameData g g') (h2 : g.has .b2 = true) (h4 : g.has .b4 = true)
    (hv : g.type.version ≠ .A) (env : Env) (st : Station) :
    st.decodeType5 env g' = st.decodeType5 env g := by
  unfold Station.decodeType5
  simp only [s.type, s.get .b2 h2, s.get .b4 h4, hv, if_false]

theorem same_DAB (s : SameData g g') (h2 : g.has .b2 = true) (h3 : g.has .b3 = true)
    (h4 : g.has .b4 = true) : Station.parseDAB g' = Station.parseDAB g := by
  unfold Station.parseDAB
  simp only [s.get .b2 h2, s.get .b3 h3, s.get .b4 h4]

theorem same_ERT (s : SameData g g') (h2 : g.has .b2 = true) (h3 : g.has .b3 = true) (env : Env)
    (rt : RadioText) : Station.parseEnhancedRT env rt g' = Station.parseEnhancedRT env rt g := by
  unfold Station.parseEnhancedRT
  rcases received_or_not g .b4 with h4 | h4
  · simp only [s.has, s.get .b2 h2, s.get .b3 h3, h4, Bool.false_eq_true, if_false]
  · simp only [s.has, s.get .b2 h2, s.get .b3 h3, s.get .b4 h4]

theorem same_app (s : SameData g g') (h2 : g.has .b2 = true) (env : Env) (st : Station) (app : Word)
    (h3 : app = 0x0093 ∨ app = 0x6552 → g.has .b3 = true) (h4 : app = 0x0093 → g.has .b4 = true) :
    st.decodeODAApp env g' app = st.decodeODAApp env g app := by
  unfold Station.decodeODAApp
  by_cases a1 : app = 0x0093
  · rw [if_pos a1, if_pos a1, same_DAB s h2 (h3 (.inl a1)) (h4 a1)]
  rw [if_neg a1, if_neg a1]
  by_cases a2 : app = 0x4BD7
  · rw [if_pos a2, if_pos a2, same_rtPlus s h2]
  rw [if_neg a2, if_neg a2]
  by_cases a3 : app = 0x4BD8
  · rw [if_pos a3, if_pos a3, same_rtPlus s h2]
  rw [if_neg a3, if_neg a3]
  by_cases a4 : app = 0x6552
  · rw [if_pos a4, if_pos a4, same_ERT s h2 (h3 (.inr a4))]
  rw [if_neg a4, if_neg a4]
  by_cases a5 : app = 0xCD46 ∨ app = 0xCD47
  · rw [if_pos a5, if_pos a5, same_tmc s]
  rw [if_neg a5, if_neg a5, same_raw s h2]

theorem same_dispatch (s : SameData g g') (env : Env) (st : Station)
    (h2 : g.type.version ≠ .C → g.has .b2 = true)
    (hu : g.type.version ≠ .C → ∀ n ∈ uncheckedBlocks st g, g.has n = true) :
    st.dispatch env g' = st.dispatch env g := by
  unfold Station.dispatch
  rw [s.type]
  dsimp only
  by_cases hC : g.type.version = .C
  · rw [if_pos hC, if_pos hC, same_C s]
  rw [if_neg hC, if_neg hC]
  have h2 := h2 hC
  have hu := hu hC
  by_cases c : g.type.number = 0
  · rw [if_pos c, if_pos c, same_type0 s h2]
  rw [if_neg c, if_neg c]
  by_cases c1 : g.type.number = 1
  · rw [if_pos c1, if_pos c1, same_type1 s]
  rw [if_neg c1, if_neg c1]
  by_cases c2 : g.type.number = 2
  · rw [if_pos c2, if_pos c2, same_type2 s h2]
  rw [if_neg c2, if_neg c2]
  by_cases c3 : g.type.number = 3 ∧ g.type.version = .A
  · rw [if_pos c3, if_pos c3, same_type3A s h2]
  rw [if_neg c3, if_neg c3]
  by_cases c4 : g.type.number = 4 ∧ g.type.version = .A
  · rw [if_pos c4, if_pos c4, same_type4A s h2]
  rw [if_neg c4, if_neg c4]
  by_cases c10 : g.type.number = 10 ∧ g.type.version = .A
  · rw [if_pos c10, if_pos c10, same_type10A s h2]
  rw [if_neg c10, if_neg c10]
  by_cases c14 : g.type.number = 14
  · rw [if_pos c14, if_pos c14, same_type14 s h2]
  rw [if_neg c14, if_neg c14]
  by_cases c15 : g.type.number = 15 ∧ g.type.version = .B
  · rw [if_pos c15, if_pos c15, same_type15B s h2]
  rw [if_neg c15, if_neg c15]
  have hf : g.type ∉ fixedTypes := by
    simp only [fixedTypes, List.mem_cons, List.not_mem_nil, or_false, type_cases]
    rintro (h | h | h | h | h | h | h | h | h | h | h | h)
    · exact c h.1
    · exact c h.1
    · exact c1 h.1
    · exact c1 h.1
    · exact c2 h.1
    · exact c2 h.1
    · exact c3 h
    · exact c4 h
    · exact c10 h
    · exact c14 h.1
    · exact c14 h.1
    · exact c15 h
  unfold uncheckedBlocks at hu
  rw [if_neg hf] at hu
  cases ho : st.odaForGroup g.type with
  | some app =>
    rw [ho] at hu
    simp only [Option.isSome_some, if_true]
    unfold Station.decodeODAGroup
    rw [s.type, ho]
    refine same_app s h2 env st app ?_ ?_
    · rintro (h | h)
      · exact hu .b3 (by simp [h])
      · exact hu .b3 (by simp [h])
    · intro h; exact hu .b4 (by simp [h])
  | none =>
    rw [ho] at hu
    simp only [Option.isSome_none, Bool.false_eq_true, if_false]
    have hoda : st.decodeODAGroup env g' = st.decodeODAGroup env g := by
      unfold Station.decodeODAGroup
      rw [s.type, ho]
      dsimp only
      rw [same_raw s h2]
    rw [same_type6 s h2, same_tmc s, same_type15A s h2, hoda]
    by_cases c5 : g.type.number = 5
    · rw [if_pos c5, if_pos c5]
      by_cases hA : g.type.version = .A
      · have : g.type = ⟨5, .A⟩ := (type_cases _ _ _).2 ⟨c5, hA⟩
        exact same_type5A s h2 (hu .b3 (by simp [this])) (hu .b4 (by simp [this])) env st
      · have : g.type ≠ ⟨5, .A⟩ := fun h => hA ((type_cases _ _ _).1 h).2
        exact same_type5B s h2 (hu .b4 (by simp [this, c5])) hA env st
    · rw [if_neg c5, if_neg c5]

theorem same_basics (s : SameData g g') (st : Station) : st.decodeBasics g' = st.decodeBasics g := by
  unfold Station.decodeBasics
  rcases received_or_not g .b2 with h2 | h2 <;> rcases received_or_not g .b4 with h4 | h4
  · simp only [s.has, s.type, h2, h4, Bool.false_eq_true, if_false, and_false]
  · simp only [s.has, s.type, h2, h4, s.get .b4 h4, Bool.false_eq_true, if_false]
  · simp only [s.has, s.type, s.hasType, h2, h4, s.get .b2 h2, if_true]
  · simp only [s.has, s.type, s.hasType, h2, h4, s.get .b2 h2, if_true]

theorem same_hexBlock (s : SameData g g') (n : BlockNum) :
    (if (g'.block n).isReceived then hexPadded 4 (g'.block n).data.toNat else ascii "----") =
      if (g.block n).isReceived then hexPadded 4 (g.block n).data.toNat else ascii "----" := by
  have h1 : (g'.block n).isReceived = (g.block n).isReceived := s.has n
  rw [h1]
  rcases received_or_not g n with h | h
  · have h' : (g.block n).isReceived = false := h
    rw [h']
    rfl
  · have h2 : (g'.block n).data = (g.block n).data := s.get n h
    rw [h2]

theorem same_printHex (s : SameData g g') : g'.printHex = g.printHex := by
  unfold Group.printHex
  dsimp only
  rw [same_hexBlock s .b1, same_hexBlock s .b2, same_hexBlock s .b3, same_hexBlock s .b4]

theorem same_empty (s : SameData g g') : g'.isEmpty = g.isEmpty := by
  unfold Group.isEmpty
  simp only [s.has]

theorem same_PI (s : g.SameReceived g') : g'.hasPI = g.hasPI ∧ g'.getPI = g.getPI := by
  obtain ⟨h1, -, -, h2⟩ := s.block1
  obtain ⟨h3, h4, -, h5⟩ := s.block3
  unfold Group.hasPI Group.getPI
  rw [s.type, ← h1, ← h3, ← h4]
  refine ⟨rfl, ?_⟩
  by_cases a : g.block1.isReceived = true
  · rw [if_pos a, if_pos a, h2 a]
  rw [if_neg a, if_neg a]
  by_cases b : (g.block3.isReceived && g.block3.offset == .Cprime) = true
  · rw [if_pos b, if_pos b, h5]
    rw [Bool.and_eq_true] at b
    exact b.1
  · rw [if_neg b, if_neg b]

/-- **C49** (partial): a station. Two groups that differ only in the contents of blocks that were not
received have the same effect: the same line is printed, and the same is kept for later. Missing for
the full property: groups whose type is known although block 2 was not received, and the four decoders
that use blocks without asking (`uncheckedBlocks`); for these see `C49_transparent_data_violated`,
`C49_enhanced_radiotext_violated`, `C49_dab_violated` and `C49_tef_type_violated`. -/
theorem C49_station_partial (env : Env) (st : Station) (g g' : Group) (s : g.SameReceived g')
    (h2 : g.hasType = true → g.type.version ≠ .C → g.has .b2 = true)
    (hu : g.hasType = true → g.type.version ≠ .C → ∀ n ∈ uncheckedBlocks st g, g.has n = true) :
    st.updateAndPrint env g' = st.updateAndPrint env g := by
  have d := sameData s
  have hupd : st.update env g' = st.update env g := by
    have hc : st.checkPI g' = st.checkPI g := by
      unfold Station.checkPI
      rw [d.type, (same_PI s).1, same_empty d]
    have hh : Station.headerOps env st g' = Station.headerOps env st g := by
      unfold Station.headerOps Station.streamOps Station.piOps Station.timeOps Station.blerOps
        Station.rawOps
      rw [d.type, same_printHex d, s.time, s.bler, s.dataStream]
    unfold Station.update
    dsimp only
    rw [hc, hh, same_basics d, d.hasType]
    by_cases ht : g.hasType = true
    · have := same_dispatch d env (st.checkPI g).1 (h2 ht) (by
        obtain ⟨b, hb⟩ := checkPI_state st g
        rw [hb]
        exact hu ht)
      rw [this]
    · simp only [ht, Bool.false_eq_true, if_false]
  unfold Station.updateAndPrint
  rw [hupd]

theorem same_marked (s : g.SameReceived g') (b : Option Nat) (k : Nat) :
    (Channel.markStream { g with bler := b } k).SameReceived
      (Channel.markStream { g' with bler := b } k) := by
  unfold Channel.markStream
  by_cases hk : k ≠ 0
  · rw [if_pos hk, if_pos hk]
    exact { s with
      type := by show GroupType.mk _ _ = GroupType.mk _ _; rw [s.type]
      hasType := rfl, bler := rfl, dataStream := rfl }
  · rw [if_neg hk, if_neg hk]
    exact { s with bler := rfl, dataStream := rfl }

theorem same_errors (s : g.SameReceived g') : g'.getNumErrors = g.getNumErrors := by
  unfold Group.getNumErrors Group.blockErr
  rw [s.block1.1, s.block1.2.2.1, s.block2.1, s.block2.2.2.1, s.block3.1, s.block3.2.2.1, s.block4.1,
    s.block4.2.2.1]

/-- **C49** (partial): a channel, with all kinds of output. As `C49_station_partial`; hex output and
groups of streams 1 to 3 need no hypotheses. -/
theorem C49_channel_partial (env : Env) (c : Channel) (now : Int) (g g' : Group) (k : Nat)
    (s : g.SameReceived g')
    (hh : c.options.outputType = .hex ∨ k ≠ 0 ∨ ((g.hasType = true → g.has .b2 = true) ∧
      ∀ n ∈ uncheckedBlocks (c.updatePI g).station g, g.has n = true)) :
    (c.processGroup env now g' k).map (fun r => (r.1, r.2.line)) =
      (c.processGroup env now g k).map fun r => (r.1, r.2.line) := by
  -- after the time stamp
  have key : ∀ (c1 : Channel) (g g' : Group), g.SameReceived g' →
      (c1.options.outputType = .hex ∨ k ≠ 0 ∨ ((g.hasType = true → g.has .b2 = true) ∧
        ∀ n ∈ uncheckedBlocks (c1.updatePI g).station g, g.has n = true)) →
      (c1.handleGroup env g' k).map (fun r => (r.1, r.2.line)) =
        (c1.handleGroup env g k).map fun r => (r.1, r.2.line) := by
    intro c1 g g' s hh
    -- after the block error rate
    have fin : ∀ (r : RunningAverage) (b : Option Nat),
        ((({ c1 with blerAverage := r } : Channel).updatePI
            (Channel.markStream { g' with bler := b } k)).output env
            (Channel.markStream { g' with bler := b } k)) =
          ((({ c1 with blerAverage := r } : Channel).updatePI
            (Channel.markStream { g with bler := b } k)).output env
            (Channel.markStream { g with bler := b } k)) := by
      intro r b
      have m := same_marked s b k
      have d := sameData m
      have hpi : (({ c1 with blerAverage := r } : Channel).updatePI
            (Channel.markStream { g' with bler := b } k)) =
          ({ c1 with blerAverage := r } : Channel).updatePI
            (Channel.markStream { g with bler := b } k) := by
        unfold Channel.updatePI
        rw [(same_PI m).1, (same_PI m).2]
      rw [hpi]
      have hopt : ∀ x : Group, (({ c1 with blerAverage := r } : Channel).updatePI x).options =
          c1.options := by
        intro x
        unfold Channel.updatePI
        dsimp only
        split
        · split <;> rfl
        · rfl
      unfold Channel.output
      by_cases ho : c1.options.outputType = .hex
      · rw [hopt, if_pos ho, if_pos ho]
        unfold printAsHex
        rw [same_empty d, same_printHex d, m.dataStream, m.time]
      · rw [hopt, if_neg ho, if_neg ho]
        rcases hh with h | hk | ⟨h2, hu⟩
        · exact absurd h ho
        · rw [C49_station_partial env _ _ _ m]
          · intro _ h
            refine absurd ?_ h
            unfold Channel.markStream
            rw [if_pos hk]
            rfl
          · intro _ h
            refine absurd ?_ h
            unfold Channel.markStream
            rw [if_pos hk]
            rfl
        · by_cases hk : k ≠ 0
          · rw [C49_station_partial env _ _ _ m]
            · intro _ h
              refine absurd ?_ h
              unfold Channel.markStream
              rw [if_pos hk]
              rfl
            · intro _ h
              refine absurd ?_ h
              unfold Channel.markStream
              rw [if_pos hk]
              rfl
          · have e : Channel.markStream { g with bler := b } k =
                { g with bler := b, dataStream := k } := by
              unfold Channel.markStream
              rw [if_neg hk]
              rfl
            rw [C49_station_partial env _ _ _ m]
            · intro ht _
              rw [e] at ht ⊢
              exact h2 ht
            · intro ht _ n hn
              rw [e] at hn ⊢
              refine hu n ?_
              have hst : (({ c1 with blerAverage := r } : Channel).updatePI
                  { g with bler := b, dataStream := k }).station.odaForGroup =
                    (c1.updatePI g).station.odaForGroup := by
                unfold Channel.updatePI
                have e1 : ({ g with bler := b, dataStream := k } : Group).hasPI = g.hasPI := rfl
                have e2 : ({ g with bler := b, dataStream := k } : Group).getPI = g.getPI := rfl
                rw [e1, e2]
                dsimp only
                split
                · split <;> rfl
                · rfl
              unfold uncheckedBlocks at hn ⊢
              rw [hst] at hn
              exact hn
    unfold Channel.handleGroup Channel.addBler
    rw [same_errors s]
    by_cases hb : c1.options.bler = true
    · rw [if_pos hb, if_pos hb]
      cases c1.blerAverage.push g.getNumErrors with
      | none => rfl
      | some r =>
        have := fin r (some r.sum.toNat)
        dsimp only [Option.bind_eq_bind, Option.bind_some, Option.pure_def, Group.setBler]
        rw [this]
        generalize Channel.output env _ _ = o
        cases o <;> rfl
    · rw [if_neg hb, if_neg hb]
      have := fin c1.blerAverage g.bler
      have e : g'.bler = g.bler := s.bler.symm
      rw [← e] at this
      dsimp only [Option.bind_eq_bind, Option.bind_some, Option.pure_def]
      have t1 : ({ g' with bler := g'.bler } : Group) = g' := rfl
      have t2 : ({ g with bler := g'.bler } : Group) = g := by rw [e]
      have t3 : ({ c1 with blerAverage := c1.blerAverage } : Channel) = c1 := rfl
      rw [t1, t2, t3] at this
      rw [this]
      generalize Channel.output env _ _ = o
      cases o <;> rfl
  unfold Channel.processGroup Channel.stampGroup
  rw [← s.time]
  dsimp only
  by_cases ht : (c.options.timestamp && g.time.isNone) = true
  · rw [if_pos ht, if_pos ht]
    refine key _ _ _ { s with time := rfl } ?_
    rcases hh with h | h | ⟨h2, hu⟩
    · exact .inl h
    · exact .inr (.inl h)
    · refine .inr (.inr ⟨h2, fun n hn => hu n ?_⟩)
      have hst : (({ c with lastRxTime := now } : Channel).updatePI
          (g.setTime (if now < c.lastRxTime then c.lastRxTime else now))).station.odaForGroup =
            (c.updatePI g).station.odaForGroup := by
        unfold Channel.updatePI
        have e1 : (g.setTime (if now < c.lastRxTime then c.lastRxTime else now)).hasPI = g.hasPI := rfl
        have e2 : (g.setTime (if now < c.lastRxTime then c.lastRxTime else now)).getPI = g.getPI := rfl
        rw [e1, e2]
        dsimp only
        split
        · split <;> rfl
        · rfl
      unfold uncheckedBlocks at hn ⊢
      rw [hst] at hn
      exact hn
  · rw [if_neg ht, if_neg ht]
    exact key c g g' s hh

/-! ### The hypothesis on block 2 -/

/-- The type is only known from block 2. -/
def TypeFromBlock2 (g : Group) : Prop := g.hasCPrime = false ∧ (g.hasType = true → g.has .b2 = true)

theorem typed_setBlock {g : Group} (h : TypeFromBlock2 g) (n : BlockNum) (b : Block)
    (hr : b.isReceived = true) : TypeFromBlock2 (g.setBlock n b) := by
  obtain ⟨hc, ht⟩ := h
  have hput : TypeFromBlock2 (g.putBlock n b) := by
    cases n
    · exact ⟨hc, ht⟩
    · exact ⟨hc, fun _ => hr⟩
    · exact ⟨hc, ht⟩
    · exact ⟨hc, ht⟩
  have hrec : TypeFromBlock2 ((g.putBlock n b).recogniseType n b) := by
    cases n
    · exact hput
    · exact ⟨hc, fun _ => hr⟩
    · exact hput
    · have e : ((g.putBlock .b4 b).hasCPrime && !(g.putBlock .b4 b).hasType) = false := by
        rw [hput.1]
        rfl
      unfold Group.recogniseType
      dsimp only
      rw [e]
      exact hput
  unfold Group.setBlock
  dsimp only
  split
  · exact hput
  · split
    · rename_i h2
      exact ⟨hrec.1, fun _ => h2.2⟩
    · exact hrec

theorem typed_readHexBlock {g : Group} (h : TypeFromBlock2 g) (n : BlockNum) (line : Str) :
    TypeFromBlock2 (readHexBlock g n line).1 := by
  unfold readHexBlock
  dsimp only
  split
  · exact typed_setBlock h n _ rfl
  · exact h

theorem typed_parseHexLine (line : Str) :
    TypeFromBlock2 (parseHexLine (Group.disableOffsets {}) line) := by
  unfold parseHexLine
  dsimp only
  refine typed_readHexBlock (typed_readHexBlock (typed_readHexBlock (typed_readHexBlock ?_ _ _) _ _)
    _ _) _ _
  exact ⟨rfl, fun h => absurd h (by show ¬ false = true; decide)⟩

/-- Groups read from hex input have a type only if block 2 was received, so that the hypothesis on
block 2 in `C49_channel_partial` holds for all of them. (For bit streams: `C14_no_type_without_block2`.) -/
theorem C49_hex_input_type (input : Str) : ∀ g ∈ hexInputGroups input, g.hasType = true →
    g.has .b2 = true := by
  have loop : ∀ n, ∀ input : Str, input.length ≤ n → TypeFromBlock2 (readHexLoop input).1 := by
    intro n
    induction n with
    | zero =>
      intro input h
      rw [List.length_eq_zero_iff.mp (Nat.le_zero.mp h), readHexLoop_eq]
      exact ⟨rfl, fun h => absurd h (by decide)⟩
    | succ n ih =>
      intro input h
      rw [readHexLoop_eq]
      by_cases hl : (getLine input).1.length < 16
      · rw [if_pos hl]
        by_cases he : (getLine input).2.2 = true
        · rw [if_pos he]
          exact ⟨rfl, fun h => absurd h (by show ¬ false = true; decide)⟩
        · rw [if_neg he]
          refine ih _ ?_
          have := getLine_rest_length input (by simpa using he)
          omega
      · rw [if_neg hl]
        exact typed_parseHexLine _
  intro g hg
  induction hn : input.length using Nat.strongRecOn generalizing input with
  | ind n ih =>
    rw [hexInputGroups] at hg
    revert hg
    split
    rename_i g0 rest eof heq
    intro hg
    have h0 := loop _ input (Nat.le_refl _)
    rw [heq] at h0
    split at hg
    · rw [List.mem_singleton] at hg
      rw [hg]
      exact h0.2
    · rename_i he
      rcases List.mem_cons.mp hg with rfl | hg
      · exact h0.2
      · refine ih rest.length ?_ rest hg rfl
        have := readHexLoop_rest_length input (by simp [heq, he])
        rw [heq] at this
        dsimp only at this
        omega

end Redsea
