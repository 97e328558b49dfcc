import Verif.Props.BlockCode
import Verif.Spec.Stream

/-
Invariant of the block synchroniser over arbitrary bit histories.
-/

namespace Redsea
open Spec BlockStream

/-! ### The shift register -/

theorem shiftIn_getLsbD (r : BitVec 32) (b : Bool) (i : Nat) (hi : i < 32) :
    ((r <<< 1) + (if b then 1#32 else 0#32)).getLsbD i =
      if i = 0 then b else r.getLsbD (i - 1) := by
  have h : (r <<< 1) + (if b then 1#32 else 0#32) = (r <<< 1) ||| (if b then 1#32 else 0#32) := by
    apply BitVec.add_eq_or_of_and_eq_zero
    apply BitVec.eq_of_getLsbD_eq; intro j hj
    cases b <;> simp
    intro _ _ h; omega
  rw [h, BitVec.getLsbD_or, BitVec.getLsbD_shiftLeft]
  have h1 : (if b then 1#32 else 0#32).getLsbD i = (b && decide (i = 0)) := by
    cases b
    · simp
    · simp [BitVec.getLsbD_one]
  rw [h1]
  by_cases h0 : i = 0
  · simp [h0]
  · have : ¬ i < 1 := by omega
    simp [h0, this, hi]

/-- The register holds the most recent bits, newest in bit 0. -/
def RegHolds (reg : BitVec 32) (bs : List Bool) : Prop :=
  ∀ i, i < 32 → reg.getLsbD i = bs.reverse.getD i false

theorem RegHolds.push {reg : BitVec 32} {bs : List Bool} (h : RegHolds reg bs) (b : Bool) :
    RegHolds ((reg <<< 1) + (if b then 1#32 else 0#32)) (bs ++ [b]) := by
  intro i hi
  rw [shiftIn_getLsbD _ _ _ hi]
  simp only [List.reverse_append, List.reverse_cons, List.reverse_nil, List.nil_append,
    List.singleton_append]
  split <;> rename_i h0
  · subst h0; simp
  · have : i = (i - 1) + 1 := by omega
    rw [this, List.getD_cons_succ]
    exact h (i - 1) (by omega)

theorem bitsMSB_length (w : BitVec 26) : (bitsMSB w).length = 26 := by simp [bitsMSB]

theorem RegHolds.endsWith {reg : BitVec 32} {bs : List Bool} (h : RegHolds reg bs)
    (hlen : 26 ≤ bs.length) : EndsWith bs (reg.setWidth 26) := by
  refine ⟨bs.take (bs.length - 26), ?_⟩
  have : bs.drop (bs.length - 26) = bitsMSB (reg.setWidth 26) := by
    apply List.ext_getElem
    · simp [bitsMSB_length]; omega
    · intro i h1 h2
      rw [bitsMSB_length] at h2
      have hh := h (25 - i) (by omega)
      have hlt : 25 - i < bs.reverse.length := by simp; omega
      rw [List.getD_eq_getElem?_getD, List.getElem?_eq_getElem hlt, Option.getD_some, List.getElem_reverse] at hh
      simp only [bitsMSB, List.getElem_map, List.getElem_range, BitVec.getMsbD]
      simp only [List.getElem_drop]
      have e1 : 26 - 1 - i = 25 - i := by omega
      rw [e1, BitVec.getLsbD_setWidth, hh]
      have e2 : bs.length - 1 - (25 - i) = bs.length - 26 + i := by omega
      simp only [e2]
      have : decide (25 - i < 26) = true := by simp; omega
      simp [this]; intro; omega
  rw [← this, List.take_append_drop]

/-! ### Windows determine words -/

theorem bitsMSB_injective {w w' : BitVec 26} (h : bitsMSB w = bitsMSB w') : w = w' := by
  apply BitVec.eq_of_getMsbD_eq
  intro i hi
  have := congrArg (fun l => l[i]?) h
  simpa [bitsMSB, hi] using this

theorem EndsWith.unique {bs : List Bool} {w w' : BitVec 26} (h : EndsWith bs w)
    (h' : EndsWith bs w') : w = w' := by
  obtain ⟨p, rfl⟩ := h
  obtain ⟨p', hp⟩ := h'
  exact bitsMSB_injective (List.append_inj_right' hp (by simp [bitsMSB_length]))

/-! ### Group assembly -/

/-- Block number from index. -/
def BlockNum.nth : Nat → BlockNum
  | 0 => .b1 | 1 => .b2 | 2 => .b3 | _ => .b4

/-- Set a block if there is one. -/
def addOpt (g : Group) (n : BlockNum) : Option Block → Group
  | some b => g.setBlock n b
  | none => g

/-- A group assembled, in transmission order, from the first `k` entries of `f`. -/
def buildGroup (f : BlockNum → Option Block) : Nat → Group
  | 0 => {}
  | k + 1 => addOpt (buildGroup f k) (.nth k) (f (.nth k))

theorem block_setBlock (g : Group) (n m : BlockNum) (b : Block) :
    (g.setBlock n b).block m = if m = n then b else g.block m := by
  unfold Group.setBlock
  have h1 : (g.putBlock n b).block m = if m = n then b else g.block m := by
    cases n <;> cases m <;> rfl
  have h2 : ∀ g' : Group, (g'.recogniseType n b).block m = g'.block m := by
    intro g'
    unfold Group.recogniseType
    cases n <;> simp only [] <;> first | rfl | skip
    all_goals (try split) <;> (try split) <;> cases m <;> rfl
  simp only []
  split
  · exact h1
  · split
    · rw [← h1, ← h2 (g.putBlock n b)]; cases m <;> rfl
    · rw [h2, h1]

theorem block_buildGroup (f : BlockNum → Option Block) (k : Nat) (hk : k ≤ 4) (m : BlockNum) :
    (buildGroup f k).block m = if m.toNat < k then (f m).getD {} else {} := by
  induction k with
  | zero => cases m <;> rfl
  | succ k ih =>
    have ih := ih (by omega)
    simp only [buildGroup]
    have hnum : m = BlockNum.nth k ↔ m.toNat = k := by
      have : k = 0 ∨ k = 1 ∨ k = 2 ∨ k = 3 := by omega
      rcases this with rfl | rfl | rfl | rfl <;> cases m <;> simp [BlockNum.nth, BlockNum.toNat]
    cases hf : f (BlockNum.nth k) with
    | none =>
      simp only [addOpt, ih]
      by_cases hm : m.toNat = k
      · obtain rfl := hnum.2 hm
        simp [hf, hm]
      · have : m.toNat < k + 1 ↔ m.toNat < k := by omega
        simp [this]
    | some b =>
      simp only [addOpt, block_setBlock, ih]
      by_cases hm : m.toNat = k
      · obtain rfl := hnum.2 hm
        simp [hf, hm]
      · have h1 : m.toNat < k + 1 ↔ m.toNat < k := by omega
        have h2 : ¬ m = BlockNum.nth k := fun h => hm (hnum.1 h)
        simp [h1, h2]

theorem buildGroup_congr {f f' : BlockNum → Option Block} {k : Nat} (hk : k ≤ 4)
    (h : ∀ n : BlockNum, n.toNat < k → f n = f' n) : buildGroup f k = buildGroup f' k := by
  induction k with
  | zero => rfl
  | succ k ih =>
    have hn : (BlockNum.nth k).toNat = k := by
      have : k = 0 ∨ k = 1 ∨ k = 2 ∨ k = 3 := by omega
      rcases this with rfl | rfl | rfl | rfl <;> rfl
    simp only [buildGroup]
    rw [ih (by omega) (fun n hn => h n (by omega)), h (BlockNum.nth k) (by omega)]

/-! ### Provenance of received blocks -/

/-- Block `b`, stored as block `n`, comes from the 26 bits that end at position `k`. -/
def Prov (fec : Bool) (bs : List Bool) (k : Nat) (n : BlockNum) (b : Block) : Prop :=
  ∃ (o : OffsetName) (w e : BitVec 26),
    k ≤ bs.length ∧ EndsWith (bs.take k) w ∧ o.index = n.toNat ∧ b.offset = toOffset o ∧
    b.isReceived = true ∧ w = encode b.data o ^^^ e ∧
    ((b.hadErrors = false ∧ e = 0) ∨ (b.hadErrors = true ∧ fec = true ∧ IsBurst e))

theorem Prov.append {fec : Bool} {bs : List Bool} {k : Nat} {n : BlockNum} {b : Block}
    (h : Prov fec bs k n b) (t : List Bool) : Prov fec (bs ++ t) k n b := by
  obtain ⟨o, w, e, hk, hw, rest⟩ := h
  refine ⟨o, w, e, by simp; omega, ?_, rest⟩
  rwa [List.take_append_of_le_length hk]

theorem offset_eq_toOffset {o : Offset} (h : o ≠ .invalid) : ∃ n : OffsetName, o = toOffset n := by
  cases o
  · exact ⟨.A, rfl⟩
  · exact ⟨.B, rfl⟩
  · exact ⟨.C, rfl⟩
  · exact ⟨.Cprime, rfl⟩
  · exact ⟨.D, rfl⟩
  · exact absurd rfl h

theorem index_eq (o : OffsetName) : o.index = (getBlockNumberForOffset (toOffset o)).toNat := by
  cases o <;> rfl

/-- A block accepted by `correctBlock` has provenance. -/
theorem correctBlock_prov (fec : Bool) (bs : List Bool) (reg : BitVec 32) (o : OffsetName)
    (hreg : RegHolds reg bs) (hlen : 26 ≤ bs.length)
    (hoff : (correctBlock fec { registerBlock reg with
        hadErrors := (registerBlock reg).offset != toOffset o } (toOffset o)).offset = toOffset o) :
    Prov fec bs bs.length (getBlockNumberForOffset (toOffset o))
      { correctBlock fec { registerBlock reg with
          hadErrors := (registerBlock reg).offset != toOffset o } (toOffset o) with
        isReceived := true } := by
  have hew : EndsWith (bs.take bs.length) (reg.setWidth 26) := by
    rw [List.take_length]; exact hreg.endsWith hlen
  by_cases hfound : (registerBlock reg).offset = toOffset o
  · -- clean block
    have hcl : correctBlock fec { registerBlock reg with
        hadErrors := (registerBlock reg).offset != toOffset o } (toOffset o) =
        { registerBlock reg with
          data := ((registerBlock reg).raw >>> kCheckwordLength).setWidth 16, hadErrors := false } := by
      simp [correctBlock, hfound]
    rw [hcl]
    refine ⟨o, reg.setWidth 26, 0, Nat.le_refl _, hew, index_eq o, hfound, rfl, ?_, Or.inl ⟨rfl, rfl⟩⟩
    have := C01_only_codewords reg o hfound
    simp only [BitVec.xor_zero, BitVec.ofNat_eq_ofNat]
    exact this
  · -- corrected block
    have hbne : ((registerBlock reg).offset != toOffset o) = true := by simp [hfound]
    simp only [correctBlock, hbne, Bool.true_and] at hoff ⊢
    cases hfec : fec with
    | false => simp [hfec, hfound] at hoff
    | true =>
      simp only [hfec, if_true] at hoff ⊢
      cases hcorr : correctBurstErrors (registerBlock reg).raw (toOffset o) with
      | none => simp [hcorr, hfound] at hoff
      | some bits =>
        have hraw : (registerBlock reg).raw = (reg.setWidth 26).setWidth 32 := by
          simp [registerBlock, and_mask_eq]
        rw [hraw] at hcorr
        obtain ⟨d, e, he, hw, hr⟩ := (C03_correction_exact _ _ _).1 hcorr
        refine ⟨o, reg.setWidth 26, e, Nat.le_refl _, hew, index_eq o, rfl, rfl, ?_,
          Or.inr ⟨rfl, rfl, he⟩⟩
        simp only [hr, shiftData_eq, dataPart_encode]
        exact hw

end Redsea
