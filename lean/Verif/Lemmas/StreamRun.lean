import Verif.Lemmas.StreamMain
import Verif.Lemmas.ListAux

/-
Runs of the synchroniser over whole bit lists; one block at a time while in sync.
-/

namespace Redsea
open Spec BlockStream

theorem run_nil (fec : Bool) (s : BlockStream) : run fec s [] = (s, []) := rfl

theorem run_cons (fec : Bool) (s : BlockStream) (b : Bool) (bs : List Bool) :
    run fec s (b :: bs) =
      ((run fec (s.step fec b).1 bs).1,
       (s.step fec b).2.toList ++ (run fec (s.step fec b).1 bs).2) := rfl

theorem run_append (fec : Bool) (s : BlockStream) (l1 l2 : List Bool) :
    run fec s (l1 ++ l2) =
      ((run fec (run fec s l1).1 l2).1, (run fec s l1).2 ++ (run fec (run fec s l1).1 l2).2) := by
  induction l1 generalizing s with
  | nil => simp [run_nil]
  | cons b bs ih =>
    rw [List.cons_append, run_cons, run_cons, ih]
    simp

/-- The ghost log of block checks along an input. -/
def logFrom (fec : Bool) : BlockStream → List Nat → List Bool → List Nat
  | _, log, [] => log
  | s, log, b :: bs => logFrom fec (s.step fec b).1 (nextLog fec s b log) bs

theorem inv_run {fec : Bool} {pre : List Bool} {log : List Nat} {s : BlockStream}
    (h : Inv fec pre log s) (bs : List Bool) :
    Inv fec (pre ++ bs) (logFrom fec s log bs) (run fec s bs).1 := by
  induction bs generalizing pre log s with
  | nil => simpa [run_nil, logFrom] using h
  | cons b bs ih =>
    have := ih (step_inv h b).1
    rw [List.append_assoc] at this
    exact this

/-- The decoder state after the input `bs`. -/
def stateAfter (fec : Bool) (bs : List Bool) : BlockStream := (run fec {} bs).1

/-- The results (1 = failed) of the block checks made while in sync since sync was last
lost, after the input `bs`. -/
def checkLog (fec : Bool) (bs : List Bool) : List Nat := logFrom fec {} [] bs

/-- The group delivered at the last bit of `bs ++ [bit]`, if any. -/
def deliveredAt (fec : Bool) (bs : List Bool) (bit : Bool) : Option Group :=
  ((stateAfter fec bs).step fec bit).2

theorem inv_stateAfter (fec : Bool) (bs : List Bool) :
    Inv fec bs (checkLog fec bs) (stateAfter fec bs) := by
  have := inv_run (Inv.init fec) bs
  rwa [List.nil_append] at this

theorem stateAfter_snoc (fec : Bool) (bs : List Bool) (bit : Bool) :
    stateAfter fec (bs ++ [bit]) = ((stateAfter fec bs).step fec bit).1 := by
  simp [stateAfter, run_append, run_cons, run_nil]

theorem logFrom_append (fec : Bool) (s : BlockStream) (log : List Nat) (l1 l2 : List Bool) :
    logFrom fec s log (l1 ++ l2) =
      logFrom fec (run fec s l1).1 (logFrom fec s log l1) l2 := by
  induction l1 generalizing s log with
  | nil => rfl
  | cons b bs ih => simp only [List.cons_append, logFrom, ih, run_cons]

theorem checkLog_snoc (fec : Bool) (bs : List Bool) (bit : Bool) :
    checkLog fec (bs ++ [bit]) = nextLog fec (stateAfter fec bs) bit (checkLog fec bs) := by
  simp [checkLog, logFrom_append, logFrom, stateAfter]

/-- Every group delivered in a run is delivered at some bit. -/
theorem mem_run_iff (fec : Bool) (s : BlockStream) (bs : List Bool) (g : Group) :
    g ∈ (run fec s bs).2 ↔
      ∃ pre bit post, bs = pre ++ bit :: post ∧ ((run fec s pre).1.step fec bit).2 = some g := by
  induction bs generalizing s with
  | nil => simp [run_nil]
  | cons b bs ih =>
    rw [run_cons]
    simp only [List.mem_append, Option.mem_toList, ih]
    constructor
    · rintro (h | ⟨pre, bit, post, rfl, h⟩)
      · exact ⟨[], b, bs, rfl, h⟩
      · exact ⟨b :: pre, bit, post, rfl, h⟩
    · rintro ⟨pre, bit, post, h, hg⟩
      cases pre with
      | nil =>
        simp only [List.nil_append, List.cons.injEq] at h
        obtain ⟨rfl, rfl⟩ := h
        exact Or.inl hg
      | cons c pre =>
        simp only [List.cons_append, List.cons.injEq] at h
        obtain ⟨rfl, rfl⟩ := h
        exact Or.inr ⟨pre, bit, post, rfl, hg⟩

/-! ### A whole block while in sync -/

/-- Shift a list of bits into the register, counting. -/
def shiftBits (s : BlockStream) (l : List Bool) : BlockStream := l.foldl shiftBit s

theorem shiftBits_fields (s : BlockStream) (l : List Bool) :
    (shiftBits s l).isInSync = s.isInSync ∧ (shiftBits s l).hasGroupReady = s.hasGroupReady ∧
    (shiftBits s l).numBitsUntilNextBlock = s.numBitsUntilNextBlock - BitVec.ofNat 32 l.length := by
  induction l generalizing s with
  | nil => simp [shiftBits]
  | cons b l ih =>
    obtain ⟨h1, h2, h3⟩ := ih (shiftBit s b)
    refine ⟨h1, h2, ?_⟩
    change (shiftBits (shiftBit s b) l).numBitsUntilNextBlock = _
    rw [h3]
    simp only [shiftBit, List.length_cons, BitVec.ofNat_add]
    apply BitVec.eq_of_toNat_eq
    simp [BitVec.toNat_sub]
    omega

/-- Inside a block nothing but shifting happens. -/
theorem run_inside (fec : Bool) (s : BlockStream) (l : List Bool) (hr : s.hasGroupReady = false)
    (hl : l.length < s.numBitsUntilNextBlock.toNat) : run fec s l = (shiftBits s l, []) := by
  induction l generalizing s with
  | nil => rfl
  | cons b l ih =>
    simp only [List.length_cons] at hl
    have hnb : ¬ (shiftBit s b).numBitsUntilNextBlock = 0 := by
      simp only [shiftBit]; bv_omega
    have hpb : s.pushBit fec b = shiftBit s b := by rw [pushBit_eq, if_neg hnb]
    have hst : s.step fec b = (shiftBit s b, none) := by
      simp only [step, hpb]
      have : (shiftBit s b).hasGroupReady = false := hr
      simp [this]
    rw [run_cons, hst, ih (shiftBit s b) hr (by simp only [shiftBit]; bv_omega)]
    rfl

theorem registerBlock_congr {r r' : BitVec 32} (h : r.setWidth 26 = r'.setWidth 26) :
    registerBlock r = registerBlock r' := by
  simp only [registerBlock, and_mask_eq, h]

theorem shiftBits_reg_getLsbD (s : BlockStream) (l : List Bool) (i : Nat) (hi : i < 32)
    (hil : i < l.length) :
    (shiftBits s l).inputRegister.getLsbD i = l.reverse.getD i false := by
  induction l using snocInduction generalizing i with
  | nil => simp at hil
  | snoc l b ih =>
    have hsb : shiftBits s (l ++ [b]) = shiftBit (shiftBits s l) b := by simp [shiftBits]
    rw [hsb]
    simp only [shiftBit]
    rw [shiftIn_getLsbD _ _ _ hi]
    split <;> rename_i h0
    · subst h0; simp
    · obtain ⟨j, rfl⟩ : ∃ j, i = j + 1 := ⟨i - 1, by omega⟩
      simp only [List.length_append, List.length_singleton] at hil
      simp only [Nat.add_sub_cancel]
      rw [ih j (by omega) (by omega)]
      simp

theorem shiftBits_reg (s : BlockStream) (w : BitVec 26) :
    (shiftBits s (bitsMSB w)).inputRegister.setWidth 26 = w := by
  apply BitVec.eq_of_getLsbD_eq
  intro i hi
  rw [BitVec.getLsbD_setWidth,
    shiftBits_reg_getLsbD _ _ _ (by omega) (by rw [bitsMSB_length]; omega)]
  simp only [hi, decide_true, Bool.true_and]
  rw [List.getD_eq_getElem?_getD, List.getElem?_eq_getElem (by simp [bitsMSB_length]; omega),
    Option.getD_some, List.getElem_reverse]
  simp only [bitsMSB, List.getElem_map, List.getElem_range, BitVec.getMsbD, List.length_map,
    List.length_range]
  have h1 : 26 - 1 - (26 - 1 - i) = i := by omega
  rw [h1]
  simp; intro; omega

/-- Any 26 bits are the bits of a word. -/
theorem exists_bitsMSB (l : List Bool) (h : l.length = 26) : ∃ w, l = bitsMSB w := by
  refine ⟨(shiftBits {} l).inputRegister.setWidth 26, ?_⟩
  have hreg : RegHolds (shiftBits {} l).inputRegister l := by
    intro i hi
    by_cases hil : i < l.length
    · exact shiftBits_reg_getLsbD _ _ _ hi hil
    · have : ∀ (l : List Bool) (i : Nat), i < 32 → l.length ≤ i →
          (shiftBits ({} : BlockStream) l).inputRegister.getLsbD i = false := by
        intro l
        induction l using snocInduction with
        | nil => intro i _ _; simp [shiftBits]
        | snoc l b ih =>
          intro i hi hl
          simp only [List.length_append, List.length_singleton] at hl
          have hsb : shiftBits ({} : BlockStream) (l ++ [b]) = shiftBit (shiftBits {} l) b := by
            simp [shiftBits]
          rw [hsb]
          simp only [shiftBit]
          rw [shiftIn_getLsbD _ _ _ hi]
          rw [if_neg (by omega)]
          exact ih (i - 1) (by omega) (by omega)
      rw [this l i hi (by omega), List.getD_eq_getElem?_getD,
        List.getElem?_eq_none (by simp; omega)]
      rfl
  obtain ⟨p, hp⟩ := hreg.endsWith (by omega)
  have : p = [] := by
    apply List.eq_nil_of_length_eq_zero
    have := congrArg List.length hp
    rw [List.length_append, bitsMSB_length] at this
    omega
  rw [this] at hp
  simpa using hp

/-- State after the 26 bits of a block, while in sync at a block boundary. -/
theorem run_block (fec : Bool) (s : BlockStream) (w : BitVec 26) (hs : s.isInSync = true)
    (hr : s.hasGroupReady = false) (hn : s.numBitsUntilNextBlock = 26) :
    run fec s (bitsMSB w) =
      let s1 := shiftBits s (bitsMSB w)
      let t := s1.processInSync fec (registerBlock s1.inputRegister)
      let t := { t with numBitsUntilNextBlock := if t.isInSync then 26 else 1 }
      if t.hasGroupReady then ({ t with hasGroupReady := false }, [t.readyGroup]) else (t, []) := by
  have hlen := bitsMSB_length w
  have hne : bitsMSB w ≠ [] := by intro h; rw [h] at hlen; simp at hlen
  have hsplit := List.dropLast_concat_getLast hne
  generalize hb : (bitsMSB w).getLast hne = b at hsplit
  have hdl : (bitsMSB w).dropLast.length = 25 := by simp [hlen]
  have hshift : shiftBits s (bitsMSB w) = shiftBit (shiftBits s (bitsMSB w).dropLast) b := by
    rw [← hsplit]; simp [shiftBits]
  obtain ⟨f1, f2, f3⟩ := shiftBits_fields s (bitsMSB w)
  have hsync1 : (shiftBits s (bitsMSB w)).isInSync = true := by rw [f1, hs]
  have hnb0 : (shiftBits s (bitsMSB w)).numBitsUntilNextBlock = 0 := by
    rw [f3, hn, hlen]; rfl
  conv => lhs; rw [← hsplit]
  rw [run_append, run_inside fec s _ hr (by rw [hdl, hn]; decide)]
  simp only [run_cons, run_nil, List.append_nil, List.nil_append]
  have hpb : (shiftBits s (bitsMSB w).dropLast).pushBit fec b =
      { (shiftBits s (bitsMSB w)).processInSync fec
          (registerBlock (shiftBits s (bitsMSB w)).inputRegister) with
        numBitsUntilNextBlock :=
          if ((shiftBits s (bitsMSB w)).processInSync fec
            (registerBlock (shiftBits s (bitsMSB w)).inputRegister)).isInSync then 26 else 1 } := by
    rw [pushBit_eq, ← hshift, if_pos hnb0]
    have hacq : (shiftBits s (bitsMSB w)).acquireSync
        (registerBlock (shiftBits s (bitsMSB w)).inputRegister) = shiftBits s (bitsMSB w) := by
      simp [acquireSync, hsync1]
    have hfind : (shiftBits s (bitsMSB w)).findBlockInInputRegister fec =
        (shiftBits s (bitsMSB w)).processInSync fec
          (registerBlock (shiftBits s (bitsMSB w)).inputRegister) := by
      simp only [findBlockInInputRegister, hacq, hsync1, if_true]
    rw [hfind]
  simp only [step, hpb, popGroup]
  split <;> rename_i h <;> simp [h]

end Redsea
