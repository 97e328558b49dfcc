import Verif.Lemmas.StreamRun
import Verif.Spec.Transmission

/-
Processing of clean and mildly damaged blocks while in sync.
-/

namespace Redsea
open Spec BlockStream

theorem burst_not_syndrome_diff {e : BitVec 26} (h : IsBurst e) :
    calculateSyndrome (e.setWidth 32) ≠ 0 ∧
      calculateSyndrome (e.setWidth 32) ≠ offsetSyndrome .C ^^^ offsetSyndrome .Cprime := by
  cases h with
  | single i h =>
    have : ∀ i, i < 26 → calculateSyndrome ((BitVec.twoPow 26 i).setWidth 32) ≠ 0 ∧
        calculateSyndrome ((BitVec.twoPow 26 i).setWidth 32) ≠
          offsetSyndrome .C ^^^ offsetSyndrome .Cprime := by decide +kernel
    exact this i h
  | double i h =>
    have : ∀ i, i < 25 →
        calculateSyndrome ((BitVec.twoPow 26 i ^^^ BitVec.twoPow 26 (i + 1)).setWidth 32) ≠ 0 ∧
        calculateSyndrome ((BitVec.twoPow 26 i ^^^ BitVec.twoPow 26 (i + 1)).setWidth 32) ≠
          offsetSyndrome .C ^^^ offsetSyndrome .Cprime := by decide +kernel
    exact this i (by omega)

theorem burst_ne_zero {e : BitVec 26} (h : IsBurst e) : e ≠ 0 := by
  rintro rfl
  have := (burst_not_syndrome_diff h).1
  exact this calculateSyndrome_additive.zero

/-- The slot (as an expected offset) in which a block with offset word `o` is sent. -/
def slotOf : OffsetName → OffsetName
  | .Cprime => .C
  | o => o

/-- The block stored for transmitted data `d`, offset `o`, channel error `e`. -/
def rxBlock (d : BitVec 16) (o : OffsetName) (e : BitVec 26) : Block where
  raw := (encode d o ^^^ e).setWidth 32
  data := d
  isReceived := true
  hadErrors := e != 0
  offset := toOffset o

/-- A mildly damaged block that the decoder can be expected to accept. -/
def Acceptable (fec : Bool) (o : OffsetName) (e : BitVec 26) : Prop :=
  e = 0 ∨ (fec = true ∧ IsBurst e ∧ o ≠ .Cprime)

theorem registerBlock_offset_of {reg : BitVec 32} {d : BitVec 16} {o : OffsetName} {e : BitVec 26}
    (h : reg.setWidth 26 = encode d o ^^^ e) :
    (registerBlock reg).offset =
      getOffsetForSyndrome (offsetSyndrome o ^^^ calculateSyndrome (e.setWidth 32)) ∧
    (registerBlock reg).raw = (encode d o ^^^ e).setWidth 32 := by
  simp only [registerBlock, and_mask_eq, h]
  rw [BitVec.setWidth_xor, calculateSyndrome_additive, syndrome_encode]
  exact ⟨rfl, trivial⟩

theorem stored_acceptable {fec : Bool} {reg : BitVec 32} {d : BitVec 16} {o : OffsetName}
    {e : BitVec 26} (h : reg.setWidth 26 = encode d o ^^^ e) (ha : Acceptable fec o e) :
    adjustName (slotOf o) (registerBlock reg).offset = o ∧
    storedBlock fec reg o = some (rxBlock d o e) ∧
    ((registerBlock reg).offset != toOffset o) = (e != 0) := by
  obtain ⟨hoff, hraw⟩ := registerBlock_offset_of h
  rcases ha with rfl | ⟨hfec, hb, hne⟩
  · -- clean
    have hz : calculateSyndrome ((0 : BitVec 26).setWidth 32) = 0 :=
      calculateSyndrome_additive.zero
    rw [hz, BitVec.ofNat_eq_ofNat, BitVec.xor_zero, getOffset_offsetSyndrome] at hoff
    refine ⟨?_, ?_, ?_⟩
    · rw [hoff]; cases o <;> rfl
    · unfold storedBlock correctBlock
      simp only [hoff, bne_self_eq_false, Bool.false_and, Bool.false_eq_true, if_false, if_true]
      simp only [rxBlock, hraw, shiftData_eq, BitVec.xor_zero, BitVec.ofNat_eq_ofNat,
        dataPart_encode, bne_self_eq_false]
    · simp [hoff]
  · have hcl := burst_not_syndrome_diff hb
    have hne0 := burst_ne_zero hb
    have hfound : (registerBlock reg).offset ≠ toOffset o := by
      intro hc
      rw [hoff, getOffset_eq_iff] at hc
      apply hcl.1
      have := congrArg (offsetSyndrome o ^^^ ·) hc
      simp only [← BitVec.xor_assoc, BitVec.xor_self, BitVec.zero_xor] at this
      simpa using this
    have hbne : ((registerBlock reg).offset != toOffset o) = true := by simp [hfound]
    have hene : (e != 0) = true := by simpa using hne0
    refine ⟨?_, ?_, by rw [hbne, hene]⟩
    · unfold adjustName
      split
      · rename_i hc
        exfalso
        have hoC : o = .C := by
          cases o <;> simp [slotOf] at hc <;> first | rfl | exact absurd rfl hne
        subst hoC
        have hc2 : (registerBlock reg).offset = toOffset .Cprime := hc.2
        rw [hoff, getOffset_eq_iff] at hc2
        apply hcl.2
        have := congrArg (offsetSyndrome .C ^^^ ·) hc2
        simp only [← BitVec.xor_assoc, BitVec.xor_self, BitVec.zero_xor] at this
        simpa using this
      · cases o <;> first | rfl | exact absurd rfl hne
    · have hcorr := C02_burst_corrected d o e hb
      unfold storedBlock correctBlock
      simp only [hbne, hfec, Bool.and_self, if_true, hraw, hcorr]
      simp only [rxBlock, shiftData_eq, dataPart_encode, hene]

/-- In sync, at a block boundary, expecting slot `o`. -/
structure AtSlot (s : BlockStream) (o : OffsetName) : Prop where
  sync : s.isInSync = true
  ready : s.hasGroupReady = false
  nbits : s.numBitsUntilNextBlock = 26
  exp : s.expectedOffset = toOffset o
  wf : s.blockErrorSum50.WF

theorem shiftBits_same (s : BlockStream) (l : List Bool) :
    (shiftBits s l).expectedOffset = s.expectedOffset ∧
    (shiftBits s l).blockErrorSum50 = s.blockErrorSum50 ∧
    (shiftBits s l).currentGroup = s.currentGroup := by
  induction l generalizing s with
  | nil => exact ⟨rfl, rfl, rfl⟩
  | cons b l ih => exact ih (shiftBit s b)

/-- Effect of an acceptable block that does not end the group. -/
theorem run_acceptable {fec : Bool} {s : BlockStream} {d : BitVec 16} {o : OffsetName}
    {e : BitVec 26} (hs : AtSlot s (slotOf o)) (ha : Acceptable fec o e)
    (hsum : (s.blockErrorSum50.push (hit e)).getSum ≤ 42) (hD : o ≠ .D) :
    ∃ t, run fec s (bitsMSB (encode d o ^^^ e)) = (t, []) ∧ AtSlot t (nextName o) ∧
      t.blockErrorSum50 = s.blockErrorSum50.push (hit e) ∧
      t.currentGroup = s.currentGroup.setBlock (.nth o.index) (rxBlock d o e) := by
  obtain ⟨hsync, hready, hn, hexp, hwf⟩ := hs
  rw [run_block fec s _ hsync hready hn]
  obtain ⟨f1, f2, f3⟩ := shiftBits_fields s (bitsMSB (encode d o ^^^ e))
  obtain ⟨g1, g2, g3⟩ := shiftBits_same s (bitsMSB (encode d o ^^^ e))
  have hreg := shiftBits_reg s (encode d o ^^^ e)
  generalize hs1 : shiftBits s (bitsMSB (encode d o ^^^ e)) = s1 at *
  obtain ⟨a1, a2, a3⟩ := stored_acceptable hreg ha
  have hflag : failFlag s1 = hit e := by
    unfold failFlag hit
    rw [g1, hexp, adjustExpected_toOffset, a1, a3]
    by_cases he : e = 0 <;> simp [he]
  have hslotD : slotOf o ≠ .D := by cases o <;> simp [slotOf] at hD ⊢
  have hnext : nextName (slotOf o) = nextName o := by cases o <;> rfl
  have hno : ¬ ((s1.blockErrorSum50.push (failFlag s1)).getSum > 42) := by
    rw [g2, hflag]; omega
  dsimp only
  rw [processInSync_eq fec s1 (slotOf o) (by rw [g1, hexp])]
  simp only [hno, if_false, hslotD, a1, a2, addOpt, f1, hsync, if_true, f2, hready,
    Bool.false_eq_true]
  refine ⟨_, rfl, ⟨rfl, rfl, rfl, by simp [hnext], ?_⟩, ?_, ?_⟩
  · exact g2 ▸ hwf.push _
  · simp only [g2, hflag]
  · simp only [g3, nth_index]

/-- Effect of an acceptable D block: the group is delivered. -/
theorem run_acceptable_last {fec : Bool} {s : BlockStream} {d : BitVec 16}
    {e : BitVec 26} (hs : AtSlot s .D) (ha : Acceptable fec .D e)
    (hsum : (s.blockErrorSum50.push (hit e)).getSum ≤ 42) :
    ∃ t, run fec s (bitsMSB (encode d .D ^^^ e)) =
        (t, [s.currentGroup.setBlock .b4 (rxBlock d .D e)]) ∧ AtSlot t .A ∧
      t.blockErrorSum50 = s.blockErrorSum50.push (hit e) ∧ t.currentGroup = {} := by
  obtain ⟨hsync, hready, hn, hexp, hwf⟩ := hs
  rw [run_block fec s _ hsync hready hn]
  obtain ⟨f1, f2, f3⟩ := shiftBits_fields s (bitsMSB (encode d .D ^^^ e))
  obtain ⟨g1, g2, g3⟩ := shiftBits_same s (bitsMSB (encode d .D ^^^ e))
  have hreg := shiftBits_reg s (encode d .D ^^^ e)
  generalize hs1 : shiftBits s (bitsMSB (encode d .D ^^^ e)) = s1 at *
  obtain ⟨a1, a2, a3⟩ := stored_acceptable hreg ha
  simp only [slotOf] at a1
  have hflag : failFlag s1 = hit e := by
    unfold failFlag hit
    rw [g1, hexp, adjustExpected_toOffset, a1, a3]
    by_cases he : e = 0 <;> simp [he]
  have hno : ¬ ((s1.blockErrorSum50.push (failFlag s1)).getSum > 42) := by
    rw [g2, hflag]; omega
  dsimp only
  rw [processInSync_eq fec s1 .D (by rw [g1, hexp])]
  simp only [hno, if_false, a1, a2, addOpt, f1, hsync, if_true, g3]
  refine ⟨_, rfl, ⟨rfl, rfl, rfl, ?_, ?_⟩, ?_, ?_⟩
  · rfl
  · exact g2 ▸ hwf.push _
  · simp only [g2, hflag]
  · rfl

/-- The group delivered for a transmitted group with damage. -/
def rxGroup (t : TxGroup) (e : Damage) : Group :=
  ((((({} : Group).setBlock .b1 (rxBlock t.d1 .A e.e1)).setBlock .b2 (rxBlock t.d2 .B e.e2)).setBlock
    .b3 (rxBlock t.d3 t.third e.e3)).setBlock .b4 (rxBlock t.d4 .D e.e4))

/-- Damage the decoder can be expected to cope with. -/
def AcceptableDamage (fec : Bool) (t : TxGroup) (e : Damage) : Prop :=
  Acceptable fec .A e.e1 ∧ Acceptable fec .B e.e2 ∧ Acceptable fec t.third e.e3 ∧
    Acceptable fec .D e.e4

/-- Whole group. -/
theorem run_group {fec : Bool} {s : BlockStream} {log : List Nat} (tx : TxGroup) (e : Damage)
    (hs : AtSlot s .A) (hg : s.currentGroup = {}) (ha : AcceptableDamage fec tx e)
    (hrot : s.blockErrorSum50.rot = errWindow log)
    (hsum : ∀ k, k ≤ 4 → (errWindow (log ++ e.hits.take k)).sum ≤ 42) :
    ∃ t, run fec s (tx.damagedBits e) = (t, [rxGroup tx e]) ∧ AtSlot t .A ∧ t.currentGroup = {} ∧
      t.blockErrorSum50.rot = errWindow (log ++ e.hits) := by
  obtain ⟨ha1, ha2, ha3, ha4⟩ := ha
  have hpush : ∀ (s' : BlockStream) (lg : List Nat) (x : Nat), s'.blockErrorSum50.WF →
      s'.blockErrorSum50.rot = errWindow lg →
      (s'.blockErrorSum50.push x).rot = errWindow (lg ++ [x]) := by
    intro s' lg x hw hr
    rw [RunningSum.rot_push hw, errWindow_push, hr]
  have hget : ∀ (s' : BlockStream) (lg : List Nat) (x : Nat), s'.blockErrorSum50.WF →
      s'.blockErrorSum50.rot = errWindow lg → (errWindow (lg ++ [x])).sum ≤ 42 →
      (s'.blockErrorSum50.push x).getSum ≤ 42 := by
    intro s' lg x hw hr hle
    rw [← RunningSum.sum_rot, hpush s' lg x hw hr]; exact hle
  have h1 := hsum 1 (by omega)
  have h2 := hsum 2 (by omega)
  have h3 := hsum 3 (by omega)
  have h4 := hsum 4 (by omega)
  simp only [Damage.hits, List.take_succ_cons, List.take_zero] at h1 h2 h3 h4
  obtain ⟨t1, r1, s1, b1, c1⟩ := run_acceptable (d := tx.d1) (o := .A) hs ha1
    (hget s log _ hs.wf hrot h1) (by simp)
  have rot1 : t1.blockErrorSum50.rot = errWindow (log ++ [hit e.e1]) := by
    rw [b1]; exact hpush s log _ hs.wf hrot
  obtain ⟨t2, r2, s2, b2, c2⟩ := run_acceptable (d := tx.d2) (o := .B) s1 ha2
    (hget t1 _ _ s1.wf rot1 (by simpa using h2)) (by simp)
  have rot2 : t2.blockErrorSum50.rot = errWindow (log ++ [hit e.e1, hit e.e2]) := by
    rw [b2, hpush t1 _ _ s1.wf rot1]; simp
  have hslot3 : slotOf tx.third = nextName .B := by unfold TxGroup.third; split <;> rfl
  have hnext3 : nextName tx.third = .D := by unfold TxGroup.third; split <;> rfl
  have hidx3 : tx.third.index = 2 := by unfold TxGroup.third; split <;> rfl
  obtain ⟨t3, r3, s3, b3, c3⟩ := run_acceptable (d := tx.d3) (o := tx.third)
    (by rw [hslot3]; exact s2) ha3
    (hget t2 _ _ s2.wf rot2 (by simpa using h3)) (by unfold TxGroup.third; split <;> simp)
  rw [hnext3] at s3
  rw [hidx3] at c3
  have rot3 : t3.blockErrorSum50.rot = errWindow (log ++ [hit e.e1, hit e.e2, hit e.e3]) := by
    rw [b3, hpush t2 _ _ s2.wf rot2]; simp
  obtain ⟨t4, r4, s4, b4, c4⟩ := run_acceptable_last (d := tx.d4) s3 ha4
    (hget t3 _ _ s3.wf rot3 (by simpa using h4))
  have rot4 : t4.blockErrorSum50.rot =
      errWindow (log ++ [hit e.e1, hit e.e2, hit e.e3, hit e.e4]) := by
    rw [b4, hpush t3 _ _ s3.wf rot3]; simp
  refine ⟨t4, ?_, s4, c4, rot4⟩
  unfold TxGroup.damagedBits
  rw [run_append, run_append, run_append]
  simp only [r1, r2, r3, r4, List.nil_append]
  rw [c3, c2, c1, hg]
  rfl

/-- Any sequence of groups. -/
theorem run_groups {fec : Bool} (txs : List (TxGroup × Damage)) (s : BlockStream) (log : List Nat)
    (hs : AtSlot s .A) (hg : s.currentGroup = {})
    (ha : ∀ p ∈ txs, AcceptableDamage fec p.1 p.2)
    (hrot : s.blockErrorSum50.rot = errWindow log)
    (hsum : ∀ k, (errWindow (log ++ (txs.flatMap fun p => p.2.hits).take k)).sum ≤ 42) :
    ∃ t, run fec s (txs.flatMap fun p => p.1.damagedBits p.2) =
        (t, txs.map fun p => rxGroup p.1 p.2) ∧ AtSlot t .A ∧ t.currentGroup = {} ∧
      t.blockErrorSum50.rot = errWindow (log ++ txs.flatMap fun p => p.2.hits) := by
  induction txs generalizing s log with
  | nil => exact ⟨s, rfl, hs, hg, by simpa using hrot⟩
  | cons p txs ih =>
    have h4 : p.2.hits.length = 4 := rfl
    obtain ⟨t1, r1, s1, g1, rot1⟩ := run_group p.1 p.2 hs hg (ha p (by simp)) hrot (by
      intro k hk
      have := hsum k
      rwa [List.flatMap_cons, List.take_append_of_le_length (by omega)] at this)
    obtain ⟨t, r, st, gt, rott⟩ := ih t1 (log ++ p.2.hits) s1 g1
      (fun q hq => ha q (by simp [hq])) rot1 (by
      intro k
      have := hsum (4 + k)
      rw [List.flatMap_cons, List.take_append, h4] at this
      have e1 : p.2.hits.take (4 + k) = p.2.hits := List.take_of_length_le (by omega)
      have e2 : 4 + k - 4 = k := by omega
      rwa [e1, e2, ← List.append_assoc] at this)
    refine ⟨t, ?_, st, gt, by simpa using rott⟩
    rw [List.flatMap_cons, run_append, r1]
    simp [r]

end Redsea
