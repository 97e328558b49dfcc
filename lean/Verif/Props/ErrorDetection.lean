import Verif.Lemmas.ErrorDetection

/-
C92: Error detection has the power that the standard promises; how often noise is taken for a block.
-/

namespace Redsea
open _root_.Spec
open BlockStream

/-- What the receiver makes of the 26 bits in its register when it waits for a block with the given offset, as in
`findBlockInInputRegister`, src/block_sync.cc:270-298: the data, if the block is stored. -/
def takenAs (fec : Bool) (expected : Offset) (reg : BitVec 32) : Option Word :=
  let block := registerBlock reg
  let e := adjustExpected expected block.offset
  let b := correctBlock fec { block with hadErrors := block.offset != e } e
  if b.offset = e then some b.data else none

/-- A block is put in its place in the current group. -/
def _root_.Redsea.BlockStream.withBlock (s : BlockStream) (b : Block) : BlockStream :=
  { s with currentGroup := s.currentGroup.setBlock (getBlockNumberForOffset s.expectedOffset) b }

/-- That is what the receiver does: a block is stored, with these data, or not. -/
theorem takenAs_stored (fec : Bool) (s : BlockStream) (reg : BitVec 32)
    (h : (s.processInSync fec (registerBlock reg)).isInSync = true) :
    ∃ s' : BlockStream, s'.currentGroup = s.currentGroup ∧
      s'.expectedOffset = adjustExpected s.expectedOffset (registerBlock reg).offset ∧
      match takenAs fec s.expectedOffset reg with
      | none => s.processInSync fec (registerBlock reg) = s'.advance
      | some d => ∃ b : Block, b.data = d ∧ b.isReceived = true ∧
          s.processInSync fec (registerBlock reg) = (s'.withBlock b).advance := by
  unfold processInSync takenAs at *
  dsimp only at h ⊢
  generalize registerBlock reg = block at h ⊢
  generalize adjustExpected s.expectedOffset block.offset = e at h ⊢
  generalize s.blockErrorSum50.push (if (block.offset != e) = true then 1 else 0) = sum at h ⊢
  generalize correctBlock fec { block with hadErrors := block.offset != e } e = b at h ⊢
  by_cases hsum : sum.getSum > kMaxErrorsToleratedOver50Blocks
  · rw [if_pos hsum] at h
    cases h
  · rw [if_neg hsum]
    refine ⟨{ s with expectedOffset := e, blockErrorSum50 := sum }, rfl, rfl, ?_⟩
    unfold storeBlock
    dsimp only
    by_cases he : b.offset = e
    · rw [if_pos he, if_pos he]
      exact ⟨{ b with isReceived := true }, rfl, rfl, rfl⟩
    · rw [if_neg he, if_neg he]

theorem registerBlock_syn (reg : BitVec 32) :
    registerBlock reg = { raw := (reg.setWidth 26).setWidth 32
                          offset := getOffsetForSyndrome (syn (reg.setWidth 26)) } := by
  simp only [registerBlock, and_mask_eq, syn]

/-- The data of a block after correction, if it has the offset that is asked for. -/
def afterCorrection (fec : Bool) (w : BitVec 26) (o : Offset) : Option Word :=
  let b := correctBlock fec { raw := w.setWidth 32, offset := getOffsetForSyndrome (syn w)
                              hadErrors := getOffsetForSyndrome (syn w) != o } o
  if b.offset = o then some b.data else none

theorem corrected_iff (fec : Bool) (w : BitVec 26) (o : OffsetName) (d : BitVec 16) :
    afterCorrection fec w (toOffset o) = some d ↔
      w = encode d o ∨ fec = true ∧ ∃ e, IsBurst e ∧ w = encode d o ^^^ e := by
  have hdata : ∀ d', w = encode d' o → dataPart w = d' := by
    rintro d' rfl
    exact dataPart_encode d' o
  by_cases hc : getOffsetForSyndrome (syn w) = toOffset o
  · have hw := eq_encode_of_syndrome w o ((getOffset_eq_iff _ _).1 hc)
    have hl : afterCorrection fec w (toOffset o) = some (dataPart w) := by
      simp [afterCorrection, correctBlock, hc, shiftData_eq]
    rw [hl]
    constructor
    · intro h
      rw [← Option.some.inj h]
      exact .inl hw
    · rintro (h | ⟨-, e, he, h⟩)
      · rw [hdata d h]
      · exfalso
        have h1 : syn w = offsetSyndrome o := (getOffset_eq_iff _ _).1 hc
        rw [h, syn_xor, syn_encode] at h1
        have h2 := xor_eq_zero_left h1
        have hp := bursts_distinct
        rw [List.pairwise_cons] at hp
        exact hp.1 e (List.mem_cons_of_mem _ ((mem_bursts e).mpr he)) (by
          rw [h2]
          decide +kernel)
  · have hb : (getOffsetForSyndrome (syn w) != toOffset o) = true := by simpa using hc
    have hnot : ∀ d', w ≠ encode d' o := by
      rintro d' rfl
      apply hc
      rw [syn_encode]
      exact getOffset_offsetSyndrome o
    cases fec with
    | false =>
      have hl : afterCorrection false w (toOffset o) = none := by
        simp [afterCorrection, correctBlock, hc]
      rw [hl]
      simp [hnot d]
    | true =>
      cases hcorr : correctBurstErrors (w.setWidth 32) (toOffset o) with
      | none =>
        have hl : afterCorrection true w (toOffset o) = none := by
          simp [afterCorrection, correctBlock, hc, hb, hcorr]
        rw [hl]
        have hf := (C03_failure w o).1 hcorr
        simp only [reduceCtorEq, hnot d, true_and, false_or, false_iff]
        rintro ⟨e, he, h⟩
        exact hf ⟨d, e, he, h⟩
      | some r =>
        obtain ⟨d0, e0, he0, hw0, hr0⟩ := (C03_correction_exact w o r).1 hcorr
        have hl : afterCorrection true w (toOffset o) = some d0 := by
          simp [afterCorrection, correctBlock, hb, hcorr, hr0, shiftData_eq, dataPart_encode]
        rw [hl]
        constructor
        · intro h
          rw [← Option.some.inj h]
          exact .inr ⟨rfl, e0, he0, hw0⟩
        · rintro (h | ⟨-, e, he, h⟩)
          · exact absurd h (hnot d)
          · have h1 := (C03_correction_exact w o _).2 ⟨d, e, he, h, rfl⟩
            rw [hcorr, hr0] at h1
            have h2 := Option.some.inj h1
            congr 1
            rw [← dataPart_encode d0 o, ← dataPart_encode d o, ← shiftData_eq, ← shiftData_eq, h2]

/-- The offset of the expected block: the same, unless a clean block with offset C' arrives where C is expected. -/
theorem adjust_cases (o : OffsetName) (w : BitVec 26) :
    adjustExpected (toOffset o) (getOffsetForSyndrome (syn w)) =
      if o = .C ∧ syn w = offsetSyndrome .Cprime then toOffset .Cprime else toOffset o := by
  unfold adjustExpected
  have h1 : toOffset o = .C ↔ o = .C := by cases o <;> simp [toOffset]
  have h2 : getOffsetForSyndrome (syn w) = .Cprime ↔ syn w = offsetSyndrome .Cprime := getOffset_eq_iff _ .Cprime
  simp only [h1, h2]
  rfl

theorem takenAs_syn (fec : Bool) (ex : Offset) (reg : BitVec 32) (w : BitVec 26) (h : reg.setWidth 26 = w) :
    takenAs fec ex reg = afterCorrection fec w (adjustExpected ex (getOffsetForSyndrome (syn w))) := by
  unfold takenAs afterCorrection
  rw [registerBlock_syn, h]

/-- **C92** (exactly what is taken for a block): A word is stored as a block with the data `d` if it is the code word of
`d` with the expected offset, or, if correction is enabled, differs from it in one bit or in two adjacent bits, or
is the code word of `d` with offset C' and the third block is expected; in no other case. The other six bits of the register do not matter. -/
theorem C92_taken_iff (fec : Bool) (o : OffsetName) (reg : BitVec 32) (d : BitVec 16) :
    takenAs fec (toOffset o) reg = some d ↔
      reg.setWidth 26 = encode d o ∨ (o = .C ∧ reg.setWidth 26 = encode d .Cprime) ∨
        fec = true ∧ ∃ e, IsBurst e ∧ reg.setWidth 26 = encode d o ^^^ e := by
  obtain ⟨w, hw⟩ : ∃ w, reg.setWidth 26 = w := ⟨_, rfl⟩
  rw [takenAs_syn fec _ reg w hw, hw, adjust_cases o w]
  have hone : ∀ e, IsBurst e → syn e ≠ syn cPrimeDiff := by
    rintro e (⟨i, hi⟩ | ⟨i, hi⟩)
    · exact one_bit_cprime i hi
    · exact adjacent_cprime i hi
  by_cases hc : o = .C ∧ syn w = offsetSyndrome .Cprime
  · rw [if_pos hc, corrected_iff fec w .Cprime d]
    obtain ⟨rfl, hs⟩ := hc
    have hw := eq_encode_of_syndrome w .Cprime hs
    have hx : offsetSyndrome .Cprime = offsetSyndrome .C ^^^ syn cPrimeDiff := by decide +kernel
    constructor
    · rintro (h | ⟨-, e, he, h⟩)
      · exact .inr (.inl ⟨rfl, h⟩)
      · exfalso
        rw [h, syn_xor, syn_encode] at hs
        have h2 := xor_eq_zero_left hs
        have hp := bursts_distinct
        rw [List.pairwise_cons] at hp
        exact hp.1 e (List.mem_cons_of_mem _ ((mem_bursts e).mpr he)) (by
          rw [h2]
          decide +kernel)
    · rintro (h | ⟨-, h⟩ | ⟨-, e, he, h⟩)
      · exfalso
        rw [h, syn_encode] at hs
        revert hs
        decide +kernel
      · exact .inl h
      · exfalso
        rw [h, syn_xor, syn_encode, hx] at hs
        exact hone e he (xor_cancel_left hs)
  · rw [if_neg hc, corrected_iff fec w o d]
    constructor
    · rintro (h | h)
      · exact .inl h
      · exact .inr (.inr h)
    · rintro (h | ⟨ho, h⟩ | h)
      · exact .inl h
      · exfalso
        exact hc ⟨ho, by rw [h]; exact syn_encode d .Cprime⟩
      · exact .inr h

/-- Without correction, an error pattern goes undetected only if it is a code word itself. -/
theorem undetected {o : OffsetName} (ho : o ≠ .C) {d d' : BitVec 16} {e : BitVec 26} {reg : BitVec 32}
    (hreg : reg.setWidth 26 = encode d o ^^^ e) (h : takenAs false (toOffset o) reg = some d') : syn e = 0 := by
  rcases (C92_taken_iff false o reg d').1 h with h1 | ⟨h1, -⟩ | ⟨h1, -⟩
  · have := congrArg syn (hreg.symm.trans h1)
    rw [syn_xor, syn_encode, syn_encode] at this
    exact xor_eq_zero_left this
  · exact absurd h1 ho
  · cases h1

/-- The same for the third block: or it turns offset C into offset C'. -/
theorem undetected_c {d d' : BitVec 16} {e : BitVec 26} {reg : BitVec 32}
    (hreg : reg.setWidth 26 = encode d .C ^^^ e) (h : takenAs false .C reg = some d') :
    syn e = 0 ∨ syn e = syn cPrimeDiff := by
  rcases (C92_taken_iff false .C reg d').1 h with h1 | ⟨-, h1⟩ | ⟨h1, -⟩
  · left
    have := congrArg syn (hreg.symm.trans h1)
    rw [syn_xor, syn_encode, syn_encode] at this
    exact xor_eq_zero_left this
  · right
    have := congrArg syn (hreg.symm.trans h1)
    rw [syn_xor, syn_encode, cPrimeDiff_spec, syn_xor, syn_encode] at this
    exact xor_cancel_left this
  · cases h1

/-- **C92**, single and double bit errors: without correction, no block with one or two wrong bits is stored. -/
theorem C92_one_or_two_bits (o : OffsetName) (d : BitVec 16) (i j : Nat) (hi : i < 26) (hj : j < 26) (reg : BitVec 32)
    (hreg : reg.setWidth 26 = encode d o ^^^ (BitVec.twoPow 26 i ||| BitVec.twoPow 26 j)) :
    takenAs false (toOffset o) reg = none := by
  rw [Option.eq_none_iff_forall_ne_some]
  intro d' h
  have hor : BitVec.twoPow 26 i ||| BitVec.twoPow 26 j =
      if i = j then BitVec.twoPow 26 i else BitVec.twoPow 26 i ^^^ BitVec.twoPow 26 j := by
    split
    · rename_i hij
      rw [hij, BitVec.or_self]
    · rename_i hij
      apply BitVec.eq_of_getLsbD_eq
      intro k hk
      simp only [BitVec.getLsbD_or, BitVec.getLsbD_xor, BitVec.getLsbD_twoPow]
      by_cases h1 : i = k <;> by_cases h2 : j = k <;> simp [h1, h2] <;> omega
  rw [hor] at hreg
  by_cases ho : o = .C
  · subst ho
    rcases undetected_c hreg h with hs | hs
    · split at hs
      · exact one_bit_syn i hi hs
      · rename_i hij
        exact two_bits_syn i hi j hj hij hs
    · split at hs
      · exact one_bit_cprime i hi hs
      · rename_i hij
        exact two_bits_cprime i hi j hj hij hs
  · have hs := undetected ho hreg h
    split at hs
    · exact one_bit_syn i hi hs
    · rename_i hij
      exact two_bits_syn i hi j hj hij hs

/-- **C92**, bursts: without correction, no block with offset A, B or D (or C' if that is expected) is stored if all its wrong bits lie within ten
consecutive bits. For the third block see `C92_third_block_violated`. -/
theorem C92_burst_partial (o : OffsetName) (ho : o ≠ .C) (d : BitVec 16) (e : BitVec 26) (he : SpansAtMost 10 e)
    (hne : e ≠ 0) (reg : BitVec 32) (hreg : reg.setWidth 26 = encode d o ^^^ e) :
    takenAs false (toOffset o) reg = none := by
  rw [Option.eq_none_iff_forall_ne_some]
  intro d' h
  exact spans10_syn he hne (undetected ho hreg h)

/-- **C92**, bursts of 11 bits, the last of them bit `i + 10`: the only pattern that is not detected is the generator
polynomial (one of the 512 that begin with bit `i`). -/
theorem C92_burst11 (o : OffsetName) (ho : o ≠ .C) (d : BitVec 16) (i : Nat) (hi : i + 11 ≤ 26) (e : BitVec 26)
    (he : Within i 11 e) (h10 : e.getLsbD (i + 10) = true) (reg : BitVec 32)
    (hreg : reg.setWidth 26 = encode d o ^^^ e) :
    (∃ d', takenAs false (toOffset o) reg = some d') ↔ e = generator <<< i := by
  have hg : ∀ i, i < 16 → syn (generator <<< i) = 0 := by decide +kernel
  have hgw : ∀ i, i < 16 → ∀ k, k < 26 → (generator <<< i).getLsbD k = true → i ≤ k ∧ k < i + 11 := by decide +kernel
  have hg0 : ∀ i, i < 16 → (generator <<< i).getLsbD (i + 10) = true := by decide +kernel
  constructor
  · rintro ⟨d', h⟩
    have hs := undetected ho hreg h
    have hz : e ^^^ generator <<< i = 0 := by
      refine within10_zero (i := i) ?_ (by rw [syn_xor, hs, hg i (by omega)]; simp)
      intro k hk
      rw [BitVec.getLsbD_xor] at hk
      have hk26 : k < 26 := by
        apply Classical.byContradiction
        intro hge
        rw [BitVec.getLsbD_of_ge _ _ (by omega), BitVec.getLsbD_of_ge _ _ (by omega)] at hk
        cases hk
      by_cases hkt : k = i + 10
      · rw [hkt, h10, hg0 i (by omega)] at hk
        cases hk
      · cases hek : e.getLsbD k
        · rw [hek] at hk
          have := hgw i (by omega) k hk26 (by simpa using hk)
          omega
        · have := he k hek
          omega
    have := congrArg (· ^^^ generator <<< i) hz
    simpa [BitVec.xor_assoc] using this
  · intro h
    have hs : syn (reg.setWidth 26) = offsetSyndrome o := by
      rw [hreg, syn_xor, syn_encode, h, hg i (by omega)]
      simp
    exact ⟨_, (C92_taken_iff false o reg _).2 (.inl (eq_encode_of_syndrome _ o hs))⟩

/-- The promise about bursts does not hold for the third block, because the receiver accepts offset C' as well as C
there: a burst within nine bits makes a block with offset C a block with offset C' and other data, which is stored. -/
theorem C92_third_block_violated : ¬ ∀ (o : OffsetName) (d : BitVec 16) (e : BitVec 26), SpansAtMost 10 e → e ≠ 0 →
    ∀ d', takenAs false (toOffset o) ((encode d o ^^^ e).setWidth 32) = some d' → d' = d := by
  intro h
  have hw : ∀ k, k < 26 → (0b1000001010000000000#26).getLsbD k = true → 10 ≤ k ∧ k < 10 + 10 := by decide +kernel
  have := h .C 0x1234#16 (0b1000001010000000000#26) ⟨10, by omega, by
    intro k hk
    refine hw k ?_ hk
    apply Classical.byContradiction
    intro hge
    rw [BitVec.getLsbD_of_ge _ _ (by omega)] at hk
    cases hk⟩ (by decide +kernel) 0x1331#16 (by decide +kernel)
  revert this
  decide +kernel

/-- At any place there is only one such burst: two bursts within the same ten bits that make C a C' are the same. -/
theorem C92_third_block (d d' d'' : BitVec 16) (i : Nat) (hi : i + 10 ≤ 26) (e e' : BitVec 26) (he : Within i 10 e)
    (he' : Within i 10 e') (h0 : e ≠ 0) (h0' : e' ≠ 0)
    (h : takenAs false .C ((encode d .C ^^^ e).setWidth 32) = some d')
    (h' : takenAs false .C ((encode d .C ^^^ e').setWidth 32) = some d'') : e = e' := by
  have hback : ∀ w : BitVec 26, (w.setWidth 32).setWidth 26 = w := by
    intro w
    apply BitVec.eq_of_getLsbD_eq
    intro k hk
    simp [hk]
  have h1 : syn e = syn cPrimeDiff := (undetected_c (hback _) h).resolve_left (spans10_syn ⟨i, hi, he⟩ h0)
  have h2 : syn e' = syn cPrimeDiff := (undetected_c (hback _) h').resolve_left (spans10_syn ⟨i, hi, he'⟩ h0')
  have hz : e ^^^ e' = 0 := by
    refine within10_zero (i := i) ?_ (by rw [syn_xor, h1, h2]; simp)
    intro k hk
    rw [BitVec.getLsbD_xor] at hk
    cases hek : e.getLsbD k
    · rw [hek] at hk
      exact he' k (by simpa using hk)
    · exact he k hek
  have := congrArg (· ^^^ e') hz
  simpa [BitVec.xor_assoc] using this

/-- **C92** (noise, without correction): of the 2^26 words exactly 2^16, one in 1024, are stored where a block with offset A, B or
D is expected, and exactly 2 · 2^16 as a third block. -/
theorem C92_noise_clean (o : OffsetName) :
    HasCount (fun w => (takenAs false (toOffset o) (w.setWidth 32)).isSome = true)
      ((if o = .C then 2 else 1) * 65536) := by
  have hback : ∀ w : BitVec 26, (w.setWidth 32).setWidth 26 = w := by
    intro w
    apply BitVec.eq_of_getLsbD_eq
    intro k hk
    simp [hk]
  by_cases ho : o = .C
  · subst ho
    obtain ⟨l, h1, h2, h3⟩ := count_words .C [0#26, cPrimeDiff] (by decide +kernel)
    refine ⟨l, h1, fun w => (h2 w).trans ?_, h3⟩
    dsimp only
    rw [Option.isSome_iff_exists]
    simp only [C92_taken_iff, hback, Bool.false_eq_true, false_and, or_false, true_and, List.mem_cons,
      List.not_mem_nil, exists_eq_or_imp, exists_eq_left, cPrimeDiff_spec]
    constructor
    · rintro (⟨d, h⟩ | ⟨d, h⟩)
      · exact ⟨d, .inl (by simpa using h)⟩
      · exact ⟨d, .inr h⟩
    · rintro ⟨d, h | h⟩
      · exact .inl ⟨d, by simpa using h⟩
      · exact .inr ⟨d, h⟩
  · obtain ⟨l, h1, h2, h3⟩ := count_words o [0#26] (by decide +kernel)
    refine ⟨l, h1, fun w => (h2 w).trans ?_, by rw [if_neg ho]; exact h3⟩
    dsimp only
    rw [Option.isSome_iff_exists]
    simp only [C92_taken_iff, hback, Bool.false_eq_true, false_and, or_false, ho, List.mem_cons, List.not_mem_nil,
      exists_eq_left]
    constructor
    · rintro ⟨d, h⟩
      exact ⟨d, by simpa using h⟩
    · rintro ⟨d, h⟩
      exact ⟨d, by simpa using h⟩

/-- **C92** (noise, with correction): exactly 52 · 2^16 words, about 5 %, are stored where A, B or D is expected, and 53 · 2^16 as
a third block. -/
theorem C92_noise_corrected (o : OffsetName) :
    HasCount (fun w => (takenAs true (toOffset o) (w.setWidth 32)).isSome = true)
      ((if o = .C then 53 else 52) * 65536) := by
  have hback : ∀ w : BitVec 26, (w.setWidth 32).setWidth 26 = w := by
    intro w
    apply BitVec.eq_of_getLsbD_eq
    intro k hk
    simp [hk]
  have hd := bursts_distinct
  rw [List.pairwise_cons] at hd
  have hlen : bursts.length = 51 := by decide +kernel
  by_cases ho : o = .C
  · subst ho
    obtain ⟨l, h1, h2, h3⟩ := count_words .C (0#26 :: cPrimeDiff :: bursts) bursts_distinct
    refine ⟨l, h1, fun w => (h2 w).trans ?_, by simpa [hlen] using h3⟩
    dsimp only
    rw [Option.isSome_iff_exists]
    simp only [C92_taken_iff, hback, true_and, List.mem_cons, exists_eq_or_imp, cPrimeDiff_spec, mem_bursts]
    constructor
    · rintro (⟨d, h⟩ | ⟨d, h⟩ | ⟨e, he, d, h⟩)
      · exact ⟨d, .inl (by simpa using h)⟩
      · exact ⟨d, .inr (.inl h)⟩
      · exact ⟨d, .inr (.inr ⟨e, he, h⟩)⟩
    · rintro ⟨d, h | h | ⟨e, he, h⟩⟩
      · exact .inl ⟨d, by simpa using h⟩
      · exact .inr (.inl ⟨d, h⟩)
      · exact .inr (.inr ⟨e, he, d, h⟩)
  · obtain ⟨l, h1, h2, h3⟩ := count_words o (0#26 :: bursts) (by
      rw [List.pairwise_cons]
      exact ⟨fun e he => hd.1 e (List.mem_cons_of_mem _ he), (List.pairwise_cons.mp hd.2).2⟩)
    refine ⟨l, h1, fun w => (h2 w).trans ?_, by rw [if_neg ho]; simpa [hlen] using h3⟩
    dsimp only
    rw [Option.isSome_iff_exists]
    simp only [C92_taken_iff, hback, true_and, ho, false_and, false_or, List.mem_cons, exists_eq_or_imp, mem_bursts]
    constructor
    · rintro (⟨d, h⟩ | ⟨e, he, d, h⟩)
      · exact ⟨d, .inl (by simpa using h)⟩
      · exact ⟨d, .inr ⟨e, he, h⟩⟩
    · rintro ⟨d, h | ⟨e, he, h⟩⟩
      · exact .inl ⟨d, by simpa using h⟩
      · exact .inr ⟨e, he, d, h⟩

/-- **C92** (noise, before synchronisation): exactly 5 · 2^16 words are taken for a sync pulse. -/
theorem C92_noise_pulses :
    HasCount (fun w => (registerBlock (w.setWidth 32)).offset ≠ .invalid) (5 * 65536) := by
  obtain ⟨l, h1, h2, h3⟩ := count_words .A _ offsets_distinct
  refine ⟨l, h1, fun w => (h2 w).trans ?_, by simpa using h3⟩
  have hback : (w.setWidth 32).setWidth 26 = w := by
    apply BitVec.eq_of_getLsbD_eq
    intro k hk
    simp [hk]
  have hx : ∀ (d : BitVec 16) (o : OffsetName), encode d .A ^^^ (OffsetName.A.word ^^^ o.word).setWidth 26 = encode d o := by
    intro d o
    rw [encode_eq, encode_eq, BitVec.setWidth_xor, BitVec.xor_assoc]
    congr 1
    rw [← BitVec.xor_assoc]
    simp
  dsimp only
  rw [registerBlock_syn, hback]
  constructor
  · rintro ⟨e, he, d, rfl⟩
    rw [List.mem_map] at he
    obtain ⟨o, _, rfl⟩ := he
    rw [hx, syn_encode, getOffset_offsetSyndrome]
    cases o <;> exact Offset.noConfusion
  · intro h
    obtain ⟨o, ho⟩ : ∃ o : OffsetName, getOffsetForSyndrome (syn w) = toOffset o := by
      cases hw : getOffsetForSyndrome (syn w) with
      | A => exact ⟨.A, rfl⟩
      | B => exact ⟨.B, rfl⟩
      | C => exact ⟨.C, rfl⟩
      | Cprime => exact ⟨.Cprime, rfl⟩
      | D => exact ⟨.D, rfl⟩
      | invalid => exact absurd hw h
    refine ⟨_, List.mem_map.mpr ⟨o, by cases o <;> decide, rfl⟩, dataPart w, ?_⟩
    rw [hx]
    exact eq_encode_of_syndrome w o ((getOffset_eq_iff _ _).1 ho)

/-- A block with offset B and seven wrong bits in a row is not stored; with a wrong bit and correction it is. -/
example : takenAs false .B ((encode 0x1234 .B ^^^ 0b1111111000000#26).setWidth 32) = none ∧
    takenAs true .B ((encode 0x1234 .B ^^^ 0b1000000000000#26).setWidth 32) = some 0x1234 ∧
    takenAs false .B ((encode 0x1234 .B).setWidth 32) = some 0x1234 := by decide +kernel

/-- The one burst of 11 bits that is not detected. -/
example : (generator <<< 3).getLsbD 13 = true ∧
    takenAs false .B ((encode 0x1234 .B ^^^ generator <<< 3).setWidth 32) = some 0x123F := by decide +kernel

end Redsea
