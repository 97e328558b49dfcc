import Verif.Props.Stream

/-
C07-C09, C11: when synchronisation is found and lost.
-/

namespace Redsea
open Spec BlockStream

/-! ### C11 -/

/-- C11: the verdict on two sync pulses does not change when the bit counter is shifted by any
amount, with 32-bit wraparound. -/
theorem C11_shift_invariant (o o' : Offset) (a b c : BitVec 32) :
    SyncPulse.couldFollow ⟨o, a + c⟩ ⟨o', b + c⟩ = SyncPulse.couldFollow ⟨o, a⟩ ⟨o', b⟩ := by
  have : a + c - (b + c) = a - b := by bv_omega
  simp only [SyncPulse.couldFollow, this]

/-- C11: for two pulses with offset words `o'` (earlier, after `j` bits) and `o` (later, after
`i` bits), less than 2^32 bits apart, the verdict is the arithmetic one, wherever the counter
stands. -/
theorem C11_arithmetic (o o' : OffsetName) (i j : Nat) (hj : j ≤ i) (hi : i - j < 2 ^ 32) :
    SyncPulse.couldFollow ⟨toOffset o, BitVec.ofNat 32 i⟩ ⟨toOffset o', BitVec.ofNat 32 j⟩ = true ↔
      ∃ m, m ≤ 6 ∧ i = j + 26 * m ∧ (o'.index + m) % 4 = o.index := by
  have hd : (BitVec.ofNat 32 i - BitVec.ofNat 32 j).toNat = i - j := by
    simp only [BitVec.toNat_sub, BitVec.toNat_ofNat]; omega
  have h1 : (toOffset o != Offset.invalid) = true := by cases o <;> rfl
  have h2 : (toOffset o' != Offset.invalid) = true := by cases o' <;> rfl
  simp only [SyncPulse.couldFollow, hd, h1, h2, Bool.and_true, Bool.and_eq_true, beq_iff_eq,
    decide_eq_true_eq, ← index_eq]
  constructor
  · rintro ⟨⟨a, b⟩, c⟩
    exact ⟨(i - j) / 26, b, by omega, c⟩
  · rintro ⟨m, a, rfl, c⟩
    have e : (j + 26 * m - j) / 26 = m := by omega
    rw [e]
    exact ⟨⟨by omega, a⟩, c⟩

/-- A C pulse one block after a B pulse, across the overflow of the counter. -/
example : SyncPulse.couldFollow ⟨.C, 20⟩ ⟨.B, 0xFFFFFFFA⟩ = true := by decide

/-! ### C07 -/

theorem pushBit_out_stateAfter (fec : Bool) (bs : List Bool) (bit : Bool)
    (hs : (stateAfter fec bs).isInSync = false) :
    let reg := (shiftBit (stateAfter fec bs) bit).inputRegister
    let o := (registerBlock reg).offset
    let b := if o = .invalid then (stateAfter fec bs).syncBuffer
      else (stateAfter fec bs).syncBuffer.push o (BitVec.ofNat 32 (bs.length + 1))
    RegHolds reg (bs ++ [bit]) ∧
    (stateAfter fec (bs ++ [bit])).syncBuffer = b ∧
    ((stateAfter fec (bs ++ [bit])).isInSync = true ↔ o ≠ .invalid ∧ b.isSequenceFound = true) ∧
    ((stateAfter fec (bs ++ [bit])).isInSync = true →
      (stateAfter fec (bs ++ [bit])).numBitsUntilNextBlock = 26 ∧
      ∀ n, o = toOffset n → (stateAfter fec (bs ++ [bit])).expectedOffset = toOffset (nextName n)) := by
  intro reg o b
  have hi := inv_stateAfter fec bs
  obtain ⟨hn, hlog⟩ := hi.outOfSync hs
  have h := pushBit_out (fec := fec) bit hs hn
  obtain ⟨f1, f2, f3, f4⟩ := step_fst_fields fec (stateAfter fec bs) bit
  have hc : (stateAfter fec bs).bitcount + 1 = BitVec.ofNat 32 (bs.length + 1) := by
    rw [hi.cnt, BitVec.ofNat_add]; rfl
  dsimp only at h
  rw [hc] at h
  have hsum : ((stateAfter fec bs).blockErrorSum50.push 0).getSum ≤ 42 := by
    rw [← RunningSum.sum_rot, RunningSum.rot_push hi.wf, hi.rot, hlog]
    decide
  refine ⟨hi.reg.push bit, ?_, ?_, ?_⟩
  · rw [stateAfter_snoc, f4]; exact h.1
  · rw [stateAfter_snoc, f1]; exact (h.2 hsum).1
  · rw [stateAfter_snoc, f1, f2, f3]; exact (h.2 hsum).2

/-- C07: if the decoder becomes synchronised at a bit, then the input contains three codewords,
at bit positions `k1 < k2 < k3`, the last one ending at this very bit, at distances which are
(modulo 2^32, the range of the bit counter) at most six whole blocks each, and with offset words
in transmission order for these distances. The register is initially zero, so for the first 25
bits a "codeword" may begin before the input, with zero bits. Decoding continues in phase with
the third codeword. -/
theorem C07_three_consistent_pulses (fec : Bool) (bs : List Bool) (bit : Bool)
    (h0 : (stateAfter fec bs).isInSync = false)
    (h1 : (stateAfter fec (bs ++ [bit])).isInSync = true) :
    ∃ (k1 k2 k3 : Nat) (o1 o2 o3 : OffsetName) (d1 d2 d3 : BitVec 16) (m n : Nat),
      1 ≤ k1 ∧ k1 < k2 ∧ k2 < k3 ∧ k3 = (bs ++ [bit]).length ∧
      (k2 - k1) % 2 ^ 32 = 26 * m ∧ m ≤ 6 ∧ (o1.index + m) % 4 = o2.index ∧
      (k3 - k2) % 2 ^ 32 = 26 * n ∧ n ≤ 6 ∧ (o2.index + n) % 4 = o3.index ∧
      EndsWith (List.replicate 26 false ++ (bs ++ [bit]).take k1) (encode d1 o1) ∧
      EndsWith (List.replicate 26 false ++ (bs ++ [bit]).take k2) (encode d2 o2) ∧
      EndsWith (List.replicate 26 false ++ (bs ++ [bit]).take k3) (encode d3 o3) ∧
      phase (stateAfter fec (bs ++ [bit])) = (26 * (o3.index + 1)) % 104 := by
  obtain ⟨hreg, hbuf, hiff, hexp⟩ := pushBit_out_stateAfter fec bs bit h0
  obtain ⟨hoff, hfound⟩ := hiff.1 h1
  obtain ⟨hnb, hexp⟩ := hexp h1
  obtain ⟨o3, ho3⟩ := offset_eq_toOffset hoff
  have hexp := hexp o3 ho3
  simp only [hoff, if_false] at hbuf hfound
  rw [ho3] at hbuf hfound
  obtain ⟨k0, k1, k2, k3, h01, h12, h23, h3, p0, p1, p2, p3⟩ :=
    (inv_stateAfter fec bs).pulses.push bit hreg ho3
  generalize hb : (stateAfter fec bs).syncBuffer.push (toOffset o3)
    (BitVec.ofNat 32 (bs.length + 1)) = b at *
  have hk3 : b.p3 = ⟨toOffset o3, BitVec.ofNat 32 (bs.length + 1)⟩ := by rw [← hb]; rfl
  have hphase : phase (stateAfter fec (bs ++ [bit])) = (26 * (o3.index + 1)) % 104 := by
    unfold phase
    rw [hexp, hnb, nextName_phase, index_eq]
    simp; omega
  -- the third pulse really is at the end
  have hvalid3 : b.p3.offset ≠ .invalid := by rw [hk3]; cases o3 <;> simp [toOffset]
  obtain ⟨d3, hd3⟩ := hreg.codeword ho3
  -- arithmetic of one comparison
  have follow : ∀ (p q : SyncPulse) (i j : Nat) (o o' : OffsetName), p.couldFollow q = true →
      j < i → p.bitPosition = BitVec.ofNat 32 i → q.bitPosition = BitVec.ofNat 32 j →
      p.offset = toOffset o → q.offset = toOffset o' →
      ∃ m, (i - j) % 2 ^ 32 = 26 * m ∧ m ≤ 6 ∧ (o'.index + m) % 4 = o.index := by
    intro p q i j o o' hc hji hp hq hpo hqo
    have hd : (p.bitPosition - q.bitPosition).toNat = (i - j) % 2 ^ 32 := by
      rw [hp, hq]
      simp only [BitVec.toNat_sub, BitVec.toNat_ofNat]; omega
    simp only [SyncPulse.couldFollow, hd, hpo, hqo, Bool.and_eq_true, beq_iff_eq,
      decide_eq_true_eq, ← index_eq] at hc
    exact ⟨(i - j) % 2 ^ 32 / 26, by omega, hc.1.1.1.2, hc.2⟩
  have key : ∀ (q r : SyncPulse) (k k' : Int), k' < k → k < k3 → PulseAt (bs ++ [bit]) q k →
      PulseAt (bs ++ [bit]) r k' → b.p3.couldFollow q = true → q.couldFollow r = true →
      ∃ (k1 k2 k3 : Nat) (o1 o2 o3 : OffsetName) (d1 d2 d3 : BitVec 16) (m n : Nat),
      1 ≤ k1 ∧ k1 < k2 ∧ k2 < k3 ∧ k3 = (bs ++ [bit]).length ∧
      (k2 - k1) % 2 ^ 32 = 26 * m ∧ m ≤ 6 ∧ (o1.index + m) % 4 = o2.index ∧
      (k3 - k2) % 2 ^ 32 = 26 * n ∧ n ≤ 6 ∧ (o2.index + n) % 4 = o3.index ∧
      EndsWith (List.replicate 26 false ++ (bs ++ [bit]).take k1) (encode d1 o1) ∧
      EndsWith (List.replicate 26 false ++ (bs ++ [bit]).take k2) (encode d2 o2) ∧
      EndsWith (List.replicate 26 false ++ (bs ++ [bit]).take k3) (encode d3 o3) ∧
      phase (stateAfter fec (bs ++ [bit])) = (26 * (o3.index + 1)) % 104 := by
    intro q r k k' hk' hk hq hr hc1 hc2
    obtain ⟨_, hvq⟩ := couldFollow_valid hc1
    obtain ⟨_, hvr⟩ := couldFollow_valid hc2
    obtain ⟨q1, q2, q3, oq, dq, q4, q5⟩ := hq hvq
    obtain ⟨r1, r2, r3, or', dr, r4, r5⟩ := hr hvr
    obtain ⟨m, hm⟩ := follow q r k.toNat k'.toNat oq or' hc2 (by omega) q3 r3 q4 r4
    have hlen : (bs ++ [bit]).length = bs.length + 1 := by simp
    obtain ⟨n, hn⟩ := follow b.p3 q (bs ++ [bit]).length k.toNat o3 oq hc1 (by omega)
      (by rw [hk3, hlen]) q3 (by rw [hk3]) q4
    refine ⟨k'.toNat, k.toNat, (bs ++ [bit]).length, or', oq, o3, dr, dq, d3, m, n, by omega,
      by omega, by omega, rfl, hm.1, hm.2.1, hm.2.2, hn.1, hn.2.1, hn.2.2, r5, q5, ?_, hphase⟩
    rw [List.take_length]; exact hd3
  simp only [SyncPulseBuffer.isSequenceFound, Bool.or_eq_true, Bool.and_eq_true] at hfound
  rcases hfound with (⟨a, c⟩ | ⟨a, c⟩) | ⟨a, c⟩
  · exact key _ _ k1 k0 h01 (by omega) p1 p0 a c
  · exact key _ _ k2 k0 (by omega) h23 p2 p0 a c
  · exact key _ _ k2 k1 h12 h23 p2 p1 a c

/-- The demonstration stream locks at the end of its third block. -/
example : (stateAfter true (demoBits.take 77)).isInSync = false ∧
    (stateAfter true (demoBits.take 78)).isInSync = true := by decide +kernel

/-! ### C08 -/

/-- The last 26 bits of `bs` form a codeword of some offset. -/
def Match (bs : List Bool) : Prop := ∃ d o, EndsWith bs (encode d o)

theorem offset_invalid_iff {reg : BitVec 32} {bs : List Bool} (h : RegHolds reg bs)
    (hl : 26 ≤ bs.length) : (registerBlock reg).offset = .invalid ↔ ¬ Match bs := by
  constructor
  · rintro hi ⟨d, o, hd⟩
    rw [(register_offset_iff_long h hl o).2 ⟨d, hd⟩] at hi
    cases o <;> cases hi
  · intro hm
    apply Classical.byContradiction
    intro hc
    obtain ⟨o, ho⟩ := offset_eq_toOffset hc
    obtain ⟨d, hd⟩ := (register_offset_iff_long h hl o).1 ho
    exact hm ⟨d, o, hd⟩

/-- C08: from any unsynchronised state, if three consecutive clean blocks of a transmission are
received and at most one accidental codeword ends between the end of the first and the end of
the third block (other than at the end of the second), then the decoder is synchronised at the
end of the third block, in phase with these blocks, unless it had already synchronised
earlier. -/
theorem C08_acquires_from_three_blocks (fec : Bool) (bs : List Bool) (o1 o2 o3 : OffsetName)
    (d1 d2 d3 : BitVec 16) (h12 : o2.index = (o1.index + 1) % 4)
    (h23 : o3.index = (o2.index + 1) % 4) :
    let first := bs ++ bitsMSB (encode d1 o1)
    let rest := bitsMSB (encode d2 o2) ++ bitsMSB (encode d3 o3)
    (∀ i j, 1 ≤ i → i ≤ 51 → i ≠ 26 → 1 ≤ j → j ≤ 51 → j ≠ 26 →
      Match (first ++ rest.take i) → Match (first ++ rest.take j) → i = j) →
    (∀ k, k < 78 → (stateAfter fec
      (bs ++ (bitsMSB (encode d1 o1) ++ rest).take k)).isInSync = false) →
    (stateAfter fec (first ++ rest)).isInSync = true ∧
      phase (stateAfter fec (first ++ rest)) = (26 * (o3.index + 1)) % 104 := by
  intro first rest hone hout
  have hl1 := bitsMSB_length (encode d1 o1)
  have hl2 := bitsMSB_length (encode d2 o2)
  have hl3 := bitsMSB_length (encode d3 o3)
  have hrest : rest.length = 52 := by simp [rest, hl2, hl3]
  have hfirst : first.length = bs.length + 26 := by simp [first, hl1]
  -- out of sync after the first block and `j` further bits
  have hout' : ∀ j, j < 52 → (stateAfter fec (first ++ rest.take j)).isInSync = false := by
    intro j hj
    have := hout (26 + j) (by omega)
    rw [List.take_append, hl1, List.take_of_length_le (by omega), ← List.append_assoc] at this
    have e : 26 + j - 26 = j := by omega
    rwa [e] at this
  -- the pulse of the first block
  obtain ⟨P1, hP1⟩ : ∃ p : SyncPulse, p = ⟨toOffset o1, BitVec.ofNat 32 first.length⟩ := ⟨_, rfl⟩
  obtain ⟨P2, hP2⟩ : ∃ p : SyncPulse, p = ⟨toOffset o2, BitVec.ofNat 32 (first.length + 26)⟩ :=
    ⟨_, rfl⟩
  have hbase : (stateAfter fec first).syncBuffer.p3 = P1 := by
    have hne : bitsMSB (encode d1 o1) ≠ [] := by intro h; rw [h] at hl1; simp at hl1
    have hsplit := List.dropLast_concat_getLast hne
    have hs0 : (stateAfter fec (bs ++ (bitsMSB (encode d1 o1)).dropLast)).isInSync = false := by
      have := hout 25 (by omega)
      have e : (bitsMSB (encode d1 o1)).take 25 = (bitsMSB (encode d1 o1)).dropLast := by
        rw [List.dropLast_eq_take, hl1]
      rwa [List.take_append_of_le_length (by omega), e] at this
    have hf : first = bs ++ (bitsMSB (encode d1 o1)).dropLast ++
        [(bitsMSB (encode d1 o1)).getLast hne] := by
      rw [List.append_assoc, hsplit]
    obtain ⟨hreg, hbuf, -, -⟩ := pushBit_out_stateAfter fec
      (bs ++ (bitsMSB (encode d1 o1)).dropLast) ((bitsMSB (encode d1 o1)).getLast hne) hs0
    rw [← hf] at hreg hbuf
    have ho := (register_offset_iff_long hreg (by omega) o1).2 ⟨d1, bs, rfl⟩
    rw [ho] at hbuf
    have hv : toOffset o1 ≠ Offset.invalid := by cases o1 <;> simp [toOffset]
    rw [if_neg hv] at hbuf
    rw [hbuf, hP1]
    simp only [SyncPulseBuffer.push]
    congr 2
    simp [hl1, first]
  -- spurious matches up to bit j
  let S : Nat → Prop := fun j => ∃ i, 1 ≤ i ∧ i ≤ j ∧ i ≠ 26 ∧ Match (first ++ rest.take i)
  have hm26 : EndsWith (first ++ rest.take 26) (encode d2 o2) := by
    refine ⟨first, ?_⟩
    simp only [rest]
    rw [List.take_append_of_le_length (by omega), List.take_of_length_le (by omega)]
  -- one bit
  have hstep : ∀ j, j < 52 → ∃ reg : BitVec 32,
      RegHolds reg (first ++ rest.take (j + 1)) ∧
      (let o := (registerBlock reg).offset
       let b := if o = .invalid then (stateAfter fec (first ++ rest.take j)).syncBuffer
        else (stateAfter fec (first ++ rest.take j)).syncBuffer.push o
          (BitVec.ofNat 32 (first.length + (j + 1)))
       (stateAfter fec (first ++ rest.take (j + 1))).syncBuffer = b ∧
       ((stateAfter fec (first ++ rest.take (j + 1))).isInSync = true ↔
          o ≠ .invalid ∧ b.isSequenceFound = true) ∧
       ((stateAfter fec (first ++ rest.take (j + 1))).isInSync = true →
          (stateAfter fec (first ++ rest.take (j + 1))).numBitsUntilNextBlock = 26 ∧
          ∀ n, o = toOffset n →
            (stateAfter fec (first ++ rest.take (j + 1))).expectedOffset =
              toOffset (nextName n))) := by
    intro j hj
    have ht : rest.take (j + 1) = rest.take j ++ [rest[j]'(by omega)] :=
      List.take_succ_eq_append_getElem (by omega)
    have := pushBit_out_stateAfter fec (first ++ rest.take j) (rest[j]'(by omega)) (hout' j hj)
    have hlen : (first ++ rest.take j).length + 1 = first.length + (j + 1) := by
      simp only [List.length_append, List.length_take]; omega
    rw [hlen, List.append_assoc first, ← ht] at this
    exact ⟨_, this.1, this.2⟩
  have hlong : ∀ j, 26 ≤ (first ++ rest.take j).length := by
    intro j; simp only [List.length_append]; omega
  have hinv : ∀ j, j ≤ 51 →
      (j < 26 → (¬ S j → (stateAfter fec (first ++ rest.take j)).syncBuffer.p3 = P1) ∧
        (S j → (stateAfter fec (first ++ rest.take j)).syncBuffer.p2 = P1)) ∧
      (26 ≤ j → (¬ S j → (stateAfter fec (first ++ rest.take j)).syncBuffer.p2 = P1 ∧
          (stateAfter fec (first ++ rest.take j)).syncBuffer.p3 = P2) ∧
        (S j → (stateAfter fec (first ++ rest.take j)).syncBuffer.p1 = P1 ∧
          ((stateAfter fec (first ++ rest.take j)).syncBuffer.p2 = P2 ∨
           (stateAfter fec (first ++ rest.take j)).syncBuffer.p3 = P2))) := by
    intro j
    induction j with
    | zero =>
      intro _
      have hS : ¬ S 0 := by rintro ⟨i, a, b, _⟩; omega
      refine ⟨fun _ => ⟨fun _ => ?_, fun h => absurd h hS⟩, fun h => absurd h (by omega)⟩
      rw [List.take_zero, List.append_nil]; exact hbase
    | succ j ih =>
      intro hj
      obtain ⟨ih1, ih2⟩ := ih (by omega)
      obtain ⟨reg, hreg, hbuf, -, -⟩ := hstep j (by omega)
      have hinval := offset_invalid_iff hreg (hlong _)
      by_cases hmatch : Match (first ++ rest.take (j + 1))
      · have hval : (registerBlock reg).offset ≠ .invalid := fun hc => hinval.1 hc hmatch
        rw [if_neg hval] at hbuf
        by_cases h26 : j + 1 = 26
        · have hj25 : j = 25 := by omega
          subst hj25
          have ho := (register_offset_iff_long hreg (hlong _) o2).2 ⟨d2, hm26⟩
          rw [ho] at hbuf
          have hSS : S (25 + 1) ↔ S 25 := by
            constructor
            · rintro ⟨i, a, b, c, d⟩; exact ⟨i, a, by omega, c, d⟩
            · rintro ⟨i, a, b, c, d⟩; exact ⟨i, a, by omega, c, d⟩
          have hnew : (stateAfter fec (first ++ rest.take (25 + 1))).syncBuffer.p3 = P2 := by
            rw [hbuf, hP2]; rfl
          have hp2 : (stateAfter fec (first ++ rest.take (25 + 1))).syncBuffer.p2 =
              (stateAfter fec (first ++ rest.take 25)).syncBuffer.p3 := by rw [hbuf]; rfl
          have hp1 : (stateAfter fec (first ++ rest.take (25 + 1))).syncBuffer.p1 =
              (stateAfter fec (first ++ rest.take 25)).syncBuffer.p2 := by rw [hbuf]; rfl
          obtain ⟨a, b⟩ := ih1 (by omega)
          refine ⟨fun h => absurd h (by omega), fun _ => ⟨fun hs => ⟨?_, hnew⟩, fun hs =>
            ⟨?_, Or.inr hnew⟩⟩⟩
          · rw [hp2]; exact a (fun h => hs (hSS.2 h))
          · rw [hp1]; exact b (hSS.1 hs)
        · -- the spurious match
          have hnS : ¬ S j := by
            rintro ⟨i, a, b, c, d⟩
            have := hone i (j + 1) a (by omega) c (by omega) (by omega) h26 d hmatch
            omega
          have hS : S (j + 1) := ⟨j + 1, by omega, by omega, h26, hmatch⟩
          have hp2 : (stateAfter fec (first ++ rest.take (j + 1))).syncBuffer.p2 =
              (stateAfter fec (first ++ rest.take j)).syncBuffer.p3 := by rw [hbuf]; rfl
          have hp1 : (stateAfter fec (first ++ rest.take (j + 1))).syncBuffer.p1 =
              (stateAfter fec (first ++ rest.take j)).syncBuffer.p2 := by rw [hbuf]; rfl
          refine ⟨fun h => ⟨fun h' => absurd hS h', fun _ => ?_⟩,
            fun h => ⟨fun h' => absurd hS h', fun _ => ⟨?_, Or.inl ?_⟩⟩⟩
          · rw [hp2]; exact (ih1 (by omega)).1 hnS
          · rw [hp1]; exact ((ih2 (by omega)).1 hnS).1
          · rw [hp2]; exact ((ih2 (by omega)).1 hnS).2
      · rw [if_pos (hinval.2 hmatch)] at hbuf
        have h26 : j + 1 ≠ 26 := by
          intro hc; apply hmatch; rw [hc]; exact ⟨d2, o2, hm26⟩
        have hSS : S (j + 1) ↔ S j := by
          constructor
          · rintro ⟨i, a, b, c, d⟩
            by_cases hi : i = j + 1
            · exact absurd (hi ▸ d) hmatch
            · exact ⟨i, a, by omega, c, d⟩
          · rintro ⟨i, a, b, c, d⟩; exact ⟨i, a, by omega, c, d⟩
        rw [hbuf, hSS]
        exact ⟨fun h => ih1 (by omega), fun h => ih2 (by omega)⟩
  -- the last bit
  have htake : rest.take (51 + 1) = rest := List.take_of_length_le (by omega)
  obtain ⟨reg, hreg, hbuf, hiff, hexp⟩ := hstep 51 (by omega)
  rw [htake] at hreg hbuf hiff hexp
  have hend : EndsWith (first ++ rest) (encode d3 o3) :=
    ⟨first ++ bitsMSB (encode d2 o2), by simp [rest]⟩
  have ho := (register_offset_iff_long hreg (by simp only [List.length_append]; omega) o3).2
    ⟨d3, hend⟩
  rw [ho] at hiff hexp
  have hv : toOffset o3 ≠ Offset.invalid := by cases o3 <;> simp [toOffset]
  rw [if_neg hv] at hiff
  obtain ⟨P3, hP3⟩ : ∃ p : SyncPulse, p =
      ⟨toOffset o3, BitVec.ofNat 32 (first.length + (51 + 1))⟩ := ⟨_, rfl⟩
  have hf32 : P3.couldFollow P2 = true := by
    rw [hP3, hP2, C11_arithmetic _ _ _ _ (by omega) (by omega)]
    exact ⟨1, by omega, by omega, by rw [h23]⟩
  have hf21 : P2.couldFollow P1 = true := by
    rw [hP2, hP1, C11_arithmetic _ _ _ _ (by omega) (by omega)]
    exact ⟨1, by omega, by omega, by rw [h12]⟩
  have hfound : ((stateAfter fec (first ++ rest.take 51)).syncBuffer.push (toOffset o3)
      (BitVec.ofNat 32 (first.length + (51 + 1)))).isSequenceFound = true := by
    obtain ⟨a, b⟩ := (hinv 51 (by omega)).2 (by omega)
    simp only [SyncPulseBuffer.isSequenceFound, SyncPulseBuffer.push, ← hP3]
    by_cases hS : S 51
    · obtain ⟨b1, b2 | b2⟩ := b hS
      · rw [b1, b2]; simp [hf32, hf21]
      · rw [b1, b2]; simp [hf32, hf21]
    · obtain ⟨a1, a2⟩ := a hS
      rw [a1, a2]; simp [hf32, hf21]
  have hsync := hiff.2 ⟨hv, hfound⟩
  refine ⟨hsync, ?_⟩
  obtain ⟨hnb, hexp⟩ := hexp hsync
  unfold phase
  rw [hexp o3 rfl, hnb, nextName_phase, index_eq]
  simp; omega

/-- A start in the middle of a group: the hypotheses of C08 hold for blocks 2, 3, 4 of a 0A group
received by a fresh decoder (there is no accidental match at all). -/
example : (∀ i, i ≤ 51 → 1 ≤ i → i ≠ 26 → ∀ w : BitVec 26,
      w = ((shiftBits {} (bitsMSB (encode 0x0549 .B) ++
        (bitsMSB (encode 0xE0CD .C) ++ bitsMSB (encode 0x4C45 .D)).take i)).inputRegister.setWidth 26) →
      getOffsetForSyndrome (calculateSyndrome (w.setWidth 32)) = .invalid) ∧
    (∀ k, k < 78 → (stateAfter true ([] ++ (bitsMSB (encode 0x0549 .B) ++
      (bitsMSB (encode 0xE0CD .C) ++ bitsMSB (encode 0x4C45 .D))).take k)).isInSync = false) := by
  constructor
  · have : ∀ i, i ≤ 51 → 1 ≤ i → i ≠ 26 →
      getOffsetForSyndrome (calculateSyndrome (((shiftBits {} (bitsMSB (encode 0x0549 .B) ++
        (bitsMSB (encode 0xE0CD .C) ++ bitsMSB (encode 0x4C45 .D)).take i)).inputRegister.setWidth
          26).setWidth 32)) = .invalid := by decide +kernel
    rintro i h1 h2 h3 w rfl
    exact this i h1 h2 h3
  · decide +kernel

/-! ### C09 -/

/-- What is observed at a block slot: 0 if the last 26 bits are a codeword for slot `o` (in the
third slot, C and C' both count), 1 otherwise. -/
def Failed (bs : List Bool) (o : OffsetName) : Prop :=
  ¬ ∃ d o', OffsetName.index o' = o.index ∧ EndsWith bs (encode d o')

theorem failFlag_eq {s : BlockStream} {bs : List Bool} {o : OffsetName}
    (hreg : RegHolds s.inputRegister bs) (hl : 26 ≤ bs.length) (ho : s.expectedOffset = toOffset o)
    (hoC : o ≠ .Cprime) :
    (failFlag s = 1 ↔ Failed bs o) ∧ (failFlag s = 0 ↔ ¬ Failed bs o) := by
  have h01 : failFlag s = 0 ∨ failFlag s = 1 := by unfold failFlag; split <;> simp
  have h0 : failFlag s = 0 ↔ ∃ d o', OffsetName.index o' = o.index ∧ EndsWith bs (encode d o') := by
    have hiff := register_offset_iff_long hreg hl
    unfold failFlag
    rw [ho]
    constructor
    · intro h
      have heq : (registerBlock s.inputRegister).offset =
          adjustExpected (toOffset o) (registerBlock s.inputRegister).offset := by
        apply Classical.byContradiction
        intro hc
        simp [hc] at h
      rw [adjustExpected_toOffset] at heq
      obtain ⟨d, hd⟩ := (hiff _).1 heq
      exact ⟨d, _, adjustName_index _ _, hd⟩
    · rintro ⟨d, o', hi, hd⟩
      have hfound := (hiff o').2 ⟨d, hd⟩
      have : adjustExpected (toOffset o) (toOffset o') = toOffset o' := by
        cases o <;> cases o' <;> first | rfl | (simp [OffsetName.index] at hi; done) |
          exact absurd rfl hoC
      rw [hfound, this]
      simp
  unfold Failed
  rw [h0]
  refine ⟨?_, by simp⟩
  rw [← h0]; omega

/-- C09: the synchroniser's error window, bit by bit. `checkLog fec bs` is the list of block check
results (1 = failed) since synchronisation was found.
1. Unsynchronised, the log is empty; when synchronisation is found it starts with a single 0.
2. Synchronised and not at the end of a block: nothing changes.
3. Synchronised, at the end of a block in slot `o`: the check result of this block is appended;
   synchronisation is dropped if and only if more than 42 of the last 50 results are failures,
   and then the log is emptied. -/
theorem C09_sync_loss (fec : Bool) (bs : List Bool) (bit : Bool) :
    ((stateAfter fec bs).isInSync = false → checkLog fec bs = [] ∧
      ((stateAfter fec (bs ++ [bit])).isInSync = true → checkLog fec (bs ++ [bit]) = [0])) ∧
    ((stateAfter fec bs).isInSync = true →
      phase (stateAfter fec bs) % 26 ≠ 25 →
      (stateAfter fec (bs ++ [bit])).isInSync = true ∧
        checkLog fec (bs ++ [bit]) = checkLog fec bs) ∧
    ((stateAfter fec bs).isInSync = true →
      ∀ o : OffsetName, o ≠ .Cprime → phase (stateAfter fec bs) = 26 * o.index + 25 →
      ∃ f : Nat, (f = 1 ↔ Failed (bs ++ [bit]) o) ∧ (f = 0 ↔ ¬ Failed (bs ++ [bit]) o) ∧
        (let log := checkLog fec bs ++ [f]
         ((stateAfter fec (bs ++ [bit])).isInSync = false ↔
            (log.drop (log.length - 50)).sum > 42) ∧
         checkLog fec (bs ++ [bit]) =
            if (stateAfter fec (bs ++ [bit])).isInSync then log else [])) := by
  have hi := inv_stateAfter fec bs
  have hi' := inv_stateAfter fec (bs ++ [bit])
  obtain ⟨f1, f2, f3, f4⟩ := step_fst_fields fec (stateAfter fec bs) bit
  refine ⟨?_, ?_, ?_⟩
  · intro hs
    obtain ⟨hn, hlog⟩ := hi.outOfSync hs
    refine ⟨hlog, ?_⟩
    intro hs'
    obtain ⟨hreg, hbuf, hiff, hexp⟩ := pushBit_out_stateAfter fec bs bit hs
    obtain ⟨hoff, hfound⟩ := hiff.1 hs'
    obtain ⟨n, ho⟩ := offset_eq_toOffset hoff
    rw [checkLog_snoc, hlog]
    have hnb : (shiftBit (stateAfter fec bs) bit).numBitsUntilNextBlock = 0 := by
      simp [shiftBit, hn]
    simp only [if_neg hoff] at hfound
    have hcnt : (shiftBit (stateAfter fec bs) bit).bitcount = BitVec.ofNat 32 (bs.length + 1) := by
      simp [shiftBit, hi.cnt, BitVec.ofNat_add]
    have hacq : (shiftBit (stateAfter fec bs) bit).acquireSync
        (registerBlock (shiftBit (stateAfter fec bs) bit).inputRegister) =
        { shiftBit (stateAfter fec bs) bit with
          syncBuffer := (stateAfter fec bs).syncBuffer.push
            (registerBlock (shiftBit (stateAfter fec bs) bit).inputRegister).offset
            (BitVec.ofNat 32 (bs.length + 1))
          isInSync := true
          expectedOffset := (registerBlock (shiftBit (stateAfter fec bs) bit).inputRegister).offset
          currentGroup := {}
          numBitsSinceSyncLost := 0 } := by
      have e1 : (shiftBit (stateAfter fec bs) bit).isInSync = false := hs
      have e2 : (shiftBit (stateAfter fec bs) bit).syncBuffer = (stateAfter fec bs).syncBuffer := rfl
      simp only [acquireSync, e1, Bool.false_eq_true, if_false, hcnt, e2]
      rw [if_pos hoff, if_pos hfound]
    have hfl : ((shiftBit (stateAfter fec bs) bit).findBlockInInputRegister fec).isInSync = true := by
      rw [stateAfter_snoc, f1, pushBit_eq, if_pos hnb] at hs'
      exact hs'
    simp only [nextLog, hnb, if_true, hacq, hfl, List.nil_append]
    congr 1
    unfold failFlag
    simp only [ho]
    have : adjustExpected (toOffset n) (toOffset n) = toOffset n := by cases n <;> rfl
    simp [this]
  · intro hs hp
    obtain ⟨o, ho, hoC, hn1, hn2, _⟩ := hi.inSync hs
    have hnb : (stateAfter fec bs).numBitsUntilNextBlock ≠ 1 := by
      intro hc
      apply hp
      unfold phase
      rw [hc]; simp
    have hnb' : ¬ (shiftBit (stateAfter fec bs) bit).numBitsUntilNextBlock = 0 := by
      simp only [shiftBit]; bv_omega
    refine ⟨?_, ?_⟩
    · rw [stateAfter_snoc, f1, pushBit_inside bit hnb]; exact hs
    · rw [checkLog_snoc]; simp only [nextLog, hnb', if_false]
  · intro hs o hoC hp
    obtain ⟨o', ho', hoC', hn1, hn2, hl, _⟩ := hi.inSync hs
    have hidx : o' = o ∧ (stateAfter fec bs).numBitsUntilNextBlock = 1 := by
      unfold phase at hp
      rw [ho', ← index_eq] at hp
      have h1 : (stateAfter fec bs).numBitsUntilNextBlock.toNat = 1 := by omega
      have h2 : o'.index = o.index := by omega
      refine ⟨?_, BitVec.eq_of_toNat_eq (by simpa using h1)⟩
      cases o <;> cases o' <;> first
        | rfl
        | (simp [OffsetName.index] at h2; done)
        | exact absurd rfl hoC
        | exact absurd rfl hoC'
    obtain ⟨rfl, hnb⟩ := hidx
    have hnb0 : (shiftBit (stateAfter fec bs) bit).numBitsUntilNextBlock = 0 := by
      simp [shiftBit, hnb]
    have hreg : RegHolds (shiftBit (stateAfter fec bs) bit).inputRegister (bs ++ [bit]) :=
      hi.reg.push bit
    have hlen : 26 ≤ (bs ++ [bit]).length := by
      rw [hnb] at hl; simp at hl ⊢; omega
    obtain ⟨hf1, hf0⟩ := failFlag_eq (s := shiftBit (stateAfter fec bs) bit) hreg hlen ho' hoC
    refine ⟨failFlag (shiftBit (stateAfter fec bs) bit), hf1, hf0, ?_⟩
    have hp1 := pushBit_block (fec := fec) bit hs hnb
    have hsync' : (stateAfter fec (bs ++ [bit])).isInSync =
        ((shiftBit (stateAfter fec bs) bit).processInSync fec
          (registerBlock (shiftBit (stateAfter fec bs) bit).inputRegister)).isInSync := by
      rw [stateAfter_snoc, f1, hp1]
    have hsum : ((stateAfter fec bs).blockErrorSum50.push
        (failFlag (shiftBit (stateAfter fec bs) bit))).getSum =
        (errWindow (checkLog fec bs ++ [failFlag (shiftBit (stateAfter fec bs) bit)])).sum := by
      rw [← RunningSum.sum_rot, RunningSum.rot_push hi.wf, hi.rot, errWindow_push]
    refine ⟨?_, ?_⟩
    · rw [hsync', processInSync_eq fec (shiftBit (stateAfter fec bs) bit) o' ho', ← errWindow_sum, ← hsum]
      have e1 : (shiftBit (stateAfter fec bs) bit).blockErrorSum50 =
        (stateAfter fec bs).blockErrorSum50 := rfl
      have e2 : (shiftBit (stateAfter fec bs) bit).isInSync = true := hs
      rw [e1]
      by_cases hd : ((stateAfter fec bs).blockErrorSum50.push
        (failFlag (shiftBit (stateAfter fec bs) bit))).getSum > 42
      · simp [hd]
      · simp only [hd, if_false, iff_false]
        split <;> simp [e2]
    · rw [checkLog_snoc]
      have hacq : (shiftBit (stateAfter fec bs) bit).acquireSync
          (registerBlock (shiftBit (stateAfter fec bs) bit).inputRegister) =
          shiftBit (stateAfter fec bs) bit := by
        have e2 : (shiftBit (stateAfter fec bs) bit).isInSync = true := hs
        simp [acquireSync, e2]
      have e2 : (shiftBit (stateAfter fec bs) bit).isInSync = true := hs
      have hfind : (shiftBit (stateAfter fec bs) bit).findBlockInInputRegister fec =
          (shiftBit (stateAfter fec bs) bit).processInSync fec
            (registerBlock (shiftBit (stateAfter fec bs) bit).inputRegister) := by
        simp only [findBlockInInputRegister, hacq, e2, if_true]
      simp only [nextLog, hnb0, if_true, hacq, e2, hfind, hsync']

/-- All three cases occur on the demonstration stream: not synchronised after 77 bits,
synchronised inside a block after 80 bits, at the end of a D slot after 103 bits. -/
example : (stateAfter true (demoBits.take 77)).isInSync = false ∧
    (stateAfter true (demoBits.take 80)).isInSync = true ∧
    phase (stateAfter true (demoBits.take 80)) = 80 ∧
    (stateAfter true (demoBits.take 103)).isInSync = true ∧
    phase (stateAfter true (demoBits.take 103)) = 26 * OffsetName.index .D + 25 := by
  decide +kernel

/-- Synchronisation really is lost: after the demonstration stream, 43 failed blocks of zeros. -/
example : (stateAfter true (demoBits ++ List.replicate (26 * 42) false)).isInSync = true ∧
    (stateAfter true (demoBits ++ List.replicate (26 * 43) false)).isInSync = false := by
  decide +kernel

end Redsea
