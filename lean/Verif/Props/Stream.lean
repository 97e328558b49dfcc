import Verif.Lemmas.StreamPhase

/-
C04-C06, C10: what a decoder delivers, in terms of the input bits alone. `stateAfter fec bs` is
the decoder after the input bits `bs` (from start-up) and `deliveredAt fec bs bit` the group it
delivers at the next bit. Nothing is assumed about `bs`.
-/

namespace Redsea
open Spec BlockStream

/-! ### A concrete transmission used in the examples -/

/-- A 0A group, a 15B group (offset C'), sent alternately. -/
def demoA : TxGroup := ⟨0x6204, 0x0549, 0xE0CD, 0x4C45, false⟩
@[inherit_doc demoA] def demoB : TxGroup := ⟨0x6204, 0xF94A, 0x6204, 0xF94A, true⟩
/-- The first two groups on air. -/
def demoBits : List Bool := demoA.bits ++ demoB.bits

/-- A decoder started on this transmission locks at the third block; at bit 208 (the last one) it
has just delivered the second group. -/
theorem demo_delivers :
    (run true {} demoBits).2.map (fun g => (g.get .b1, g.has .b1, g.get .b4, g.has .b4)) =
      [(0, false, 0x4C45, true), (0x6204, true, 0xF94A, true)] := by
  decide +kernel

theorem demo_delivers_last :
    (deliveredAt true demoBits.dropLast (demoBits.getLastD false)).isSome = true := by
  decide +kernel

/-! ### C04 -/

/-- C04: every block marked as received in a delivered group is, up to a correctable burst, a
codeword that ended exactly 0, 26, 52 or 78 bits before the bit at which the group was
delivered; without correction it is exactly that codeword. -/
theorem C04_received_blocks_genuine (fec : Bool) (bs : List Bool) (bit : Bool) (g : Group)
    (h : deliveredAt fec bs bit = some g) (n : BlockNum) (hn : g.has n = true) :
    ∃ (o : OffsetName) (w e : BitVec 26),
      EndsWith ((bs ++ [bit]).take (bs.length + 1 - 26 * (3 - n.toNat))) w ∧
      o.index = n.toNat ∧ (g.block n).offset = toOffset o ∧ w = encode (g.get n) o ^^^ e ∧
      (((g.block n).hadErrors = false ∧ e = 0) ∨
        ((g.block n).hadErrors = true ∧ fec = true ∧ IsBurst e)) := by
  obtain ⟨f, hg, hf⟩ := (step_inv (inv_stateAfter fec bs) bit).2 g h
  have hb := block_buildGroup f 4 (by omega) n
  rw [← hg, if_pos (by cases n <;> decide)] at hb
  cases hfn : f n with
  | none =>
    rw [hfn] at hb
    simp only [Group.has, hb, Option.getD_none] at hn
    cases hn
  | some b =>
    rw [hfn, Option.getD_some] at hb
    obtain ⟨o, w, e, hk, hw, hi, ho, _, hwe, he⟩ := hf n b hfn
    refine ⟨o, w, e, ?_, hi, by rw [hb, ho], ?_, ?_⟩
    · simpa using hw
    · rw [Group.get, hb]; exact hwe
    · rw [hb]; exact he

/-- C04 without correction. -/
theorem C04_no_fec_only_clean_blocks (bs : List Bool) (g : Group)
    (h : g ∈ (run false {} bs).2) (n : BlockNum) (hn : g.has n = true) :
    ∃ (o : OffsetName) (pre post : List Bool), o.index = n.toNat ∧
      bs = pre ++ bitsMSB (encode (g.get n) o) ++ post := by
  obtain ⟨pre, bit, post, rfl, hg⟩ := (mem_run_iff false {} bs g).1 h
  obtain ⟨o, w, e, ⟨p, hp⟩, hi, _, hwe, he⟩ := C04_received_blocks_genuine false pre bit g hg n hn
  rcases he with ⟨_, rfl⟩ | ⟨_, hc, _⟩
  · refine ⟨o, p, (pre ++ [bit]).drop (pre.length + 1 - 26 * (3 - n.toNat)) ++ post, hi, ?_⟩
    have hw : w = encode (g.get n) o := by simpa using hwe
    rw [← hw, ← hp, ← List.append_assoc, List.take_append_drop]
    simp
  · cases hc

/-- The hypotheses of C04 are met by the demonstration stream, with and without correction. -/
example : ∃ g, deliveredAt true demoBits.dropLast (demoBits.getLastD false) = some g ∧
    g.has .b3 = true ∧ (g.block .b3).offset = .Cprime := by
  have h := demo_delivers_last
  generalize hg : deliveredAt true demoBits.dropLast (demoBits.getLastD false) = o at h
  have : o.map (fun g => (g.has .b3, (g.block .b3).offset)) = some (true, .Cprime) := by
    rw [← hg]; decide +kernel
  cases o with
  | none => cases h
  | some g =>
    simp only [Option.map_some, Option.some.injEq, Prod.mk.injEq] at this
    exact ⟨g, rfl, this.1, this.2⟩

example : ((run false {} demoBits).2.filter fun g => g.has .b2).length = 1 := by decide +kernel

/-! ### C05, C06 -/

/-- What a user of a group sees: for each block its data if received, and the number of
erroneous blocks. -/
def observe (g : Group) : List (Option Word) × Nat :=
  ([BlockNum.b1, .b2, .b3, .b4].map fun n => if g.has n then some (g.get n) else none,
   g.getNumErrors)

theorem observe_rxGroup (t : TxGroup) (e : Damage) :
    observe (rxGroup t e) = ([some t.d1, some t.d2, some t.d3, some t.d4], e.hits.sum) := by
  have hb : (rxGroup t e).block .b1 = rxBlock t.d1 .A e.e1 ∧
      (rxGroup t e).block .b2 = rxBlock t.d2 .B e.e2 ∧
      (rxGroup t e).block .b3 = rxBlock t.d3 t.third e.e3 ∧
      (rxGroup t e).block .b4 = rxBlock t.d4 .D e.e4 := by
    refine ⟨?_, ?_, ?_, ?_⟩ <;> simp [rxGroup, block_setBlock]
  obtain ⟨h1, h2, h3, h4⟩ := hb
  have herr : ∀ (d : BitVec 16) (o : OffsetName) (e : BitVec 26),
      Group.blockErr (rxBlock d o e) = hit e := by
    intro d o e
    by_cases he : e = 0 <;> simp [Group.blockErr, rxBlock, hit, he]
  simp only [observe, List.map_cons, List.map_nil, Group.has, Group.get, h1, h2, h3, h4]
  simp only [Group.getNumErrors]
  have : (rxGroup t e).block1 = rxBlock t.d1 .A e.e1 := h1
  rw [this]
  have : (rxGroup t e).block2 = rxBlock t.d2 .B e.e2 := h2
  rw [this]
  have : (rxGroup t e).block3 = rxBlock t.d3 t.third e.e3 := h3
  rw [this]
  have : (rxGroup t e).block4 = rxBlock t.d4 .D e.e4 := h4
  rw [this]
  simp only [herr]
  simp [rxBlock, Damage.hits]
  omega

/-- Damage that must be repaired: with correction on, a burst of one or two bits in any block
except a third block with offset C' (see `C06_cprime_burst_violated`). -/
def Repairable (fec : Bool) (t : TxGroup) (e : Damage) : Prop :=
  (fec = true → Mild e.e1 ∧ Mild e.e2 ∧ (if t.cprime then e.e3 = 0 else Mild e.e3) ∧ Mild e.e4) ∧
  (fec = false → e = {})

theorem Repairable.acceptable {fec : Bool} {t : TxGroup} {e : Damage} (h : Repairable fec t e) :
    AcceptableDamage fec t e := by
  obtain ⟨h1, h2⟩ := h
  cases fec with
  | false =>
    rw [h2 rfl]
    exact ⟨Or.inl rfl, Or.inl rfl, Or.inl rfl, Or.inl rfl⟩
  | true =>
    obtain ⟨a, b, c, d⟩ := h1 rfl
    have conv : ∀ (o : OffsetName) (x : BitVec 26), o ≠ .Cprime → Mild x → Acceptable true o x := by
      intro o x ho hx
      rcases hx with hx | hx
      · exact Or.inl hx
      · exact Or.inr ⟨rfl, hx, ho⟩
    refine ⟨conv _ _ (by simp) a, conv _ _ (by simp) b, ?_, conv _ _ (by simp) d⟩
    unfold TxGroup.third
    split at c
    · exact Or.inl c
    · rename_i hc
      simp only [hc]
      exact conv _ _ (by simp) c

/-- C06: a synchronised decoder (it has just delivered a group) that is fed any sequence of
groups with repairable damage, never more than 42 damaged blocks among the last 50, delivers
exactly the transmitted groups, and remains synchronised. -/
theorem C06_bursty_stream_lossless (fec : Bool) (bs : List Bool) (bit : Bool) (g : Group)
    (h : deliveredAt fec bs bit = some g) (txs : List (TxGroup × Damage))
    (hd : ∀ p ∈ txs, Repairable fec p.1 p.2)
    (htol : ∀ k, let log := checkLog fec (bs ++ [bit]) ++ (txs.flatMap fun p => p.2.hits).take k
      (log.drop (log.length - 50)).sum ≤ 42) :
    let out := run fec (stateAfter fec (bs ++ [bit])) (txs.flatMap fun p => p.1.damagedBits p.2)
    out.2.map observe =
      (txs.map fun p => ([some p.1.d1, some p.1.d2, some p.1.d3, some p.1.d4], p.2.hits.sum)) ∧
    out.1.isInSync = true := by
  obtain ⟨h1, h2, _⟩ := delivered_boundary h
  obtain ⟨t, r, ht, _⟩ := run_groups txs (stateAfter fec (bs ++ [bit])) (checkLog fec (bs ++ [bit]))
    h1 h2 (fun p hp => (hd p hp).acceptable) (inv_stateAfter fec (bs ++ [bit])).rot
    (by intro k; rw [errWindow_sum]; exact htol k)
  dsimp only
  rw [r]
  refine ⟨?_, ht.sync⟩
  simp [observe_rxGroup]

/-- Damage used in the example: a two-bit burst in block 2 of one group, single errors in blocks
1 and 4 of the next. -/
def demoDamaged : List (TxGroup × Damage) :=
  [(demoA, { e2 := BitVec.twoPow 26 7 ^^^ BitVec.twoPow 26 8 }),
   (demoB, { e1 := BitVec.twoPow 26 0, e4 := BitVec.twoPow 26 25 })]

/-- All hypotheses of C06 hold for the demonstration stream continued by `demoDamaged`. -/
example : (deliveredAt true demoBits.dropLast (demoBits.getLastD false)).isSome = true ∧
    (∀ p ∈ demoDamaged, Repairable true p.1 p.2) ∧
    (∀ k, let log := checkLog true demoBits ++ (demoDamaged.flatMap fun p => p.2.hits).take k
      (log.drop (log.length - 50)).sum ≤ 42) := by
  refine ⟨demo_delivers_last, ?_, ?_⟩
  · intro p hp
    simp only [demoDamaged, List.mem_cons, List.not_mem_nil, or_false] at hp
    rcases hp with rfl | rfl
    · exact ⟨fun _ => ⟨Or.inl rfl, Or.inr (.double 7 (by omega)), Or.inl rfl, Or.inl rfl⟩, by simp⟩
    · exact ⟨fun _ => ⟨Or.inr (.single 0 (by omega)), Or.inl rfl, rfl,
        Or.inr (.single 25 (by omega))⟩, by simp⟩
  · have h8 : ∀ k, k < 9 → ((checkLog true demoBits ++
        (demoDamaged.flatMap fun p => p.2.hits).take k).drop ((checkLog true demoBits ++
        (demoDamaged.flatMap fun p => p.2.hits).take k).length - 50)).sum ≤ 42 := by
      decide +kernel
    intro k
    by_cases hk : k < 9
    · exact h8 k hk
    · have h : (demoDamaged.flatMap fun p => p.2.hits).length = 8 := rfl
      have e : (demoDamaged.flatMap fun p => p.2.hits).take k =
          (demoDamaged.flatMap fun p => p.2.hits).take 8 := by
        rw [List.take_of_length_le (by omega), List.take_of_length_le (by omega)]
      dsimp only
      rw [e]
      exact h8 8 (by omega)

/-- C06 does not extend to a third block with offset C': a single wrong bit there can make the
decoder accept the block with wrong data as an offset C block (bit 20 of the block; the only
other such burst is bits 23-24). The witness is a reachable, synchronised decoder. -/
theorem C06_cprime_burst_violated :
    ∃ (bs : List Bool) (t : TxGroup) (e : BitVec 26), IsBurst e ∧
      (stateAfter true bs).isInSync = true ∧ phase (stateAfter true bs) = 0 ∧ t.cprime = true ∧
      ∃ d, d ≠ t.d3 ∧
        (run true (stateAfter true bs) (t.damagedBits { e3 := e })).2.map (fun g => (observe g).1) =
          [[some t.d1, some t.d2, some d, some t.d4]] :=
  ⟨demoBits, demoB, BitVec.twoPow 26 20, .single 20 (by omega), by decide +kernel,
    by decide +kernel, rfl, 0x0604, by decide, by decide +kernel⟩

/-- C05: a synchronised decoder fed any sequence of clean groups delivers exactly them, without
errors, and remains synchronised. -/
theorem C05_clean_stream_lossless (fec : Bool) (bs : List Bool) (bit : Bool) (g : Group)
    (h : deliveredAt fec bs bit = some g) (txs : List TxGroup) :
    let out := run fec (stateAfter fec (bs ++ [bit])) (txs.flatMap fun t => t.bits)
    out.2.map observe = (txs.map fun t => ([some t.d1, some t.d2, some t.d3, some t.d4], 0)) ∧
    out.1.isInSync = true := by
  have hz : ∀ l : List (TxGroup × Damage), (∀ p ∈ l, p.2 = {}) →
      (l.flatMap fun p => p.2.hits) = List.replicate (4 * l.length) 0 := by
    intro l
    induction l with
    | nil => intro _; rfl
    | cons p l ih =>
      intro hl
      rw [List.flatMap_cons, ih (fun q hq => hl q (by simp [hq])), hl p (by simp)]
      simp only [List.length_cons, Nat.mul_add]
      rw [Nat.add_comm, ← List.replicate_append_replicate]
      rfl
  have htol : ∀ k, (errWindow (checkLog fec (bs ++ [bit]) ++ List.replicate k 0)).sum ≤ 42 := by
    intro k
    induction k with
    | zero =>
      obtain ⟨_, _, hs⟩ := delivered_boundary h
      rw [List.replicate_zero, List.append_nil, ← (inv_stateAfter fec (bs ++ [bit])).rot,
        RunningSum.sum_rot]
      exact hs
    | succ k ih =>
      rw [List.replicate_succ', ← List.append_assoc, errWindow_push]
      have : ∀ l : List Nat, (l.tail ++ [0]).sum ≤ l.sum := by
        intro l; cases l <;> simp
      exact Nat.le_trans (this _) ih
  have key := C06_bursty_stream_lossless fec bs bit g h (txs.map fun t => (t, {})) (by
      intro p hp
      obtain ⟨t, _, rfl⟩ := List.mem_map.1 hp
      refine ⟨fun _ => ⟨Or.inl rfl, Or.inl rfl, ?_, Or.inl rfl⟩, fun _ => rfl⟩
      split
      · rfl
      · exact Or.inl rfl) (by
      intro k
      dsimp only
      rw [← errWindow_sum, hz _ (by simp), List.take_replicate]
      exact htol _)
  have hbits : ((txs.map fun t => ((t, {}) : TxGroup × Damage)).flatMap fun p =>
      p.1.damagedBits p.2) = txs.flatMap fun t => t.bits := by
    rw [List.flatMap_map]
    have e : (fun t : TxGroup => t.damagedBits {}) = fun t => t.bits := by
      funext t; simp [TxGroup.damagedBits, TxGroup.bits]
    dsimp only
    rw [e]
  rw [hbits] at key
  dsimp only at key ⊢
  refine ⟨?_, key.2⟩
  rw [key.1, List.map_map]
  rfl

example : (run true (stateAfter true demoBits) (demoB.bits ++ demoA.bits)).2.map observe =
    [([some 0x6204, some 0xF94A, some 0x6204, some 0xF94A], 0),
     ([some 0x6204, some 0x0549, some 0xE0CD, some 0x4C45], 0)] := by decide +kernel

/-! ### C10 -/

/-- C10, one bit: a group is delivered exactly when, after the bit, the decoder is synchronised
and its position in the 104-bit group frame is 0. -/
theorem C10_delivered_iff (fec : Bool) (bs : List Bool) (bit : Bool) :
    (deliveredAt fec bs bit).isSome = true ↔
      (stateAfter fec (bs ++ [bit])).isInSync = true ∧ phase (stateAfter fec (bs ++ [bit])) = 0 := by
  have h := step_isSome_iff (inv_stateAfter fec bs) bit
  have hi := inv_stateAfter fec (bs ++ [bit])
  rw [← stateAfter_snoc] at h
  unfold deliveredAt
  rw [h]
  constructor
  · rintro ⟨a, b, c⟩
    exact ⟨a, by unfold phase; rw [b, c]; rfl⟩
  · rintro ⟨a, b⟩
    obtain ⟨o, ho, _, hn1, hn2, _⟩ := hi.inSync a
    unfold phase at b
    refine ⟨a, BitVec.eq_of_toNat_eq (by simp; omega), ?_⟩
    rw [ho] at b ⊢
    cases o <;> first | rfl | (simp [toOffset, getBlockNumberForOffset, BlockNum.toNat] at b)

/-- C10, spacing: while synchronisation is kept after a delivery, groups are delivered exactly
at every 104th further bit. -/
theorem C10_spacing (fec : Bool) (bs : List Bool) (bit : Bool) (g : Group)
    (h : deliveredAt fec bs bit = some g) (l : List Bool) (b : Bool)
    (hsync : ∀ k, k ≤ l.length + 1 →
      (stateAfter fec (bs ++ [bit] ++ (l ++ [b]).take k)).isInSync = true) :
    (deliveredAt fec (bs ++ [bit] ++ l) b).isSome = true ↔ (l.length + 1) % 104 = 0 := by
  have hph : ∀ l : List Bool,
      (∀ k, k ≤ l.length → (stateAfter fec (bs ++ [bit] ++ l.take k)).isInSync = true) →
      phase (stateAfter fec (bs ++ [bit] ++ l)) = l.length % 104 := by
    intro l
    induction l using snocInduction with
    | nil =>
      intro _
      rw [List.append_nil]
      exact ((C10_delivered_iff fec bs bit).1 (by rw [h]; rfl)).2
    | snoc l c ih =>
      intro hs
      have hs1 : ∀ k, k ≤ l.length → (stateAfter fec (bs ++ [bit] ++ l.take k)).isInSync = true := by
        intro k hk
        have := hs k (by simp; omega)
        rwa [List.take_append_of_le_length hk] at this
      have ih := ih hs1
      have hl := hs1 l.length (Nat.le_refl _)
      have hl' := hs (l.length + 1) (by simp)
      rw [List.take_of_length_le (by simp)] at hl'
      rw [List.take_length] at hl
      rw [← List.append_assoc, stateAfter_snoc] at hl' ⊢
      have := phase_step (inv_stateAfter fec (bs ++ [bit] ++ l)) c hl hl'
      rw [this.2.1, ih]
      simp
  rw [C10_delivered_iff, List.append_assoc _ l [b], hph (l ++ [b])]
  · have := hsync (l.length + 1) (Nat.le_refl _)
    rw [List.take_of_length_le (by simp)] at this
    rw [this]
    simp
  · intro k hk; exact hsync k (by simpa using hk)

/-- The demonstration stream continued by one clean block keeps synchronisation throughout. -/
example : ∀ k, k ≤ 26 → (stateAfter true (demoBits ++ demoA.bits.take k)).isInSync = true := by
  decide +kernel

end Redsea
