import Verif.Spec.Recovery
import Verif.Props.Sync

/-
Lemmas for C94: how the synchroniser finds back to a clean transmission.
-/

namespace Redsea
open Spec BlockStream

theorem encode_offset {d d' : BitVec 16} {o o' : OffsetName} (h : encode d o = encode d' o') : o = o' := by
  have h2 : offsetSyndrome o = offsetSyndrome o' := by rw [← syndrome_encode d o, h, syndrome_encode]
  cases o <;> cases o' <;> first | rfl | (exact absurd h2 (by decide))

/-- A transmission without errors, block by block. -/
def CleanAir (air : List Bool) : Prop :=
  ∀ j, 26 * (j + 1) ≤ air.length → ∃ (d : BitVec 16) (o : OffsetName), o.index = j % 4 ∧
    air.take (26 * (j + 1)) = air.take (26 * j) ++ bitsMSB (encode d o)

theorem txBits_length (t : TxGroup) : t.bits.length = 104 := by simp [TxGroup.bits, bitsMSB_length]

theorem airBits_length (txs : List TxGroup) : (txs.flatMap fun t => t.bits).length = 104 * txs.length := by
  induction txs with
  | nil => rfl
  | cons t txs ih => rw [List.flatMap_cons, List.length_append, ih, txBits_length, List.length_cons]; omega

theorem take_block (p b r : List Bool) : (p ++ b ++ r).take (p.length + b.length) = p ++ b := by
  rw [List.take_append_of_le_length (by simp)]
  rw [List.take_of_length_le (by simp)]

theorem cleanAir (txs : List TxGroup) : CleanAir (txs.flatMap fun t => t.bits) := by
  induction txs with
  | nil => intro j hj; simp at hj
  | cons t txs ih =>
    intro j hj
    rw [List.flatMap_cons]
    have hl := txBits_length t
    by_cases h4 : j < 4
    · have h1 := bitsMSB_length (encode t.d1 .A)
      have h2 := bitsMSB_length (encode t.d2 .B)
      have h3 := bitsMSB_length (encode t.d3 t.third)
      have h4' := bitsMSB_length (encode t.d4 .D)
      have go : ∀ (p b r : List Bool) (k : Nat), t.bits = p ++ b ++ r → p.length = 26 * k → b.length = 26 →
          (t.bits ++ txs.flatMap fun t => t.bits).take (26 * (k + 1)) =
            (t.bits ++ txs.flatMap fun t => t.bits).take (26 * k) ++ b := by
        intro p b r k he hp hb
        rw [he, List.append_assoc (p ++ b), ← hp]
        have e1 : 26 * (k + 1) = p.length + b.length := by omega
        rw [e1, take_block, List.append_assoc p b, List.take_left]
      have hcase : j = 0 ∨ j = 1 ∨ j = 2 ∨ j = 3 := by omega
      rcases hcase with rfl | rfl | rfl | rfl
      · exact ⟨t.d1, .A, rfl, go [] _ (bitsMSB (encode t.d2 .B) ++ bitsMSB (encode t.d3 t.third) ++ bitsMSB (encode t.d4 .D)) 0
          (by simp [TxGroup.bits]) rfl h1⟩
      · exact ⟨t.d2, .B, rfl, go (bitsMSB (encode t.d1 .A)) _ (bitsMSB (encode t.d3 t.third) ++ bitsMSB (encode t.d4 .D)) 1
          (by simp [TxGroup.bits]) h1 h2⟩
      · exact ⟨t.d3, t.third, by unfold TxGroup.third; split <;> rfl,
          go (bitsMSB (encode t.d1 .A) ++ bitsMSB (encode t.d2 .B)) _ (bitsMSB (encode t.d4 .D)) 2
          (by simp [TxGroup.bits]) (by rw [List.length_append, h1, h2]) h3⟩
      · exact ⟨t.d4, .D, rfl,
          go (bitsMSB (encode t.d1 .A) ++ bitsMSB (encode t.d2 .B) ++ bitsMSB (encode t.d3 t.third)) _ [] 3
          (by simp [TxGroup.bits]) (by rw [List.length_append, List.length_append, h1, h2, h3]) h4'⟩
    · obtain ⟨i, rfl⟩ : ∃ i, j = i + 4 := ⟨j - 4, by omega⟩
      have hlen : (txs.flatMap fun t => t.bits).length + 104 = ((t :: txs).flatMap fun t => t.bits).length := by
        rw [List.flatMap_cons, List.length_append, hl]; omega
      obtain ⟨d, o, ho, he⟩ := ih i (by omega)
      refine ⟨d, o, by omega, ?_⟩
      have e1 : 26 * (i + 4 + 1) = t.bits.length + 26 * (i + 1) := by omega
      have e2 : 26 * (i + 4) = t.bits.length + 26 * i := by omega
      rw [e1, e2, List.take_length_add_append, List.take_length_add_append, he, List.append_assoc]

theorem CleanAir.codeword {air : List Bool} (h : CleanAir air) {n : Nat} (h0 : 1 ≤ n) (hn : 26 * n ≤ air.length) :
    ∃ d o, OffsetName.index o = (n - 1) % 4 ∧ EndsWith (air.take (26 * n)) (encode d o) := by
  obtain ⟨j, rfl⟩ : ∃ j, n = j + 1 := ⟨n - 1, by omega⟩
  obtain ⟨d, o, ho, he⟩ := h j hn
  exact ⟨d, o, by simpa using ho, _, he⟩

theorem endsWith_append {p l : List Bool} {w : BitVec 26} (hl : 26 ≤ l.length) :
    EndsWith (p ++ l) w ↔ EndsWith l w := by
  constructor
  · rintro ⟨q, hq⟩
    refine ⟨l.take (l.length - 26), ?_⟩
    have h1 : (p ++ l.take (l.length - 26)) ++ l.drop (l.length - 26) = q ++ bitsMSB w := by
      rw [List.append_assoc, List.take_append_drop]; exact hq
    have := List.append_inj_right' h1 (by rw [bitsMSB_length]; simp; omega)
    rw [← this, List.take_append_drop]
  · rintro ⟨q, hq⟩
    exact ⟨p ++ q, by rw [hq, List.append_assoc]⟩

section
variable (fec : Bool) (past air : List Bool)

/-- The decoder after `n` bits of the transmission. -/
def during (n : Nat) : BlockStream := stateAfter fec (past ++ air.take n)

theorem bits_snoc {n : Nat} (hn : n < air.length) :
    past ++ air.take (n + 1) = (past ++ air.take n) ++ [air[n]] := by
  rw [List.take_succ_eq_append_getElem hn, List.append_assoc]

/-- In sync, in step with the transmission. -/
def Right (n : Nat) : Prop := (during fec past air n).isInSync = true ∧ phase (during fec past air n) = n % 104

theorem during_phase {n : Nat} (hn : n < air.length) (h : (during fec past air n).isInSync = true)
    (h' : (during fec past air (n + 1)).isInSync = true) :
    phase (during fec past air n) < 104 ∧
      phase (during fec past air (n + 1)) = (phase (during fec past air n) + 1) % 104 := by
  unfold during at *
  rw [bits_snoc past air hn, stateAfter_snoc] at h' ⊢
  have := phase_step (inv_stateAfter fec (past ++ air.take n)) air[n] h h'
  exact ⟨this.1, this.2.1⟩

theorem window_le {bs : List Bool} (h : (stateAfter fec bs).isInSync = true) :
    (errWindow (checkLog fec bs)).sum ≤ 42 := by
  have hi := inv_stateAfter fec bs
  obtain ⟨o, _, _, _, _, _, hsum, _⟩ := hi.inSync h
  rw [← hi.rot, RunningSum.sum_rot]
  exact hsum

/-- A slot has an offset word. -/
theorem slot_name (k : Nat) (hk : k < 4) : ∃ o : OffsetName, o ≠ .Cprime ∧ o.index = k := by
  have : k = 0 ∨ k = 1 ∨ k = 2 ∨ k = 3 := by omega
  rcases this with rfl | rfl | rfl | rfl
  · exact ⟨.A, by decide, rfl⟩
  · exact ⟨.B, by decide, rfl⟩
  · exact ⟨.C, by decide, rfl⟩
  · exact ⟨.D, by decide, rfl⟩

/-- Once in step, always in step. -/
theorem right_step (hc : CleanAir air) {n : Nat} (hn : n < air.length) (h : Right fec past air n) :
    Right fec past air (n + 1) := by
  have hsync : (during fec past air (n + 1)).isInSync = true := by
    obtain ⟨hs, hp⟩ := h
    unfold during at *
    have h9 := C09_sync_loss fec (past ++ air.take n) air[n]
    rw [← bits_snoc past air hn] at h9
    by_cases hb : n % 26 = 25
    · obtain ⟨o, hoC, ho⟩ := slot_name (n % 104 / 26) (by omega)
      obtain ⟨f, -, hf0, hlog, -⟩ := h9.2.2 hs o hoC (by rw [hp, ho]; omega)
      obtain ⟨d, o', ho', he⟩ := hc.codeword (n := n / 26 + 1) (by omega) (by omega)
      have hnn : 26 * (n / 26 + 1) = n + 1 := by omega
      rw [hnn] at he
      have hf : f = 0 := hf0.mpr fun hF => hF ⟨d, o', by rw [ho', ho]; omega,
        (endsWith_append (by rw [List.length_take]; omega)).mpr he⟩
      apply Classical.byContradiction
      intro hno
      have hgt := hlog.mp (by simpa using hno)
      rw [← errWindow_sum, hf, errWindow_push] at hgt
      have : ∀ l : List Nat, (l.tail ++ [0]).sum ≤ l.sum := by
        intro l; cases l <;> simp
      have h1 := this (errWindow (checkLog fec (past ++ air.take n)))
      have h2 := window_le fec hs
      omega
    · exact (h9.2.1 hs (by rw [hp]; omega)).1
  refine ⟨hsync, ?_⟩
  rw [(during_phase fec past air hn h.1 hsync).2, h.2]
  omega

theorem right_from (hc : CleanAir air) {n : Nat} (h : Right fec past air n) :
    ∀ k, n + k ≤ air.length → Right fec past air (n + k)
  | 0, _ => h
  | k + 1, hk => right_step fec past air hc (n := n + k) (by omega) (right_from hc h k (by omega))

/-- When sync is found at least 13 blocks after the beginning of the transmission, it is in step. -/
theorem acquired_right (hc : CleanAir air) (hu : Unmistakable air) (hlen : past.length + air.length < 2 ^ 32) {n : Nat}
    (hn : n < air.length) (h338 : 338 ≤ n + 1) (h0 : (during fec past air n).isInSync = false)
    (h1 : (during fec past air (n + 1)).isInSync = true) : Right fec past air (n + 1) := by
  unfold during at h0 h1
  rw [bits_snoc past air hn] at h1
  obtain ⟨k1, k2, k3, o1, o2, o3, d1, d2, d3, m, l, hk1, h12, h23, hk3, hm, hm6, hi2, hl, hl6, hi3, e1, e2, e3, hph⟩ :=
    C07_three_consistent_pulses fec _ _ h0 h1
  rw [← bits_snoc past air hn] at e1 e2 e3 hk3 hph
  have hk3' : k3 = past.length + (n + 1) := by
    rw [hk3, List.length_append, List.length_take]; omega
  have hkm : k2 = k1 + 26 * m := by omega
  have hkl : k3 = k2 + 26 * l := by omega
  have cw : ∀ k o d, past.length + 26 ≤ k → k ≤ past.length + (n + 1) →
      EndsWith (List.replicate 26 false ++ (past ++ air.take (n + 1)).take k) (encode d o) →
      CodewordAt air (k - past.length) o := by
    intro k o d ha hb he
    refine ⟨by omega, by omega, d, ?_⟩
    have hk : k = past.length + (k - past.length) := by omega
    rw [hk, List.take_length_add_append, List.take_take, ← List.append_assoc] at he
    have hmin : min (k - past.length) (n + 1) = k - past.length := by omega
    rw [hmin] at he
    exact (endsWith_append (by rw [List.length_take]; omega)).mp he
  have c1 := cw k1 o1 d1 (by omega) (by omega) e1
  have c2 := cw k2 o2 d2 (by omega) (by omega) e2
  have c3 := cw k3 o3 d3 (by omega) (by omega) e3
  have hmod : (n + 1) % 26 = 0 := by
    apply Classical.byContradiction
    intro hne
    refine hu.noTriple (k1 - past.length) m l o1 o2 o3 (by omega) hm6 (by omega) hl6 hi2 hi3 ⟨by omega, c1⟩ ⟨by omega, ?_⟩
      ⟨by omega, ?_⟩
    · have : k1 - past.length + 26 * m = k2 - past.length := by omega
      rw [this]; exact c2
    · have : k1 - past.length + 26 * (m + l) = k3 - past.length := by omega
      rw [this]; exact c3
  obtain ⟨d, o, ho, he⟩ := hc.codeword (n := (n + 1) / 26) (by omega) (by omega)
  have hnn : 26 * ((n + 1) / 26) = n + 1 := by omega
  rw [hnn] at he
  obtain ⟨_, _, d', he'⟩ := c3
  have hk : k3 - past.length = n + 1 := by omega
  rw [hk] at he'
  have := encode_offset (EndsWith.unique he he')
  subst this
  unfold Right during
  rw [bits_snoc past air hn] at hph ⊢
  refine ⟨h1, ?_⟩
  rw [hph, ho]
  omega

/-- Out of sync at some moment, in step at a later one. -/
theorem found_from (hc : CleanAir air) (hu : Unmistakable air) (hlen : past.length + air.length < 2 ^ 32) {n j : Nat}
    (h338 : 338 ≤ n) (hj : n ≤ 26 * j) (hair : 26 * (j + 13) ≤ air.length) (h0 : (during fec past air n).isInSync = false) :
    Right fec past air (26 * (j + 13)) := by
  obtain ⟨i, hi1, hi2, hq⟩ := hu.quiet j hair
  -- in step at some moment until the end of block `i + 2`
  have : ∃ m, m ≤ 26 * (i + 3) ∧ Right fec past air m := by
    apply Classical.byContradiction
    intro hno
    have hno : ∀ m, m ≤ 26 * (i + 3) → ¬ Right fec past air m := fun m hm hr => hno ⟨m, hm, hr⟩
    have hout : ∀ k, n + k ≤ 26 * (i + 3) → (during fec past air (n + k)).isInSync = false := by
      intro k
      induction k with
      | zero => intro _; exact h0
      | succ k ih =>
        intro hk
        cases hs : (during fec past air (n + (k + 1))).isInSync with
        | false => rfl
        | true =>
          exact absurd (acquired_right fec past air hc hu hlen (n := n + k) (by omega) (by omega) (ih (by omega)) hs)
            (hno _ (by omega))
    obtain ⟨d1, o1, ho1, e1⟩ := hc i (by omega)
    obtain ⟨d2, o2, ho2, e2⟩ := hc (i + 1) (by omega)
    obtain ⟨d3, o3, ho3, e3⟩ := hc (i + 2) (by omega)
    have l1 := bitsMSB_length (encode d1 o1)
    have l2 := bitsMSB_length (encode d2 o2)
    have l3 := bitsMSB_length (encode d3 o3)
    have h8 := C08_acquires_from_three_blocks fec (past ++ air.take (26 * i)) o1 o2 o3 d1 d2 d3 (by omega) (by omega)
    dsimp only at h8
    have hwhole : air.take (26 * (i + 3)) =
        air.take (26 * i) ++ (bitsMSB (encode d1 o1) ++ (bitsMSB (encode d2 o2) ++ bitsMSB (encode d3 o3))) := by
      have : i + 3 = i + 2 + 1 := rfl
      rw [this, e3, e2, e1]
      simp only [List.append_assoc]
    have hsub : ∀ k, k ≤ 78 → past ++ air.take (26 * i) ++ (bitsMSB (encode d1 o1) ++
        (bitsMSB (encode d2 o2) ++ bitsMSB (encode d3 o3))).take k = past ++ air.take (26 * i + k) := by
      intro k hk
      have hl : (air.take (26 * i)).length = 26 * i := by rw [List.length_take]; omega
      have h1 : air.take (26 * i + k) = (air.take (26 * (i + 3))).take (26 * i + k) := by
        rw [List.take_take]; congr 1; omega
      rw [h1, hwhole]
      have h2 := List.take_length_add_append (l₁ := air.take (26 * i)) (l₂ := bitsMSB (encode d1 o1) ++
        (bitsMSB (encode d2 o2) ++ bitsMSB (encode d3 o3))) k
      rw [hl] at h2
      rw [h2, List.append_assoc]
    have hsub2 : ∀ k, k ≤ 52 → past ++ air.take (26 * i) ++ bitsMSB (encode d1 o1) ++
        (bitsMSB (encode d2 o2) ++ bitsMSB (encode d3 o3)).take k = past ++ air.take (26 * (i + 1) + k) := by
      intro k hk
      have := hsub (26 + k) (by omega)
      rw [← l1, List.take_length_add_append, l1, ← List.append_assoc] at this
      rw [this]
      congr 2
      omega
    have hacc : ∀ k, 1 ≤ k → k ≤ 51 → k ≠ 26 → Match (past ++ air.take (26 * i) ++ bitsMSB (encode d1 o1) ++
        (bitsMSB (encode d2 o2) ++ bitsMSB (encode d3 o3)).take k) → ∃ o, Accidental air (26 * (i + 1) + k) o := by
      rintro k h1 h51 h26 ⟨d, o, he⟩
      rw [hsub2 k (by omega)] at he
      exact ⟨o, by omega, by omega, by omega, d, (endsWith_append (by rw [List.length_take]; omega)).mp he⟩
    have hin := h8 (by
      intro a b ha1 ha2 ha3 hb1 hb2 hb3 hma hmb
      obtain ⟨o, ho⟩ := hacc a ha1 ha2 ha3 hma
      obtain ⟨o', ho'⟩ := hacc b hb1 hb2 hb3 hmb
      have := hq _ _ o o' (by omega) (by omega) (by omega) (by omega) ho ho'
      omega) (by
      intro k hk
      rw [hsub k (by omega)]
      have := hout (26 * i + k - n) (by omega)
      rwa [show n + (26 * i + k - n) = 26 * i + k by omega] at this)
    have h52 := hsub2 52 (Nat.le_refl _)
    have h53 : (bitsMSB (encode d2 o2) ++ bitsMSB (encode d3 o3)).take 52 =
        bitsMSB (encode d2 o2) ++ bitsMSB (encode d3 o3) :=
      List.take_of_length_le (by rw [List.length_append, l2, l3]; decide)
    rw [h53] at h52
    rw [h52] at hin
    refine hno (26 * (i + 1) + 52) (by omega) ⟨hin.1, ?_⟩
    show phase (stateAfter fec (past ++ air.take (26 * (i + 1) + 52))) = _
    rw [hin.2, ho3]
    omega
  obtain ⟨m, hm, hr⟩ := this
  have := right_from fec past air hc hr (26 * (j + 13) - m) (by omega)
  rwa [show m + (26 * (j + 13) - m) = 26 * (j + 13) by omega] at this

/-- Out of step, what the checks of the blocks say: nothing matches but accidental codewords. -/
theorem wrong_log (hc : CleanAir air) {n : Nat} (hn : 26 ≤ n) (hwrong : phase (during fec past air n) ≠ n % 104) :
    ∀ k, n + k ≤ air.length → (∀ i, i ≤ k → (during fec past air (n + i)).isInSync = true) →
      phase (during fec past air (n + k)) = (phase (during fec past air n) + k) % 104 ∧
      ∃ (fs : List Nat) (ms : List Nat),
        checkLog fec (past ++ air.take (n + k)) = checkLog fec (past ++ air.take n) ++ fs ∧
        fs.length = (phase (during fec past air n) % 26 + k) / 26 ∧ fs.length ≤ fs.sum + ms.length ∧ ms.Nodup ∧
        ∀ m ∈ ms, m ≤ n + k ∧ m % 26 = (n + 26 - phase (during fec past air n) % 26) % 26 ∧ ∃ o, Accidental air m o := by
  intro k
  have hlt : (during fec past air n).isInSync = true → phase (during fec past air n) < 104 := by
    intro h
    obtain ⟨o, ho, -, hn1, hn2, -⟩ := (inv_stateAfter fec (past ++ air.take n)).inSync h
    have hidx : (getBlockNumberForOffset (toOffset o)).toNat < 4 := by cases o <;> decide
    unfold during phase
    rw [ho]
    omega
  induction k with
  | zero =>
    intro _ hs
    refine ⟨by have := hlt (hs 0 (by omega)); rw [Nat.add_zero, Nat.add_zero]; omega, [], [], ?_⟩
    refine ⟨by simp, by simp, by simp, List.nodup_nil, by simp⟩
  | succ k ih =>
    intro hk hs
    obtain ⟨hp, fs, ms, hlog, hfl, hsum, hnd, hms⟩ := ih (by omega) (fun i hi => hs i (by omega))
    have hs0 := hs k (by omega)
    have hs1 := hs (k + 1) (by omega)
    have hlt := hlt (hs 0 (by omega))
    have hph : phase (during fec past air (n + (k + 1))) = (phase (during fec past air n) + (k + 1)) % 104 := by
      have := (during_phase fec past air (n := n + k) (by omega) hs0 hs1).2
      rw [show n + (k + 1) = n + k + 1 by omega, this, hp]
      omega
    refine ⟨hph, ?_⟩
    have h9 := C09_sync_loss fec (past ++ air.take (n + k)) (air[n + k]'(by omega))
    rw [← bits_snoc past air (n := n + k) (by omega)] at h9
    by_cases hb : phase (during fec past air (n + k)) % 26 = 25
    · obtain ⟨o, hoC, ho⟩ := slot_name (phase (during fec past air (n + k)) / 26) (by rw [hp]; omega)
      obtain ⟨f, hf1, hf0, -, hlog'⟩ := h9.2.2 hs0 o hoC (by rw [ho]; show phase (during fec past air (n + k)) = _; omega)
      have hs1' : (stateAfter fec (past ++ air.take (n + k + 1))).isInSync = true := hs1
      rw [if_pos hs1', hlog, List.append_assoc] at hlog'
      by_cases hF : Failed (past ++ air.take (n + k + 1)) o
      · have hf : f = 1 := hf1.mpr hF
        refine ⟨fs ++ [f], ms, hlog', ?_, ?_, hnd, ?_⟩
        · rw [List.length_append, hfl, List.length_singleton]
          rw [hp] at hb
          omega
        · rw [List.length_append, List.sum_append, List.length_singleton, hf]
          simp only [List.sum_cons, List.sum_nil]
          omega
        · intro m hm
          obtain ⟨h1, h2⟩ := hms m hm
          exact ⟨by omega, h2⟩
      · have hM := Classical.byContradiction (p := ∃ (d : BitVec 16) (o' : OffsetName), o'.index = o.index ∧
          EndsWith (past ++ air.take (n + k + 1)) (encode d o')) fun h => hF h
        obtain ⟨d, o', hoo, he⟩ := hM
        have he := (endsWith_append (by rw [List.length_take]; omega)).mp he
        have hr : (n + k + 1) % 26 = (n + 26 - phase (during fec past air n) % 26) % 26 := by
          rw [hp] at hb
          omega
        have hne : (n + k + 1) % 26 ≠ 0 := by
          intro h0
          obtain ⟨d', o'', ho'', he''⟩ := hc.codeword (n := (n + k + 1) / 26) (by omega) (by omega)
          rw [show 26 * ((n + k + 1) / 26) = n + k + 1 by omega] at he''
          have := encode_offset (EndsWith.unique he he'')
          subst this
          rw [ho'', ho, hp] at hoo
          rw [hp] at hb
          omega
        refine ⟨fs ++ [f], (n + k + 1) :: ms, hlog', ?_, ?_, ?_, ?_⟩
        · rw [List.length_append, hfl, List.length_singleton]
          rw [hp] at hb
          omega
        · rw [List.length_append, List.sum_append, List.length_singleton, List.length_cons]
          omega
        · refine List.nodup_cons.mpr ⟨?_, hnd⟩
          intro hm
          have := (hms _ hm).1
          omega
        · intro m hm
          rcases List.mem_cons.mp hm with rfl | hm
          · exact ⟨by omega, hr, o', hne, by omega, by omega, d, he⟩
          · obtain ⟨h1, h2⟩ := hms m hm
            exact ⟨by omega, h2⟩
    · refine ⟨fs, ms, ?_, ?_, hsum, hnd, ?_⟩
      · rw [show n + (k + 1) = n + k + 1 by omega, (h9.2.1 hs0 hb).2, hlog]
      · rw [hfl]
        rw [hp] at hb
        omega
      · intro m hm
        obtain ⟨h1, h2⟩ := hms m hm
        exact ⟨by omega, h2⟩

/-- Out of step, sync is lost within 50 blocks. -/
theorem lost_from (hc : CleanAir air) (hu : Unmistakable air) {n : Nat} (hn : 26 ≤ n) (hair : n + 1300 ≤ air.length)
    (hwrong : ¬ Right fec past air n) : ∃ k, k ≤ 1300 ∧ (during fec past air (n + k)).isInSync = false := by
  apply Classical.byContradiction
  intro hno
  have hs : ∀ i, i ≤ 1300 → (during fec past air (n + i)).isInSync = true := by
    intro i hi
    cases h : (during fec past air (n + i)).isInSync with
    | true => rfl
    | false => exact absurd ⟨i, hi, h⟩ hno
  have hw : phase (during fec past air n) ≠ n % 104 := fun h => hwrong ⟨hs 0 (by omega), h⟩
  obtain ⟨-, fs, ms, hlog, hfl, hsum, hnd, hms⟩ := wrong_log fec past air hc hn hw 1300 hair hs
  have h8 := hu.few _ ms hnd (fun m hm => (hms m hm).2)
  have hle := window_le fec (hs 1300 (Nat.le_refl _))
  rw [errWindow_sum, hlog] at hle
  have hf : fs.length = 50 := by omega
  rw [List.length_append, hf, Nat.add_sub_cancel, List.drop_left] at hle
  omega

/-- From whatever state, in step after 76 blocks. -/
theorem recovered (hc : CleanAir air) (hu : Unmistakable air) (hair : air.length = 1976) (hlen : past.length + 1976 < 2 ^ 32) :
    Right fec past air 1976 := by
  by_cases h : Right fec past air 338
  · exact right_from fec past air hc h 1638 (by omega)
  · obtain ⟨k, hk, h0⟩ := lost_from fec past air hc hu (n := 338) (by omega) (by omega) h
    exact found_from fec past air hc hu (by omega) (n := 338 + k) (j := 63) (by omega) (by omega) (by omega) h0

end

end Redsea
