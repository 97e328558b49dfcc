import Verif.Lemmas.Subcarrier

/-
C72: the demodulator.
-/

namespace Redsea
open _root_.Redsea.Spec

variable {F C : Type} (ar : Arith F) (L : Liquid F C)

/-- The samples that reach the demodulators. -/
def atTargetRate (resampling : Bool) (xs : List F) : List F := if resampling then resampled L L.newRes xs else xs

theorem new_ok (resampling : Bool) : ∀ d ∈ (SubcarrierSet.new ar L resampling).demods, d.Ok L := by
  intro d hd
  rw [List.eq_of_mem_replicate hd]
  show 0 < (List.replicate 128 ar.zero).length
  rw [List.length_replicate]
  omega

/-- **C72**: whatever the sizes of the chunks, demodulation never leaves an array, and the bits of subcarrier `n`
are those of its own symbols (C59 tells which): nothing is lost, repeated or changed at the borders of chunks, and
the other subcarriers have no influence. This holds for the first 2^32 samples; see `C72_counter_violated`. -/
theorem C72_bits_of_samples_partial (resampling : Bool) (hL : resampling = true → KeepsRate L) (num : Nat)
    (hnum : num ≤ 4) (chunks : List (List F)) (hc : ∀ c ∈ chunks, c.length ≤ 8192)
    (hlen : (atTargetRate L resampling chunks.flatten).length ≤ 2 ^ 32) :
    ∃ s bits, processChunks ar L num (SubcarrierSet.new ar L resampling) chunks = some (s, bits) ∧
      bits.length = chunks.length ∧ (∀ b ∈ bits, b.length = 4) ∧
      ∀ n, n < num → ∃ d out,
        BiphaseDecoder.run ar (BiphaseDecoder.new ar) (((Front.new L).symbols L n 0
          (atTargetRate L resampling chunks.flatten)).map L.real) = some (d, out) ∧
        (bits.flatMap fun b => b.getD n []) = (demodBits out).map (· != 0) := by
  obtain ⟨s, bits, h1, h2, h3, h4⟩ := processChunks_spec ar L num 0 (SubcarrierSet.new ar L resampling) hL hnum chunks
    hc (by rw [Nat.zero_add]; exact hlen) rfl (new_ok ar L resampling)
  refine ⟨s, bits, h1, h2, h3, ?_⟩
  intro n hn
  have hd : (SubcarrierSet.new ar L resampling).demods[n]? = some (Demod.new ar L) :=
    List.getElem?_replicate_of_lt (by omega)
  obtain ⟨d', hrun⟩ := h4 n _ hn hd
  obtain ⟨out, ho, hb, -⟩ := demodRun_symbols ar L n 0 _ (new_ok ar L resampling _ (List.mem_of_getElem? hd)) _ d' _ hrun
  exact ⟨d'.biphase, out, ho, hb⟩

/-- **C72**: hence the division into chunks makes no difference. -/
theorem C72_any_chunks_partial (resampling : Bool) (hL : resampling = true → KeepsRate L) (num : Nat) (hnum : num ≤ 4)
    (c1 c2 : List (List F)) (h1 : ∀ c ∈ c1, c.length ≤ 8192) (h2 : ∀ c ∈ c2, c.length ≤ 8192)
    (hsame : c1.flatten = c2.flatten) (hlen : (atTargetRate L resampling c1.flatten).length ≤ 2 ^ 32) :
    ∃ s1 b1 s2 b2, processChunks ar L num (SubcarrierSet.new ar L resampling) c1 = some (s1, b1) ∧
      processChunks ar L num (SubcarrierSet.new ar L resampling) c2 = some (s2, b2) ∧
      ∀ n, n < num → (b1.flatMap fun b => b.getD n []) = (b2.flatMap fun b => b.getD n []) := by
  obtain ⟨s1, b1, e1, -, -, f1⟩ := C72_bits_of_samples_partial ar L resampling hL num hnum c1 h1 hlen
  obtain ⟨s2, b2, e2, -, -, f2⟩ := C72_bits_of_samples_partial ar L resampling hL num hnum c2 h2 (hsame ▸ hlen)
  refine ⟨s1, b1, s2, b2, e1, e2, ?_⟩
  intro n hn
  obtain ⟨d, out, p, q⟩ := f1 n hn
  obtain ⟨d', out', p', q'⟩ := f2 n hn
  rw [← hsame, p] at p'
  have := Option.some.inj p'
  simp only [Prod.mk.injEq] at this
  obtain ⟨-, rfl⟩ := this
  rw [q, q']

/-- **C72** with C61: if the symbols of a subcarrier are those of a transmitter, of any amplitude, then its bits are
those sent, from the 66th on. -/
theorem C72_ideal_symbols_partial {C : Type} (L : Liquid Int C) (resampling : Bool)
    (hL : resampling = true → KeepsRate L) (num : Nat) (hnum : num ≤ 4) (chunks : List (List Int))
    (hc : ∀ c ∈ chunks, c.length ≤ 8192)
    (hlen : (atTargetRate L resampling chunks.flatten).length ≤ 2 ^ 32) (n : Nat) (hn : n < num) (a : Int)
    (ha : 0 < a) (p : Bool) (sent : List Bool) (h65 : 65 ≤ sent.length)
    (hsym : ((Front.new L).symbols L n 0 (atTargetRate L resampling chunks.flatten)).map L.real =
      biphaseEncode a (diffEncode p sent)) :
    ∃ s bits, processChunks exactArith L num (SubcarrierSet.new exactArith L resampling) chunks = some (s, bits) ∧
      (bits.flatMap fun b => b.getD n []).length = sent.length ∧
      (bits.flatMap fun b => b.getD n []).drop 65 = sent.drop 65 := by
  obtain ⟨s, bits, h1, -, -, h2⟩ := C72_bits_of_samples_partial exactArith L resampling hL num hnum chunks hc hlen
  refine ⟨s, bits, h1, ?_⟩
  obtain ⟨d, out, h3, h4⟩ := h2 n hn
  obtain ⟨d', out', h5, h6, h7⟩ := C61_ideal_signal a ha p sent h65
  rw [hsym, h5] at h3
  have := Option.some.inj h3
  simp only [Prod.mk.injEq] at this
  obtain ⟨-, rfl⟩ := this
  rw [h4]
  refine ⟨by rw [List.length_map, h6], ?_⟩
  rw [← List.map_drop, h7, List.map_map]
  conv => rhs; rw [← List.map_id (sent.drop 65)]
  apply congrFun (congrArg _ _)
  funext b
  cases b <;> rfl

/-- **C72** violated after 2^32 samples (7 hours): the counter starts again from 0, and 2^32 is not a multiple of 24,
so the sample after these is passed to the symbol synchroniser although it is not its turn. (The authors know this.) -/
theorem C72_counter_violated (num : Nat) (xs : List F) (h32 : xs.length = 2 ^ 32) :
    ∃ s bits, sampleLoop ar L num (SubcarrierSet.new ar L false) xs = some (s, bits) ∧
      (s.sampleNum.toNat % kDecimateRatio == 0) = true ∧ xs.length % 24 = 16 := by
  obtain ⟨s, bits, h1, -, -, -, h5, -⟩ := sampleLoop_spec ar L num 0 (SubcarrierSet.new ar L false) xs (by omega) rfl
    (new_ok ar L false)
  refine ⟨s, bits, h1, ?_, by rw [h32]⟩
  rw [h5, h32]
  decide

/-- **C72**: up to a sample rate of 34.2 MHz the resampler accepts every sample rate that the input accepts. -/
theorem C72_rates_partial (rate : Nat) (streams : Bool) (h : rateAccepted rate streams = true) (hr : rate ≤ 34200000) :
    resamplerAccepts rate = true := by
  unfold rateAccepted at h
  unfold resamplerAccepts
  split at h
  · cases h
  · simp only [Bool.and_eq_true, decide_eq_true_eq, ge_iff_le]
    omega

/-- **C72** violated for higher sample rates: the input accepts them (up to 40 MHz), but the resampler throws an
exception that nothing catches. -/
theorem C72_rates_violated (rate : Nat) (h1 : 34200002 < rate) (h2 : rate ≤ 40000000) (streams : Bool) :
    rateAccepted rate streams = true ∧ resamplerAccepts rate = false := by
  unfold rateAccepted resamplerAccepts
  constructor
  · rw [if_neg (by omega), if_neg (by simp; omega), if_neg (by omega)]
  · simp only [Bool.and_eq_false_iff, decide_eq_false_iff_not, ge_iff_le]
    omega

/-! ### Examples -/

/-- Objects that pass every 24th sample on as a symbol, and double every fourth sample when resampling. -/
def demoLiquid : Liquid Int Int where
  Agc := Unit
  Fir := Int
  Nco := Unit
  Sym := Unit
  Modem := Unit
  Res := Fin 4
  newAgc := ()
  newFir := 0
  newNco := ()
  newSym := ()
  newModem := ()
  newRes := 0
  agcExecute := fun _ c => ((), c)
  firPush := fun _ c => c
  firExecute := fun s => (s, s)
  mixDown := fun _ x n => x + n
  ncoStep := id
  stepPLL := fun _ _ => ()
  ncoReset := id
  symExecute := fun _ c => ((), c, 1)
  symReset := id
  demodulate := fun _ _ => ()
  phaseError := fun _ => 0
  real := id
  resample := fun r x => (r + 1, if r = 0 then [x, x] else [x])

theorem demo_keepsRate : KeepsRate demoLiquid where
  few := by
    intro (r : Fin 4) x
    show (if r = 0 then [x, x] else [x]).length ≤ 2
    split <;> simp
  rate := by
    have h : ∀ (xs : List Int) (r : Fin 4), (resampled demoLiquid r xs).length ≤ xs.length + (xs.length + (r.val + 3) % 4) / 4 := by
      intro xs
      induction xs with
      | nil => intro r; exact Nat.zero_le _
      | cons x xs ih =>
        intro r
        have := ih (r + 1)
        show ((if r = 0 then [x, x] else [x]) ++ resampled demoLiquid (r + 1) xs).length ≤ _
        rw [List.length_append, List.length_cons]
        have hv : (r + 1).val = (r.val + 1) % 4 := by
          rw [Fin.val_add]
          rfl
        have hr := r.isLt
        rw [hv] at this
        by_cases h0 : r = 0
        · rw [if_pos h0]
          have : r.val = 0 := by rw [h0]; rfl
          simp only [List.length_cons, List.length_nil]
          omega
        · rw [if_neg h0]
          have : r.val ≠ 0 := fun h => h0 (Fin.ext h)
          simp only [List.length_cons, List.length_nil]
          omega
    intro (r : Fin 4) xs
    have := h xs r
    omega

/-- A signal of 70 bits, in chunks of 100 samples. -/
def demoSignal : List Int :=
  (biphaseEncode 5 (diffEncode true ((List.range 70).map fun i => i % 3 == 0))).flatMap fun x => List.replicate 24 x

example : ((Front.new demoLiquid).symbols demoLiquid 0 0 (atTargetRate demoLiquid false demoSignal)).map demoLiquid.real =
    biphaseEncode 5 (diffEncode true ((List.range 70).map fun i => i % 3 == 0)) := by
  decide +kernel

example : rateAccepted 192000 true = true ∧ resamplerAccepts 192000 = true := by decide

end Redsea
