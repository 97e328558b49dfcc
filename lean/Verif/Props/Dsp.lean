import Verif.Model.Dsp
import Verif.Spec.Dsp
import Verif.Lemmas.ListAux

/-! # C58, C59: from symbols to bits -/

namespace Redsea

open _root_.Redsea.Spec

/-! ### C58 -/

/-- Differential decoding of bits. -/
def boolDelta : Bool → List Bool → List Bool
  | _, [] => []
  | prev, d :: l => (d != prev) :: boolDelta d l

theorem bitWord_inj {a b : Bool} : bitWord a = bitWord b ↔ a = b := by
  cases a <;> cases b <;> decide

theorem deltaRun_bits (p : Bool) (l : List Bool) :
    deltaRun (bitWord p) (l.map bitWord) = (boolDelta p l).map bitWord := by
  induction l generalizing p with
  | nil => rfl
  | cons d l ih =>
    rw [List.map_cons, deltaRun, boolDelta, List.map_cons]
    have h1 : (deltaDecode (bitWord p) (bitWord d)).2 = bitWord d := rfl
    have h2 : (deltaDecode (bitWord p) (bitWord d)).1 = bitWord (d != p) := by
      cases p <;> cases d <;> decide
    rw [h1, h2, ih]

/-- **C58**: decoding inverts the differential encoding of the standard, whatever bit both sides
started from. -/
theorem C58_round_trip (p : Bool) (bits : List Bool) :
    deltaRun (bitWord p) ((diffEncode p bits).map bitWord) = bits.map bitWord := by
  rw [deltaRun_bits]
  congr 1
  induction bits generalizing p with
  | nil => rfl
  | cons b l ih =>
    rw [diffEncode, boolDelta, ih]
    cases b <;> cases p <;> rfl

theorem boolDelta_length (p : Bool) (l : List Bool) : (boolDelta p l).length = l.length := by
  induction l generalizing p with
  | nil => rfl
  | cons d l ih => rw [boolDelta, List.length_cons, ih, List.length_cons]

theorem boolDelta_not (p : Bool) (l : List Bool) :
    boolDelta (!p) (l.map (!·)) = boolDelta p l := by
  induction l generalizing p with
  | nil => rfl
  | cons d l ih =>
    rw [List.map_cons, boolDelta, boolDelta, ih]
    cases d <;> cases p <;> rfl

/-- **C58**: inverting the whole input (as by a phase shift of 180 degrees) changes at most the first
output bit. -/
theorem C58_inversion (p : Bool) (bits : List Bool) :
    (deltaRun (bitWord p) ((bits.map (!·)).map bitWord)).length = bits.length ∧
    (deltaRun (bitWord p) ((bits.map (!·)).map bitWord)).tail =
      (deltaRun (bitWord p) (bits.map bitWord)).tail := by
  rw [deltaRun_bits, deltaRun_bits]
  refine ⟨by rw [List.length_map, boolDelta_length, List.length_map], ?_⟩
  cases bits with
  | nil => rfl
  | cons b l =>
    rw [List.map_cons, boolDelta, boolDelta, boolDelta_not]
    rfl

/-- **C58**: one wrong input bit, at position `k`, inverts exactly the output bits `k` and `k + 1`
(the latter if it exists). -/
theorem C58_one_error (p : Bool) (bits : List Bool) (k : Nat) (b : Bool) (hk : bits[k]? = some b)
    (i : Nat) :
    (deltaRun (bitWord p) ((bits.set k (!b)).map bitWord))[i]? =
      if i = k ∨ i = k + 1 then
        ((deltaRun (bitWord p) (bits.map bitWord))[i]?).map fun w => if w = 0 then 1 else 0
      else (deltaRun (bitWord p) (bits.map bitWord))[i]? := by
  rw [deltaRun_bits, deltaRun_bits]
  have flip : ∀ o : Option Bool, ((o.map bitWord).map fun w : BitVec 32 => if w = 0 then (1 : BitVec 32) else 0) =
      (o.map (!·)).map bitWord := by
    intro o
    cases o with
    | none => rfl
    | some x => cases x <;> rfl
  rw [List.getElem?_map, List.getElem?_map, flip]
  have key : (boolDelta p (bits.set k (!b)))[i]? =
      if i = k ∨ i = k + 1 then ((boolDelta p bits)[i]?).map (!·) else (boolDelta p bits)[i]? := by
    induction bits generalizing p k i with
    | nil => cases hk
    | cons d l ih =>
      cases k with
      | zero =>
        have e : d = b := Option.some.inj hk
        subst e
        rw [List.set_cons_zero, boolDelta, boolDelta]
        cases i with
        | zero => cases d <;> cases p <;> rfl
        | succ i =>
          rw [List.getElem?_cons_succ, List.getElem?_cons_succ]
          cases l with
          | nil => simp [boolDelta]
          | cons c l =>
            rw [boolDelta, boolDelta]
            cases i with
            | zero => cases d <;> cases c <;> rfl
            | succ i =>
              rw [List.getElem?_cons_succ, List.getElem?_cons_succ, if_neg (by omega)]
      | succ k =>
        rw [List.set_cons_succ, boolDelta, boolDelta]
        cases i with
        | zero => rw [if_neg (by omega)]; rfl
        | succ i =>
          rw [List.getElem?_cons_succ, List.getElem?_cons_succ, ih d k hk i]
          by_cases h : i = k ∨ i = k + 1
          · rw [if_pos h, if_pos (by omega)]
          · rw [if_neg h, if_neg (by omega)]
  rw [key]
  split <;> rfl

example : deltaRun 0 ((diffEncode false [true, true, false, true]).map bitWord) = [1, 1, 0, 1] ∧
    deltaRun 0 ([true, false, false].map bitWord) = [1, 1, 0] ∧
    deltaRun 0 ([false, true, true].map bitWord) = [0, 1, 0] := by decide

/-! ### C59 -/

section

variable {F : Type} (ar : Arith F)

/-- The differences between successive symbols, from the start. -/
def diffsOf (symbols : List F) : List F := symbolDiffs ar.halfDiff ar.zero symbols

/-- Their magnitudes. -/
def magsOf (symbols : List F) : List F := (diffsOf ar symbols).map ar.abs

/-- The clock phase in window `w`. -/
def phaseOf (symbols : List F) (w : Nat) : Nat := clockPhase ar.zero ar.add ar.gt (magsOf ar symbols) w

theorem symbolDiffs_length (h : F → F → F) (p : F) (l : List F) :
    (symbolDiffs h p l).length = l.length := by
  induction l generalizing p with
  | nil => rfl
  | cons s l ih => rw [symbolDiffs, List.length_cons, ih, List.length_cons]

theorem symbolDiffs_snoc (h : F → F → F) (p : F) (l : List F) (s : F) :
    symbolDiffs h p (l ++ [s]) = symbolDiffs h p l ++ [h s (l.getLastD p)] := by
  induction l generalizing p with
  | nil => rfl
  | cons a l ih =>
    rw [List.cons_append, symbolDiffs, ih, symbolDiffs, List.cons_append]
    congr 3
    cases l <;> rfl

theorem magsOf_length (l : List F) : (magsOf ar l).length = l.length := by
  rw [magsOf, List.length_map, diffsOf, symbolDiffs_length]

theorem magsOf_snoc (l : List F) (s : F) :
    magsOf ar (l ++ [s]) = magsOf ar l ++ [ar.abs (ar.halfDiff s (l.getLastD ar.zero))] := by
  rw [magsOf, diffsOf, symbolDiffs_snoc, List.map_append]
  rfl

theorem clockPhase_append (z : F) (add : F → F → F) (gt : F → F → Bool) (l m : List F) (w : Nat)
    (h : 128 * w ≤ l.length) : clockPhase z add gt (l ++ m) w = clockPhase z add gt l w := by
  induction w with
  | zero => rfl
  | succ w ih =>
    have e : ((l ++ m).drop (128 * w)).take 128 = (l.drop (128 * w)).take 128 := by
      rw [List.drop_append_of_le_length (by omega), List.take_append_of_le_length (by
        rw [List.length_drop]; omega)]
    rw [clockPhase, clockPhase, e, ih (by omega)]

theorem energies_eq (i : Nat) (l : List F) (a b : F) :
    BiphaseDecoder.energies ar i l (a, b) =
      ((((l.zipIdx i).filter fun p => p.2 % 2 == 0).map Prod.fst).foldl ar.add a,
       (((l.zipIdx i).filter fun p => p.2 % 2 == 1).map Prod.fst).foldl ar.add b) := by
  induction l generalizing i a b with
  | nil => rfl
  | cons x l ih =>
    rw [BiphaseDecoder.energies, List.zipIdx_cons]
    by_cases h : i % 2 = 0
    · rw [if_pos h, ih, List.filter_cons_of_pos (by simpa using h),
        List.filter_cons_of_neg (by simp [h])]
      rfl
    · have h1 : i % 2 = 1 := by omega
      rw [if_neg h, ih, List.filter_cons_of_neg (by simpa using h),
        List.filter_cons_of_pos (by simpa using h1)]
      rfl

theorem energies_window (l : List F) :
    BiphaseDecoder.energies ar 0 l (ar.zero, ar.zero) =
      (windowEnergy ar.zero ar.add 0 l, windowEnergy ar.zero ar.add 1 l) :=
  energies_eq ar 0 l _ _

/-- The state after the symbols `l`. -/
structure BiphaseInv (l : List F) (d : BiphaseDecoder F) : Prop where
  prev : d.prev = l.getLastD ar.zero
  clock : d.clock = l.length % 128
  polarity : d.polarity = phaseOf ar l (l.length / 128)
  history : d.history = (magsOf ar l).drop (128 * (l.length / 128)) ++
    List.replicate (128 - l.length % 128) ar.zero

theorem biphase_run_snoc (d : BiphaseDecoder F) (l : List F) (s : F) :
    BiphaseDecoder.run ar d (l ++ [s]) = (BiphaseDecoder.run ar d l).bind fun r =>
      (BiphaseDecoder.push ar r.1 s).map fun q => (q.1, r.2 ++ [q.2]) := by
  induction l generalizing d with
  | nil =>
    rw [List.nil_append]
    unfold BiphaseDecoder.run BiphaseDecoder.run
    dsimp only [Option.bind_eq_bind, Option.bind_some, Option.pure_def]
    cases BiphaseDecoder.push ar d s <;> rfl
  | cons a l ih =>
    rw [List.cons_append]
    conv => lhs; unfold BiphaseDecoder.run
    conv => rhs; arg 1; unfold BiphaseDecoder.run
    dsimp only [Option.bind_eq_bind, Option.bind_some, Option.pure_def]
    cases BiphaseDecoder.push ar d a with
    | none => rfl
    | some r =>
      dsimp only [Option.bind_some]
      rw [ih]
      cases BiphaseDecoder.run ar r.1 l with
      | none => rfl
      | some q =>
        dsimp only [Option.bind_some]
        cases BiphaseDecoder.push ar q.1 s <;> rfl

theorem biphase_push (l : List F) (d : BiphaseDecoder F) (h : BiphaseInv ar l d) (s : F) :
    ∃ d', BiphaseDecoder.push ar d s = some (d', ar.nonneg (ar.halfDiff s (l.getLastD ar.zero)),
        l.length % 2 == phaseOf ar l (l.length / 128)) ∧ BiphaseInv ar (l ++ [s]) d' := by
  obtain ⟨h1, h2, h3, h4⟩ := h
  have hlen : ((magsOf ar l).drop (128 * (l.length / 128))).length = l.length % 128 := by
    rw [List.length_drop, magsOf_length]
    omega
  have hlt : d.clock < d.history.length := by
    rw [h2, h4, List.length_append, hlen, List.length_replicate]
    omega
  have hset : d.history.set d.clock (ar.abs (ar.halfDiff s d.prev)) =
      (magsOf ar (l ++ [s])).drop (128 * (l.length / 128)) ++
        List.replicate (127 - l.length % 128) ar.zero := by
    have e : 128 - l.length % 128 = (127 - l.length % 128) + 1 := by omega
    rw [h4, h2, h1, magsOf_snoc, List.drop_append_of_le_length (by rw [magsOf_length]; omega),
      List.set_append_right _ _ (by omega), hlen, Nat.sub_self, e, List.replicate_succ,
      List.set_cons_zero, List.append_assoc]
    rfl
  have hvalid : (d.clock % 2 == d.polarity) = (l.length % 2 == phaseOf ar l (l.length / 128)) := by
    rw [h2, h3]
    have : l.length % 128 % 2 = l.length % 2 := by omega
    rw [this]
  have hlast : (l ++ [s]).getLastD ar.zero = s := by
    rw [List.getLastD_eq_getLast?, List.getLast?_concat]
    rfl
  have hsetlen : ((magsOf ar (l ++ [s])).drop (128 * (l.length / 128)) ++
        List.replicate (127 - l.length % 128) ar.zero).length = 128 := by
    rw [← hset, List.length_set, h4, List.length_append, hlen, List.length_replicate]
    omega
  unfold BiphaseDecoder.push
  dsimp only
  rw [if_pos hlt, hset, hsetlen, hvalid, h1]
  by_cases hw : d.clock + 1 = 128
  · rw [if_pos hw]
    refine ⟨_, rfl, ?_⟩
    have hmod : l.length % 128 = 127 := by omega
    have hdiv : (l.length + 1) / 128 = l.length / 128 + 1 := by omega
    have hmod' : (l.length + 1) % 128 = 0 := by omega
    have hrep : (127 - l.length % 128) = 0 := by omega
    constructor
    · exact hlast.symm
    · show 0 = _
      rw [List.length_append, List.length_singleton, hmod']
    · show BiphaseDecoder.decide ar _ d.polarity = _
      rw [List.length_append, List.length_singleton, hdiv, hrep, List.replicate_zero,
        List.append_nil, energies_window, h3]
      have hphase : phaseOf ar l (l.length / 128) = phaseOf ar (l ++ [s]) (l.length / 128) := by
        unfold phaseOf
        rw [magsOf_snoc, clockPhase_append _ _ _ _ _ _ (by rw [magsOf_length]; omega)]
      rw [hphase]
      have htake : ((magsOf ar (l ++ [s])).drop (128 * (l.length / 128))).take 128 =
          (magsOf ar (l ++ [s])).drop (128 * (l.length / 128)) := by
        rw [List.take_of_length_le]
        rw [List.length_drop, magsOf_length, List.length_append, List.length_singleton]
        omega
      unfold phaseOf
      rw [clockPhase, htake]
      rfl
    · show List.map _ _ = _
      rw [List.length_append, List.length_singleton, hdiv, hmod', hrep, List.replicate_zero,
        List.append_nil, List.map_const',
        List.drop_eq_nil_of_le (i := 128 * (l.length / 128 + 1)) (by
          rw [magsOf_length, List.length_append, List.length_singleton]
          omega), List.nil_append, List.length_drop,
        magsOf_length, List.length_append, List.length_singleton]
      congr 1
      omega
  · rw [if_neg hw]
    refine ⟨_, rfl, ?_⟩
    have hmod : l.length % 128 ≠ 127 := by omega
    have hdiv : (l.length + 1) / 128 = l.length / 128 := by omega
    have hmod' : (l.length + 1) % 128 = l.length % 128 + 1 := by omega
    constructor
    · exact hlast.symm
    · show d.clock + 1 = _
      rw [List.length_append, List.length_singleton, hmod', h2]
    · show d.polarity = _
      rw [List.length_append, List.length_singleton, hdiv, h3]
      unfold phaseOf
      rw [magsOf_snoc, clockPhase_append _ _ _ _ _ _ (by rw [magsOf_length]; omega)]
    · show _ ++ _ = _
      rw [List.length_append, List.length_singleton, hdiv, hmod']
      congr 2
      omega

theorem biphase_run (l : List F) : ∃ d out,
    BiphaseDecoder.run ar (BiphaseDecoder.new ar) l = some (d, out) ∧ BiphaseInv ar l d ∧
      out.length = l.length ∧
      ∀ i x, (diffsOf ar l)[i]? = some x →
        out[i]? = some (ar.nonneg x, i % 2 == phaseOf ar l (i / 128)) := by
  induction l using snocInduction with
  | nil =>
    have e : ([] : List F).length / 128 = 0 := Nat.zero_div 128
    refine ⟨BiphaseDecoder.new ar, [], rfl, ⟨rfl, rfl, ?_, ?_⟩, rfl, ?_⟩
    · rw [e]
      rfl
    · rw [e]
      rfl
    intro i x h
    cases h
  | snoc l s ih =>
    obtain ⟨d, out, hr, hi, hl, ho⟩ := ih
    obtain ⟨d', hp, hi'⟩ := biphase_push ar l d hi s
    refine ⟨d', out ++ [(ar.nonneg (ar.halfDiff s (l.getLastD ar.zero)),
      l.length % 2 == phaseOf ar l (l.length / 128))], by rw [biphase_run_snoc, hr, Option.bind_some, hp, Option.map_some], hi', ?_, ?_⟩
    · rw [List.length_append, List.length_append, hl]
      rfl
    · intro i x hx
      have hd : diffsOf ar (l ++ [s]) = diffsOf ar l ++ [ar.halfDiff s (l.getLastD ar.zero)] :=
        symbolDiffs_snoc _ _ _ _
      have hdl : (diffsOf ar l).length = l.length := symbolDiffs_length _ _ _
      have hph : ∀ w, 128 * w ≤ l.length → phaseOf ar (l ++ [s]) w = phaseOf ar l w := by
        intro w hw
        unfold phaseOf
        rw [magsOf_snoc, clockPhase_append _ _ _ _ _ _ (by rw [magsOf_length]; omega)]
      rw [hd] at hx
      by_cases hlt : i < l.length
      · rw [List.getElem?_append_left (by omega)] at hx
        rw [List.getElem?_append_left (by omega), hph _ (by omega)]
        exact ho i x hx
      · have hil : i = l.length := by
          have := (List.getElem?_eq_some_iff.mp hx).1
          rw [List.length_append, hdl, List.length_singleton] at this
          omega
        subst hil
        rw [List.getElem?_append_right (by omega), hdl, Nat.sub_self] at hx
        rw [List.getElem?_append_right (by omega), hl, Nat.sub_self, hph _ (by omega),
          ← Option.some.inj hx]
        rfl

/-- **C59**: whatever symbols come, the history index stays in its 128-entry buffer (the run is never
`none`), and each symbol gives one result. -/
theorem C59_index_in_range (symbols : List F) : ∃ d out,
    BiphaseDecoder.run ar (BiphaseDecoder.new ar) symbols = some (d, out) ∧
      out.length = symbols.length ∧ d.clock < 128 ∧ d.history.length = 128 := by
  obtain ⟨d, out, h, hi, hl, -⟩ := biphase_run ar symbols
  refine ⟨d, out, h, hl, ?_, ?_⟩
  · rw [hi.clock]
    omega
  · rw [hi.history, List.length_append, List.length_replicate, List.length_drop, magsOf_length]
    omega

/-- **C59**: symbol `i` is evaluated by the sign of its difference to the symbol before, and output if
its position has the parity of the clock phase of its window. The clock phase (`clockPhase`) is decided
at window ends only, for the larger energy. -/
theorem C59_output (symbols : List F) (d : BiphaseDecoder F) (out : List (Bool × Bool))
    (h : BiphaseDecoder.run ar (BiphaseDecoder.new ar) symbols = some (d, out)) (i : Nat) (x : F)
    (hx : (symbolDiffs ar.halfDiff ar.zero symbols)[i]? = some x) :
    out[i]? = some (ar.nonneg x,
      i % 2 == clockPhase ar.zero ar.add ar.gt
        ((symbolDiffs ar.halfDiff ar.zero symbols).map ar.abs) (i / 128)) := by
  obtain ⟨d', out', h', -, -, ho⟩ := biphase_run ar symbols
  rw [h] at h'
  simp only [Option.some.injEq, Prod.mk.injEq] at h'
  rw [h'.2]
  exact ho i x hx

theorem phase_lt_two (z : F) (add : F → F → F) (gt : F → F → Bool) (l : List F) (w : Nat) :
    clockPhase z add gt l w < 2 := by
  induction w with
  | zero => exact Nat.zero_lt_two
  | succ w ih =>
    rw [clockPhase]
    split
    · decide
    · split
      · decide
      · exact ih

/-- **C59**: in every window of 128 symbols exactly 64 bits are output. -/
theorem C59_sixty_four_bits (symbols : List F) (d : BiphaseDecoder F) (out : List (Bool × Bool))
    (h : BiphaseDecoder.run ar (BiphaseDecoder.new ar) symbols = some (d, out)) (w : Nat)
    (hw : 128 * (w + 1) ≤ symbols.length) :
    (((out.drop (128 * w)).take 128).filter fun o => o.2).length = 64 := by
  obtain ⟨d', out', h', -, hl, -⟩ := biphase_run ar symbols
  have e : (d, out) = (d', out') := Option.some.inj (h.symm.trans h')
  have e2 : out = out' := congrArg Prod.snd e
  rw [← e2] at hl
  have hp := phase_lt_two ar.zero ar.add ar.gt (magsOf ar symbols) w
  have key : ((out.drop (128 * w)).take 128).map (fun o => o.2) =
      (List.range 128).map fun j => j % 2 == phaseOf ar symbols w := by
    apply List.ext_getElem?
    intro j
    rw [List.getElem?_map, List.getElem?_map]
    by_cases hj : j < 128
    · have hi : 128 * w + j < (symbolDiffs ar.halfDiff ar.zero symbols).length := by
        rw [symbolDiffs_length]
        omega
      have := C59_output ar symbols d out h (128 * w + j) _ (List.getElem?_eq_getElem hi)
      rw [List.getElem?_take_of_lt hj, List.getElem?_drop, this, List.getElem?_range hj]
      have e1 : (128 * w + j) % 2 = j % 2 := by omega
      have e2 : (128 * w + j) / 128 = w := by omega
      rw [e1, e2]
      rfl
    · rw [List.getElem?_eq_none (by rw [List.length_take, List.length_drop]; omega),
        List.getElem?_eq_none (by rw [List.length_range]; omega)]
      rfl
  have count : ∀ l : List (Bool × Bool), (l.filter fun o => o.2).length =
      ((l.map fun o => o.2).filter id).length := by
    intro l
    rw [List.filter_map, List.length_map]
    rfl
  rw [count, key]
  have hq : phaseOf ar symbols w < 2 := hp
  generalize phaseOf ar symbols w = q at hq
  rcases (by omega : q = 0 ∨ q = 1) with rfl | rfl <;> decide +kernel

end

/-! ### An ideal signal -/

/-- Exact arithmetic, in units of half an amplitude. -/
def exactArith : Arith Int where
  zero := 0
  halfDiff x y := x - y
  abs x := x.natAbs
  add x y := x + y
  nonneg x := decide (0 ≤ x)
  gt x y := decide (y < x)

theorem biphaseEncode_length (a : Int) (l : List Bool) :
    (biphaseEncode a l).length = 2 * l.length := by
  induction l with
  | nil => rfl
  | cons b l ih =>
    rw [biphaseEncode, List.length_cons, List.length_cons, ih, List.length_cons]
    omega

/-- The differences in an ideal signal: at odd positions twice the amplitude with the sign of the bit,
at even positions at most that. -/
theorem ideal_diffs (a : Int) (ha : 0 < a) (l : List Bool) (p : Int) (hp : -a ≤ p ∧ p ≤ a) (k : Nat)
    (b : Bool) (hb : l[k]? = some b) :
    (∃ x : Int, (symbolDiffs exactArith.halfDiff p (biphaseEncode a l))[2 * k]? = some x ∧
      -(2 * a) ≤ x ∧ x ≤ 2 * a) ∧
    (symbolDiffs exactArith.halfDiff p (biphaseEncode a l))[2 * k + 1]? =
      some (if b then 2 * a else -(2 * a)) := by
  induction l generalizing p k with
  | nil => cases hb
  | cons c l ih =>
    rw [biphaseEncode, symbolDiffs, symbolDiffs]
    cases k with
    | zero =>
      have e : c = b := Option.some.inj hb
      subst e
      refine ⟨⟨_, rfl, ?_⟩, ?_⟩
      · show -(2 * a) ≤ (if c = true then -a else a) - p ∧ (if c = true then -a else a) - p ≤ 2 * a
        cases c
        · rw [if_neg (by decide)]
          omega
        · rw [if_pos rfl]
          omega
      · show some ((if c = true then a else -a) - (if c = true then -a else a)) = _
        cases c
        · rw [if_neg (by decide), if_neg (by decide), if_neg (by decide)]
          congr 1
          omega
        · rw [if_pos rfl, if_pos rfl, if_pos rfl]
          congr 1
          omega
    | succ k =>
      have := ih (if c = true then a else -a) (by cases c <;> simp <;> omega) k hb
      exact this

theorem foldl_le (c : Int) (l : List Int) (h : ∀ x ∈ l, x ≤ c) (z : Int) :
    l.foldl (fun x y => x + y) z ≤ z + c * l.length := by
  induction l generalizing z with
  | nil => simp
  | cons x l ih =>
    rw [List.foldl_cons]
    refine Int.le_trans (ih (fun y hy => h y (List.mem_cons_of_mem _ hy)) _) ?_
    have := h x List.mem_cons_self
    rw [List.length_cons, Int.natCast_succ, Int.mul_add]
    omega

theorem foldl_all (c : Int) (l : List Int) (h : ∀ x ∈ l, x = c) (z : Int) :
    l.foldl (fun x y => x + y) z = z + c * l.length := by
  induction l generalizing z with
  | nil => simp
  | cons x l ih =>
    rw [List.foldl_cons, ih (fun y hy => h y (List.mem_cons_of_mem _ hy)),
      h x List.mem_cons_self, List.length_cons, Int.natCast_succ, Int.mul_add]
    omega

/-- The entries of a list at positions of one parity, counted from `i`. -/
theorem parity_mem {l : List Int} {i q : Nat} {x : Int}
    (h : x ∈ ((l.zipIdx i).filter fun p => p.2 % 2 == q).map Prod.fst) :
    ∃ j, l[j]? = some x ∧ (i + j) % 2 = q := by
  rw [List.mem_map] at h
  obtain ⟨p, hp, rfl⟩ := h
  rw [List.mem_filter] at hp
  obtain ⟨h1, h2⟩ := List.mk_mem_zipIdx_iff_le_and_getElem?_sub.mp hp.1
  refine ⟨p.2 - i, h2, ?_⟩
  have := hp.2
  rw [beq_iff_eq] at this
  rw [← this]
  congr 1
  omega

theorem parity_count (l : List Int) (i q : Nat) :
    (((l.zipIdx i).filter fun p => p.2 % 2 == q).map Prod.fst).length =
      ((List.range' i l.length).filter fun j => j % 2 == q).length := by
  rw [List.length_map, ← List.zipIdx_map_snd i l, List.filter_map, List.length_map]
  rfl

/-- The clock phase of an ideal signal. -/
theorem ideal_phase (a : Int) (ha : 0 < a) (l : List Bool) (w : Nat) (hw : 64 * (w + 1) ≤ l.length) :
    phaseOf exactArith (biphaseEncode a l) (w + 1) = 1 := by
  have hget : ∀ i : Nat, i < 2 * l.length → ∃ x : Int, (magsOf exactArith (biphaseEncode a l))[i]? = some x ∧
      x ≤ 2 * a ∧ (i % 2 = 1 → x = 2 * a) ∧ (i = 0 → x = a) := by
    intro i hi
    have hk : i / 2 < l.length := by omega
    obtain ⟨⟨x, h1, h2⟩, h3⟩ := ideal_diffs a ha l 0 (by omega) (i / 2) _ (List.getElem?_eq_getElem hk)
    unfold magsOf diffsOf
    rw [List.getElem?_map]
    by_cases hodd : i % 2 = 1
    · have e : i = 2 * (i / 2) + 1 := by omega
      refine ⟨2 * a, ?_, Int.le_refl _, fun _ => rfl, fun h => by omega⟩
      rw [e]
      show Option.map _ (symbolDiffs exactArith.halfDiff 0 (biphaseEncode a l))[2 * (i / 2) + 1]? = _
      rw [h3, Option.map_some]
      congr 1
      show ((_ : Int).natAbs : Int) = _
      split <;> omega
    · have e : i = 2 * (i / 2) := by omega
      refine ⟨(x.natAbs : Int), ?_, by omega, fun h => absurd h hodd, ?_⟩
      · conv => lhs; rw [e]
        show Option.map _ (symbolDiffs exactArith.halfDiff 0 (biphaseEncode a l))[2 * (i / 2)]? = _
        rw [h1]
        rfl
      · intro h0
        subst h0
        cases l with
        | nil => simp at hi
        | cons c l =>
          have h1' : some ((if c = true then -a else a) - 0) = some x := h1
          have := Option.some.inj h1'
          rw [← this]
          cases c
          · rw [if_neg (by decide)]
            omega
          · rw [if_pos rfl]
            omega
  have hlen : (magsOf exactArith (biphaseEncode a l)).length = 2 * l.length := by
    rw [magsOf_length, biphaseEncode_length]
  -- the energies of a window
  have hodd : ∀ w, 64 * (w + 1) ≤ l.length → windowEnergy (0 : Int) exactArith.add 1
      (((magsOf exactArith (biphaseEncode a l)).drop (128 * w)).take 128) = 128 * a := by
    intro w hw
    unfold windowEnergy
    show List.foldl (fun x y : Int => x + y) 0 _ = _
    rw [foldl_all (2 * a)]
    · rw [parity_count, List.length_take, List.length_drop, hlen, Nat.min_eq_left (by omega)]
      have : ((List.range' 0 128).filter fun j => j % 2 == 1).length = 64 := by decide +kernel
      rw [this]
      omega
    · intro x hx
      obtain ⟨j, hj, hq⟩ := parity_mem hx
      have hj128 : j < 128 := by
        have := (List.getElem?_eq_some_iff.mp hj).1
        rw [List.length_take] at this
        omega
      rw [List.getElem?_take_of_lt hj128, List.getElem?_drop] at hj
      obtain ⟨y, hy, -, h2, -⟩ := hget (128 * w + j) (by omega)
      rw [hj] at hy
      rw [Option.some.inj hy]
      exact h2 (by omega)
  have heven : ∀ w, 64 * (w + 1) ≤ l.length → windowEnergy (0 : Int) exactArith.add 0
      (((magsOf exactArith (biphaseEncode a l)).drop (128 * w)).take 128) ≤ 128 * a := by
    intro w hw
    unfold windowEnergy
    show List.foldl (fun x y : Int => x + y) 0 _ ≤ _
    refine Int.le_trans (foldl_le (2 * a) _ ?_ _) ?_
    · intro x hx
      obtain ⟨j, hj, hq⟩ := parity_mem hx
      have hj128 : j < 128 := by
        have := (List.getElem?_eq_some_iff.mp hj).1
        rw [List.length_take] at this
        omega
      rw [List.getElem?_take_of_lt hj128, List.getElem?_drop] at hj
      obtain ⟨y, hy, h2, -⟩ := hget (128 * w + j) (by omega)
      rw [hj] at hy
      rw [Option.some.inj hy]
      exact h2
    · rw [parity_count, List.length_take, List.length_drop, hlen, Nat.min_eq_left (by omega)]
      have : ((List.range' 0 128).filter fun j => j % 2 == 0).length = 64 := by decide +kernel
      rw [this]
      omega
  have hfirst : 64 ≤ l.length → windowEnergy (0 : Int) exactArith.add 0
      (((magsOf exactArith (biphaseEncode a l)).drop (128 * 0)).take 128) < 128 * a := by
    intro hw
    obtain ⟨y, hy, -, -, h0⟩ := hget 0 (by omega)
    have h0 := h0 rfl
    generalize hm : magsOf exactArith (biphaseEncode a l) = m at hy hget hlen
    cases m with
    | nil => cases hy
    | cons x m =>
      have hx : x = a := by
        rw [← h0]
        exact Option.some.inj hy
      subst hx
      have e : ((x :: m).drop (128 * 0)).take 128 = x :: m.take 127 := rfl
      rw [e]
      unfold windowEnergy
      rw [List.zipIdx_cons, List.filter_cons_of_pos rfl, List.map_cons, List.foldl_cons]
      show List.foldl (fun x y : Int => x + y) (0 + x) _ < _
      have hb := foldl_le (2 * x) (((m.take 127).zipIdx (0 + 1)).filter (fun p => p.2 % 2 == 0) |>.map Prod.fst)
        (by
          intro z hz
          obtain ⟨j, hj, hq⟩ := parity_mem hz
          have hj127 : j < 127 := by
            have := (List.getElem?_eq_some_iff.mp hj).1
            rw [List.length_take] at this
            omega
          rw [List.getElem?_take_of_lt hj127] at hj
          obtain ⟨y, hy, h2, -⟩ := hget (j + 1) (by omega)
          rw [List.getElem?_cons_succ, hj] at hy
          rw [Option.some.inj hy]
          exact h2) (0 + x)
      refine Int.lt_of_le_of_lt hb ?_
      rw [parity_count, List.length_take, Nat.min_eq_left (by
        rw [List.length_cons] at hlen
        omega)]
      have : ((List.range' (0 + 1) 127).filter fun j => j % 2 == 0).length = 63 := by decide +kernel
      rw [this]
      omega
  unfold phaseOf
  induction w with
  | zero =>
    rw [clockPhase]
    have h1 := hodd 0 hw
    have h2 := hfirst (by omega)
    show (if decide ((_ : Int) < _) = true then 0 else if decide ((_ : Int) < _) = true then 1 else _) = 1
    rw [if_neg (by rw [decide_eq_true_iff]; show ¬ _ < (_ : Int); exact Int.not_lt.mpr (by
      rw [show exactArith.zero = (0 : Int) from rfl]; omega)), if_pos (by
      rw [decide_eq_true_iff, show exactArith.zero = (0 : Int) from rfl]; omega)]
  | succ w ih =>
    rw [clockPhase, ih (by omega)]
    have h1 := hodd (w + 1) hw
    have h2 := heven (w + 1) hw
    show (if decide ((_ : Int) < _) = true then 0 else if decide ((_ : Int) < _) = true then 1 else _) = 1
    rw [if_neg (by rw [decide_eq_true_iff]; show ¬ _ < (_ : Int); exact Int.not_lt.mpr (by
      rw [show exactArith.zero = (0 : Int) from rfl]; omega))]
    split <;> rfl

theorem odd_outputs (es : List Bool) (L : List (Bool × Bool)) (hl : L.length = 2 * es.length)
    (h : ∀ k b, es[k]? = some b → (∃ x, L[2 * k]? = some (x, false)) ∧ L[2 * k + 1]? = some (b, true)) :
    (L.filter fun o => o.2).map (fun o => o.1) = es := by
  induction es generalizing L with
  | nil =>
    rw [List.length_eq_zero_iff.mp hl]
    rfl
  | cons e es ih =>
    obtain ⟨⟨x, h1⟩, h2⟩ := h 0 e rfl
    cases L with
    | nil => cases h1
    | cons p L =>
      cases L with
      | nil => cases h2
      | cons q L =>
        rw [Option.some.inj h1, List.filter_cons_of_neg Bool.false_ne_true]
        have : q = (e, true) := Option.some.inj h2
        rw [this, List.filter_cons_of_pos rfl, List.map_cons, ih L]
        · simp only [List.length_cons] at hl
          omega
        · intro k b hk
          exact h (k + 1) b hk

theorem boolDelta_drop (q : Bool) (a : List Bool) (c : Bool) (r : List Bool) :
    (boolDelta q (a ++ c :: r)).drop (a.length + 1) = boolDelta c r := by
  induction a generalizing q with
  | nil => rfl
  | cons b a ih =>
    rw [List.cons_append, boolDelta, List.length_cons, List.drop_succ_cons, ih]

theorem boolDelta_encode (p : Bool) (bits : List Bool) : boolDelta p (diffEncode p bits) = bits := by
  induction bits generalizing p with
  | nil => rfl
  | cons b l ih =>
    rw [diffEncode, boolDelta, ih]
    cases b <;> cases p <;> rfl

theorem diffEncode_length (p : Bool) (bits : List Bool) : (diffEncode p bits).length = bits.length := by
  rw [← boolDelta_length p, boolDelta_encode]

theorem deltaRun_length (p : BitVec 32) (l : List (BitVec 32)) : (deltaRun p l).length = l.length := by
  induction l generalizing p with
  | nil => rfl
  | cons d l ih => rw [deltaRun, List.length_cons, ih, List.length_cons]

/-- **C61**: an ideal signal (exact arithmetic, any amplitude, any start state of the encoder). One bit
is output per transmitted bit; after the first window the clock is right, and all bits from the 66th on
are decoded. -/
theorem C61_ideal_signal (a : Int) (ha : 0 < a) (p : Bool) (bits : List Bool)
    (hn : 65 ≤ bits.length) : ∃ d out,
    BiphaseDecoder.run exactArith (BiphaseDecoder.new exactArith)
      (biphaseEncode a (diffEncode p bits)) = some (d, out) ∧
    (demodBits out).length = bits.length ∧ (demodBits out).drop 65 = (bits.drop 65).map bitWord := by
  obtain ⟨d, out, hr, -, hl, -⟩ := biphase_run exactArith (biphaseEncode a (diffEncode p bits))
  refine ⟨d, out, hr, ?_⟩
  have he := diffEncode_length p bits
  have hdec := boolDelta_encode p bits
  generalize diffEncode p bits = e at hr hl he hdec
  rw [biphaseEncode_length] at hl
  -- the first window
  have hfirst := C59_sixty_four_bits exactArith _ d out hr 0 (by rw [biphaseEncode_length]; omega)
  rw [show 128 * 0 = 0 from rfl, List.drop_zero] at hfirst
  -- the later ones
  have hlater : ((out.drop 128).filter fun o => o.2).map (fun o => o.1) = e.drop 64 := by
    apply odd_outputs
    · rw [List.length_drop, List.length_drop]
      omega
    · intro k b hk
      rw [List.getElem?_drop] at hk
      have hlt := (List.getElem?_eq_some_iff.mp hk).1
      have hphase : ∀ i, 128 ≤ i → i < 2 * e.length →
          clockPhase exactArith.zero exactArith.add exactArith.gt
            ((symbolDiffs exactArith.halfDiff exactArith.zero (biphaseEncode a e)).map exactArith.abs)
            (i / 128) = 1 := by
        intro i h1 h2
        have := ideal_phase a ha e (i / 128 - 1) (by omega)
        rw [show i / 128 - 1 + 1 = i / 128 by omega] at this
        exact this
      obtain ⟨⟨x, h1, -⟩, h2⟩ := ideal_diffs a ha e 0 (by omega) (64 + k) b hk
      have o1 := C59_output exactArith _ d out hr (2 * (64 + k)) x h1
      have o2 := C59_output exactArith _ d out hr (2 * (64 + k) + 1) _ h2
      rw [hphase _ (by omega) (by omega)] at o1 o2
      rw [List.getElem?_drop, List.getElem?_drop, show 128 + 2 * k = 2 * (64 + k) by omega,
        show 128 + (2 * k + 1) = 2 * (64 + k) + 1 by omega, o1, o2]
      refine ⟨⟨exactArith.nonneg x, ?_⟩, ?_⟩
      · rw [show 2 * (64 + k) % 2 = 0 by omega]
        rfl
      · rw [show (2 * (64 + k) + 1) % 2 = 1 by omega]
        cases b
        · congr 2
          show decide ((0 : Int) ≤ -(2 * a)) = false
          rw [decide_eq_false_iff_not]
          omega
        · congr 2
          show decide ((0 : Int) ≤ 2 * a) = true
          rw [decide_eq_true_iff]
          omega
  -- together
  have hin : ((out.filter fun o => o.2).map fun o => o.1) =
      (((out.take 128).filter fun o => o.2).map fun o => o.1) ++ e.drop 64 := by
    rw [← hlater, ← List.map_append, ← List.filter_append, List.take_append_drop]
  have hlen1 : (((out.take 128).filter fun o => o.2).map fun o => o.1).length = 64 := by
    rw [List.length_map, hfirst]
  generalize (((out.take 128).filter fun o => o.2).map fun o => o.1) = w at hin hlen1
  have hdemod : demodBits out = (boolDelta false (w ++ e.drop 64)).map bitWord := by
    rw [← deltaRun_bits, ← hin, List.map_map]
    rfl
  rw [hdemod, List.length_map, boolDelta_length, ← List.map_drop]
  refine ⟨by rw [List.length_append, hlen1, List.length_drop]; omega, ?_⟩
  congr 1
  have hc : e.drop 64 = e[64] :: e.drop 65 := by
    rw [← List.drop_eq_getElem_cons]
  have h1 : (boolDelta false (w ++ e.drop 64)).drop 65 = boolDelta e[64] (e.drop 65) := by
    have := boolDelta_drop false w e[64] (e.drop 65)
    rw [hlen1] at this
    rw [hc]
    exact this
  have h2 : (boolDelta p e).drop 65 = boolDelta e[64] (e.drop 65) := by
    have := boolDelta_drop p (e.take 64) e[64] (e.drop 65)
    rw [← hc, List.take_append_drop, List.length_take, Nat.min_eq_left (by omega)] at this
    exact this
  rw [h1, ← h2, hdec]

/-- In a window of an ideal signal: the clock is right for odd positions after the first window. -/
example : (BiphaseDecoder.run exactArith (BiphaseDecoder.new exactArith)
    (biphaseEncode 3 (diffEncode false ((List.range 70).map fun n => n % 3 == 0)))).map
      (fun r => (r.1.polarity, (demodBits r.2).drop 65)) =
    some (1, (([65, 66, 67, 68, 69] : List Nat).map fun n => bitWord (n % 3 == 0))) := by
  decide +kernel

end Redsea
