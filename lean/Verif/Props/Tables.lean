import Verif.Model.Tables
import Verif.Spec.Callsign

/-
C43, C44: call signs and table lookups.
-/

namespace Redsea

theorem undoZeroNybbles_low (pi : Word) (h : pi.toNat < 0xA000) : undoZeroNybbles pi = pi := by
  have key : ∀ m v : Word, pi &&& m = v → v.toNat ≤ pi.toNat := by
    intro m v hv
    rw [← hv, BitVec.toNat_and]
    exact Nat.and_le_left
  unfold undoZeroNybbles
  rw [if_neg, if_neg, if_neg]
  · intro he
    have := key _ _ he
    simp at this
    omega
  · intro he
    have := key _ _ he
    simp at this
    omega
  · rintro ⟨he, _⟩
    have := key _ _ he
    simp at this
    omega

/-- Undoing the replacement of zero digits. -/
theorem undo_avoidZeros (v : Nat) (h1 : 0x1000 ≤ v) (h2 : v ≤ 0x994F) :
    undoZeroNybbles (BitVec.ofNat 16 (nrscAvoidZeros v)) = BitVec.ofNat 16 v := by
  have c1 : ∀ p : Fin 10, undoZeroNybbles (BitVec.ofNat 16 (0xAFA0 + p.val)) =
      BitVec.ofNat 16 (4096 * p.val) := by decide +kernel
  have c2 : ∀ p : Fin 10, ∀ q : Fin 16, q.val ≠ 0 →
      undoZeroNybbles (BitVec.ofNat 16 (0xAF00 + 16 * p.val + q.val)) =
        BitVec.ofNat 16 (4096 * p.val + 256 * q.val) := by decide +kernel
  have c3 : ∀ p : Fin 10, ∀ q : Fin 256, q.val ≠ 0 →
      undoZeroNybbles (BitVec.ofNat 16 (0xA000 + 256 * p.val + q.val)) =
        BitVec.ofNat 16 (4096 * p.val + q.val) := by decide +kernel
  have hp1 : v / 4096 < 10 := by omega
  have hp2 : v / 256 % 16 < 16 := by omega
  have hp3 : v % 256 < 256 := by omega
  have hv : v = 4096 * (v / 4096) + 256 * (v / 256 % 16) + v % 256 := by omega
  unfold nrscAvoidZeros
  simp only []
  split
  · rename_i h
    have := c1 ⟨v / 4096, hp1⟩
    simp only [] at this
    rw [this]
    congr 1
    omega
  · split
    · rename_i hn h
      have := c2 ⟨v / 4096, hp1⟩ ⟨v / 256 % 16, hp2⟩ (by simp only []; omega)
      simp only [] at this
      rw [this]
      congr 1
      omega
    · split
      · rename_i hn h34 h
        have := c3 ⟨v / 4096, hp1⟩ ⟨v % 256, hp3⟩ (by simp only []; omega)
        simp only [] at this
        rw [this]
        congr 1
        omega
      · apply undoZeroNybbles_low
        rw [BitVec.toNat_ofNat]
        omega

theorem letter_eq (x : Nat) (h : x < 26) :
    letter x = (ascii "ABCDEFGHIJKLMNOPQRSTUVWXYZ").getD x 0 := by
  have : ∀ x : Fin 26, letter x.val = (ascii "ABCDEFGHIJKLMNOPQRSTUVWXYZ").getD x.val 0 := by
    decide +kernel
  exact this ⟨x, h⟩

/-- **C43.** The call letters are recovered from the PI code the station computes from them. -/
theorem C43_callsign (isK : Bool) (x y z : Nat) (hx : x < 26) (hy : y < 26) (hz : z < 26) :
    getCallsignFromPI (BitVec.ofNat 16 (nrscPI isK x y z)) = callText isK x y z := by
  have hn : callNumber x y z < 17576 := by unfold callNumber; omega
  have hlo : 0x1000 ≤ nrscBase isK x y z := by unfold nrscBase; cases isK <;> simp <;> omega
  have hhi : nrscBase isK x y z ≤ 0x994F := by unfold nrscBase; cases isK <;> simp <;> omega
  unfold getCallsignFromPI nrscPI
  rw [undo_avoidZeros _ hlo hhi]
  simp only []
  generalize hv : nrscBase isK x y z = v at hlo hhi
  have ht : (BitVec.ofNat 16 v).toNat = v := by rw [BitVec.toNat_ofNat]; omega
  have hshift : ∀ w : Word, (BitVec.ofNat 16 v) >>> 12 = w → w.toNat < 10 := by
    intro w hw
    rw [← hw, BitVec.toNat_ushiftRight, ht, Nat.shiftRight_eq_div_pow]
    omega
  rw [ht, if_neg (by omega), if_neg, if_pos ⟨hlo, hhi⟩]
  · have hdiv : callNumber x y z / (26 * 26) % 26 = x ∧ callNumber x y z / 26 % 26 = y ∧
        callNumber x y z % 26 = z := by
      unfold callNumber
      refine ⟨?_, ?_, ?_⟩ <;> omega
    cases isK
    · have hb : v = 21672 + callNumber x y z := by rw [← hv]; simp [nrscBase]
      have hnot : ¬ v ≤ 0x54A7 := by omega
      simp only [if_neg hnot]
      have hs : v - 0x54A8 = callNumber x y z := by omega
      rw [hs, hdiv.1, hdiv.2.1, hdiv.2.2, letter_eq x hx, letter_eq y hy, letter_eq z hz]
      rfl
    · have hb : v = 4096 + callNumber x y z := by rw [← hv]; simp [nrscBase]
      have hle : v ≤ 0x54A7 := by omega
      simp only [if_pos hle]
      have hs : v - 0x1000 = callNumber x y z := by omega
      rw [hs, hdiv.1, hdiv.2.1, hdiv.2.2, letter_eq x hx, letter_eq y hy, letter_eq z hz]
      rfl
  · rintro (h | h | h) <;> exact absurd (hshift _ h) (by decide)

/-- Different call signs have different PI codes. -/
theorem C43_injective (k k' : Bool) (x y z x' y' z' : Nat) (hx : x < 26) (hy : y < 26) (hz : z < 26)
    (hx' : x' < 26) (hy' : y' < 26) (hz' : z' < 26) (h : nrscPI k x y z = nrscPI k' x' y' z') :
    callText k x y z = callText k' x' y' z' := by
  rw [← C43_callsign k x y z hx hy hz, ← C43_callsign k' x' y' z' hx' hy' hz', h]

/-- Every listed three-letter and linked-station code is found, for linked stations whatever
their second digit. -/
theorem C43_listed_codes :
    (∀ e ∈ threeLetterCodes, getCallsignFromPI (BitVec.ofNat 16 e.1) = utf8Str e.2) ∧
    (∀ e ∈ linkedStationCodes, ∀ d : Fin 16,
      getCallsignFromPI (BitVec.ofNat 16 (e.1 + 256 * d.val)) = utf8Str e.2) := by
  constructor
  · decide +kernel
  · decide +kernel

/-- Example: KAAA would be 1000 and is replaced; WBAA has code AF5x or a plain one; KUFX. -/
example : nrscPI true 0 0 0 = 0xAFA1 ∧ nrscPI true 20 5 23 = 0x4569 ∧
    callText true 20 5 23 = ascii "KUFX" := by decide +kernel

/-- **C44** for the tables of src/tables.cc: no lookup leaves its table. Country codes are 4-bit
numbers; all other indices are checked by the code. -/
theorem C44_tables_in_range (pty code contentType di cc ecc : Nat) (hcc : cc < 16) :
    (getPTYNameString pty).isSome ∧ (getPTYNameStringRBDS pty).isSome ∧
    (getLanguageString code).isSome ∧ (getRTPlusContentTypeString contentType).isSome ∧
    (getDICodeString di).isSome ∧ (getCountryString cc ecc).isSome := by
  refine ⟨?_, ?_, ?_, ?_, ?_, ?_⟩
  · unfold getPTYNameString
    split
    · rename_i h
      rw [List.getElem?_eq_getElem (by show pty < 64; exact h)]
      rfl
    · rfl
  · unfold getPTYNameStringRBDS
    split
    · rename_i h
      rw [List.getElem?_eq_getElem (by show pty < 64; exact h)]
      rfl
    · rfl
  · unfold getLanguageString
    split
    · rename_i h
      rw [List.getElem?_eq_getElem (by show code < 128; exact h)]
      rfl
    · rfl
  · unfold getRTPlusContentTypeString
    split
    · rename_i h
      rw [List.getElem?_eq_getElem (by show contentType < 66; exact h)]
      rfl
    · rfl
  · unfold getDICodeString
    split
    · rename_i h
      rw [List.getElem?_eq_getElem (by show di < 4; exact h)]
      rfl
    · rfl
  · unfold getCountryString
    have hrows : ∀ e ∈ countryCodes, e.2.length = 15 := by decide +kernel
    split
    · rename_i row hrow
      split
      · have hl : row.length = 15 := by
          obtain ⟨k, hk⟩ : ∃ k, (k, row) ∈ countryCodes := by
            rw [List.lookup_eq_some_iff] at hrow
            obtain ⟨l1, l2, he, _⟩ := hrow
            exact ⟨ecc, by rw [he]; simp⟩
          exact hrows _ hk
        rw [List.getElem?_eq_getElem (by omega)]
        rfl
      · rfl
    · rfl

end Redsea
