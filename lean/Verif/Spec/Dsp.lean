/-
Specification of differential coding and of biphase symbols.
-/

namespace Redsea.Spec

/-- The differential encoder of the RDS standard: each output bit is the modulo-2 sum of the input
bit and the previous output bit. -/
def diffEncode : Bool → List Bool → List Bool
  | _, [] => []
  | prev, b :: l => (b != prev) :: diffEncode (b != prev) l

/-- A bit as a number. -/
def bitWord (b : Bool) : BitVec 32 := if b then 1 else 0

/-- The difference (halved) of each symbol to the one before it. -/
def symbolDiffs {F : Type} (halfDiff : F → F → F) : F → List F → List F
  | _, [] => []
  | prev, s :: l => halfDiff s prev :: symbolDiffs halfDiff s l

section

variable {F : Type} (zero : F) (add : F → F → F) (gt : F → F → Bool)

/-- Accumulated energy of the symbols of one window at even (0) or odd (1) positions. -/
def windowEnergy (parity : Nat) (window : List F) : F :=
  ((window.zipIdx.filter fun p => p.2 % 2 == parity).map Prod.fst).foldl add zero

/-- The clock phase in window `w` of 128 symbols: 0 in the first one; at the end of each window the
phase with the larger energy is chosen, and if there is none the phase is kept. -/
def clockPhase (mags : List F) : Nat → Nat
  | 0 => 0
  | w + 1 =>
    let window := (mags.drop (128 * w)).take 128
    let even := windowEnergy zero add 0 window
    let odd := windowEnergy zero add 1 window
    if gt even odd then 0 else if gt odd even then 1 else clockPhase mags w

end

/-- Biphase line code of the RDS standard, on the level of symbols: a 1 is sent as a pair (-, +), a 0
as a pair (+, -), of amplitude `a`. -/
def biphaseEncode (a : Int) : List Bool → List Int
  | [] => []
  | b :: l => (if b then -a else a) :: (if b then a else -a) :: biphaseEncode a l

end Redsea.Spec
