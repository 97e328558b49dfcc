/-
Angles and the carriers of the data streams, apart from the code.

The carriers of the four data streams of RDS2 lie at 3, 3.5, 3.75 and 4 times the pilot tone of 19 kHz. Their phases
are locked to that of the first: when the carrier of stream 0 turns by some angle, that of another stream turns by the
same angle times the ratio of the frequencies.
-/

namespace Redsea.Spec

/-- Two angles (in half turns) are the same direction: they differ by whole turns. -/
def SameAngle (a b : Rat) : Prop := ∃ n : Int, a - b = 2 * (n : Rat)

/-- The frequency of a stream as a multiple of the frequency of stream 0, by multiples of the pilot tone. -/
def carrierRatio : Nat → Rat
  | 0 => 1
  | 1 => 7 / 6
  | 2 => 5 / 4
  | _ => 4 / 3

/-- An oscillator that turns: it stood at the angle `at`, turns by each of the amounts in turn (each less than half a turn
in either direction), and each time reports its direction as an angle from 0 up to a full turn. -/
def Turns : Rat → List (Rat × Rat) → Prop
  | _, [] => True
  | angle, (by_, told) :: rest =>
    -1 < by_ ∧ by_ < 1 ∧ 0 ≤ told ∧ told < 2 ∧ SameAngle told (angle + by_) ∧ Turns (angle + by_) rest

/-- The sum of all turns. -/
def turned (l : List (Rat × Rat)) : Rat := (l.map (·.1)).sum

end Redsea.Spec
