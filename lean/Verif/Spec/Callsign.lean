import Verif.Model.Text

/-
The rule of NRSC-4-B, annex D.7, by which a North American station computes its PI code from its
call letters.
-/

namespace Redsea

/-- Position of the call letters in the alphabetical list of all call signs of their initial. -/
def callNumber (x y z : Nat) : Nat := x * 26 * 26 + y * 26 + z

/-- The code before zero digits are avoided: stations K from 1000 hexadecimal on, stations W
after them. -/
def nrscBase (isK : Bool) (x y z : Nat) : Nat :=
  (if isK then 4096 else 21672) + callNumber x y z

/-- Codes with zeros in certain places have a special meaning and are replaced, digit by digit:
`P1 0 0 0` by `A F A P1`, `P1 P2 0 0` by `A F P1 P2`, `P1 0 P3 P4` by `A P1 P3 P4`. -/
def nrscAvoidZeros (v : Nat) : Nat :=
  let p1 := v / 4096
  let p2 := v / 256 % 16
  let p34 := v % 256
  if p2 = 0 ∧ p34 = 0 then 0xAFA0 + p1
  else if p34 = 0 then 0xAF00 + 16 * p1 + p2
  else if p2 = 0 then 0xA000 + 256 * p1 + p34
  else v

/-- The PI code of a station with the call letters K or W and the letters number `x`, `y`, `z`
of the alphabet. -/
def nrscPI (isK : Bool) (x y z : Nat) : Nat := nrscAvoidZeros (nrscBase isK x y z)

/-- The call letters as text. -/
def callText (isK : Bool) (x y z : Nat) : Str :=
  let alphabet := ascii "ABCDEFGHIJKLMNOPQRSTUVWXYZ"
  (if isK then ascii "K" else ascii "W") ++ [alphabet.getD x 0, alphabet.getD y 0, alphabet.getD z 0]

end Redsea
