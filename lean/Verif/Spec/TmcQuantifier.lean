import Verif.Model.Tmc

/-
The quantifier tables of the event list (ISO 14819-2, annex on quantifiers) as enumerations of the values in the
order of their codes.
-/

namespace Redsea.Spec

/-- An arithmetic progression. -/
def steps (first step count : Nat) : List Nat := (List.range count).map fun i => first + step * i

/-- Five-bit codes: 1 to 31, and 0 for the 32nd value. -/
def ofFive {α : Type} (values : List α) (code : Nat) : Option α := values[(code + 31) % 32]?

/-- Eight-bit codes from 1. -/
def ofEight {α : Type} (values : List α) (code : Nat) : Option α :=
  if code = 0 then none else values[code - 1]?

/-- A number with one decimal, from tenths. -/
def oneDecimal (v : Nat) : Str := decimal (v / 10) ++ ascii "." ++ decimal (v % 10)

/-- Two digits. -/
def twoDigits (v : Nat) : Str := decimal (v / 10) ++ decimal (v % 10)

/-- Times of the day in steps of ten minutes. -/
def timesOfDay : List Str :=
  (List.range 24).flatMap fun h => (List.range 6).map fun m => twoDigits h ++ ascii ":" ++ twoDigits (10 * m)

/-- The text of a quantifier; `none` for codes without a meaning. -/
def quantity (t : QuantifierType) (code : Nat) : Option Str :=
  match t with
  | .smallNumber => (ofFive (steps 1 1 28 ++ steps 30 2 4) code).map decimal
  | .number => (ofFive (steps 1 1 4 ++ steps 10 10 10 ++ steps 150 50 18) code).map decimal
  | .lessThanMetres => (ofFive (steps 10 10 32) code).map fun v => ascii "less than " ++ decimal v ++ ascii " metres"
  | .percent => (ofFive (steps 5 5 31 ++ [0]) code).map fun v => decimal v ++ ascii " %"
  | .uptoKmh => (ofFive (steps 5 5 32) code).map fun v => ascii "of up to " ++ decimal v ++ ascii " km/h"
  | .uptoTime =>
    ofFive (((steps 5 5 10).map fun v => ascii "of up to " ++ decimal v ++ ascii " minutes") ++
      (steps 1 1 12 ++ steps 18 6 10).map fun v => ascii "of up to " ++ decimal v ++ ascii " hours") code
  | .degreesCelsius =>
    ofEight (((steps 1 1 50).reverse.map fun v => ascii "-" ++ decimal v ++ ascii " degrees Celsius") ++
      (steps 0 1 205).map fun v => decimal v ++ ascii " degrees Celsius") code
  | .time => ofEight timesOfDay code
  | .tonnes => (ofEight (steps 1 1 100 ++ steps 105 5 155) code).map fun v => oneDecimal v ++ ascii " tonnes"
  | .metres => (ofEight (steps 1 1 100 ++ steps 105 5 155) code).map fun v => oneDecimal v ++ ascii " metres"
  | .uptoMillimetres => (ofEight (steps 1 1 255) code).map fun v => ascii "of up to " ++ decimal v ++ ascii " millimetres"
  | .mhz => (ofEight (steps 876 1 204) code).map fun v => oneDecimal v ++ ascii " MHz"
  | .khz => (ofEight (steps 153 9 15 ++ steps 531 9 120) code).map fun v => decimal v ++ ascii " kHz"

end Redsea.Spec
