import Verif.Model.Group
import Verif.Model.Input

/-
Programme item numbers and clock-time: src/groups.cc:49-61 and 736-803, src/util.cc:33-37.
-/

namespace Redsea

/-- `std::setfill('0') << std::setw(n) << v` and `%0nd`, for `v ≥ 0`. -/
def decPadded (n v : Nat) : Str :=
  let s := decimal v
  List.replicate (n - s.length) 0x30 ++ s

/-- `getHoursMinutesString`, src/util.cc:33-37. -/
def getHoursMinutesString (hour minute : Nat) : Str :=
  decPadded 2 hour ++ ascii ":" ++ decPadded 2 minute

/-- What `decodePIN` writes into the JSON object. -/
structure PinOut where
  number : Word
  day : Nat
  time : Str
  deriving DecidableEq, Repr

/-- `decodePIN`, src/groups.cc:49-61; `none` when it returns false. -/
def decodePIN (pin : Word) : Option PinOut :=
  let day := getBits 5 pin 11
  let hour := getBits 5 pin 6
  let minute := getBits 6 pin 0
  if day ≥ 1 ∧ hour ≤ 24 ∧ minute ≤ 59 then
    some { number := pin, day := day, time := getHoursMinutesString hour minute }
  else none

/-! ### Clock-time -/

/-- Leap years of the Gregorian calendar (C library). -/
def isLeap (y : Int) : Bool := y % 4 == 0 && (y % 100 != 0 || y % 400 == 0)

/-- Length of month `m` (1-12) in year `y` (C library). -/
def monthLength (y : Int) (m : Nat) : Nat :=
  match m with
  | 2 => if isLeap y then 29 else 28
  | 4 => 30 | 6 => 30 | 9 => 30 | 11 => 30
  | _ => 31

/-- A broken-down time (`std::tm`), with the full year and months from 1 to 12. -/
structure Tm where
  year : Int
  month : Nat
  day : Int
  hour : Int
  minute : Int
  deriving DecidableEq, Repr

/-- Days below 1 belong to an earlier month. One step of the normalisation in `mktime`. -/
def Tm.previousMonth (t : Tm) : Tm :=
  if t.month ≤ 1 then { t with year := t.year - 1, month := 12, day := t.day + 31 }
  else { t with month := t.month - 1, day := t.day + monthLength t.year (t.month - 1) }

/-- Days beyond the end of the month belong to a later one. -/
def Tm.nextMonth (t : Tm) : Tm :=
  let day := t.day - monthLength t.year t.month
  if t.month ≥ 12 then { t with year := t.year + 1, month := 1, day := day }
  else { t with month := t.month + 1, day := day }

/-- `std::localtime(&(std::mktime(&tm)))` in a time zone whose offset from UTC does not change:
the same time with all fields brought into their ranges. `seconds` (`tm_sec`) is a multiple of 60
here. The C library computes this through a day count; the result is determined by the standard
(same point in time, fields in range). At most one month is carried in either direction, which is
enough for a `tm_mday` of 0 to 56. -/
def Tm.normalise (t : Tm) (seconds : Int) : Tm :=
  let minutes := t.hour * 60 + t.minute + seconds / 60
  let t := { t with day := t.day + minutes / 1440, hour := minutes % 1440 / 60
                    minute := minutes % 1440 % 60 }
  if t.day < 1 then t.previousMonth
  else if t.day > (monthLength t.year t.month : Int) then t.nextMonth
  else t

/-- The date conversion of `decodeType4A`, src/groups.cc:750-762: year, month (1-12), day.
The code computes with doubles; the model uses the exact quotients. `C45_float_margin` shows that
the truncated values are at a distance from the next integer that rounding errors do not reach.
`mjd` is at least 15079. -/
def dateFromMjd (mjd : Nat) : Int × Nat × Int :=
  let year : Nat := (20 * mjd - 301564) / 7305
  let days := year * 1461 / 4
  let month : Nat := (100000 * mjd - 1495610000 - 100000 * days) / 3060010
  let day : Int := (mjd : Int) - 14956 - days - (month * 306001 / 10000 : Nat)
  if month = 14 ∨ month = 15 then ((year : Int) + 1 + 1900, month - 12 - 1, day)
  else ((year : Int) + 1900, month - 1, day)

/-- Result of `decodeType4A`. -/
inductive ClockOut where
  /-- A block is missing; nothing is printed. -/
  | nothing
  /-- `"invalid date/time"` is added to the debug output. -/
  | invalid
  | time (t : Str)
  deriving DecidableEq, Repr

/-- The `snprintf` calls of `decodeType4A`, src/groups.cc:784-796. `offset` is the local offset in
half hours. -/
def clockString (t : Tm) (offset : Int) : Str :=
  let date := decPadded 4 t.year.toNat ++ ascii "-" ++ decPadded 2 t.month ++ ascii "-" ++
    decPadded 2 t.day.toNat ++ ascii "T" ++ decPadded 2 t.hour.toNat ++ ascii ":" ++
    decPadded 2 t.minute.toNat ++ ascii ":00"
  let hours := offset.natAbs / 2
  let minutes := offset.natAbs % 2 * 30
  if hours = 0 ∧ minutes = 0 then date ++ ascii "Z"
  else date ++ (if offset > 0 then ascii "+" else ascii "-") ++ decPadded 2 hours ++ ascii ":" ++
    decPadded 2 minutes

/-- `Station::decodeType4A`, src/groups.cc:736-803. -/
def decodeType4A (g : Group) : ClockOut :=
  if !(g.has .b3 && g.has .b4) then .nothing
  else
    let mjd := getBits2 17 (g.get .b2) (g.get .b3) 1
    if mjd < 15079 then .invalid
    else
      let date := dateFromMjd mjd
      let hour := getBits2 5 (g.get .b3) (g.get .b4) 12
      let minute := getBits 6 (g.get .b4) 6
      let offset : Int :=
        (if getBool (g.get .b4) 5 then -1 else 1) * (getBits 5 (g.get .b4) 0 : Int)
      let t := Tm.normalise { year := date.1, month := date.2.1, day := date.2.2
                              hour := hour, minute := minute } (offset * 1800)
      if hour ≤ 23 ∧ minute ≤ 59 ∧ offset.natAbs / 2 ≤ 14 then .time (clockString t offset)
      else .invalid

end Redsea
