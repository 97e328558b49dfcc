import Verif.Model.Group
import Verif.Model.Text

/-
The Gregorian calendar, Modified Julian Days and the fields of a 4A group (IEC 62106, 6.1.5.6 and
annex G), written down independently of the model.
-/

namespace Redsea

/-- Leap years: every fourth year, except centuries not divisible by 400. -/
def LeapYear (y : Int) : Prop := (4 : Int) ∣ y ∧ (¬ (100 : Int) ∣ y ∨ (400 : Int) ∣ y)

instance (y : Int) : Decidable (LeapYear y) := by unfold LeapYear; infer_instance

/-- Number of days in the months of a common year. -/
def commonMonths : List Nat := [31, 28, 31, 30, 31, 30, 31, 31, 30, 31, 30, 31]

/-- Days in a month (1-12). -/
def daysInMonth (y : Int) (m : Nat) : Nat :=
  commonMonths.getD (m - 1) 0 + (if m = 2 ∧ LeapYear y then 1 else 0)

/-- A date of the calendar. -/
def ValidDate (y : Int) (m : Nat) (d : Int) : Prop :=
  1 ≤ m ∧ m ≤ 12 ∧ 1 ≤ d ∧ d ≤ (daysInMonth y m : Int)

/-- Days from the beginning of the year to the beginning of the month. -/
def daysBeforeMonth (y : Int) (m : Nat) : Nat :=
  (commonMonths.take (m - 1)).sum + (if 2 < m ∧ LeapYear y then 1 else 0)

/-- Modified Julian Day of a date: days since 17 November 1858. -/
def modifiedJulianDay (y : Int) (m : Nat) (d : Int) : Int :=
  365 * (y - 1) + (y - 1) / 4 - (y - 1) / 100 + (y - 1) / 400 + (daysBeforeMonth y m : Int) + d - 678576

/-- The 34 bits of clock-time in a 4A group: the two low bits of block 2, block 3, block 4. -/
def clockBits (g : Group) : Nat :=
  ((g.get .b2).toNat % 4) * 2 ^ 32 + (g.get .b3).toNat * 2 ^ 16 + (g.get .b4).toNat

/-- Date: 17 bits. -/
def clockMjd (g : Group) : Nat := clockBits g / 2 ^ 17
/-- Hour (UTC): 5 bits. -/
def clockHour (g : Group) : Nat := clockBits g / 2 ^ 12 % 32
/-- Minute: 6 bits. -/
def clockMinute (g : Group) : Nat := clockBits g / 2 ^ 6 % 64
/-- Local offset in half hours: a sign bit and 5 bits. -/
def clockOffset (g : Group) : Int :=
  if clockBits g / 2 ^ 5 % 2 = 1 then -(clockBits g % 32 : Nat) else (clockBits g % 32 : Nat)

/-- Two decimal digits. -/
def twoDigits (v : Nat) : Str := [BitVec.ofNat 8 (0x30 + v / 10 % 10), BitVec.ofNat 8 (0x30 + v % 10)]

/-- Four decimal digits. -/
def fourDigits (v : Nat) : Str := twoDigits (v / 100) ++ twoDigits (v % 100)

/-- ISO 8601 text of a date and time with an offset given in half hours. -/
def isoTime (y m d h min : Nat) (offset : Int) : Str :=
  fourDigits y ++ ascii "-" ++ twoDigits m ++ ascii "-" ++ twoDigits d ++ ascii "T" ++ twoDigits h
    ++ ascii ":" ++ twoDigits min ++ ascii ":00" ++
    (if offset = 0 then ascii "Z"
     else (if offset > 0 then ascii "+" else ascii "-") ++ twoDigits (offset.natAbs / 2) ++ ascii ":"
      ++ (if offset.natAbs % 2 = 1 then ascii "30" else ascii "00"))

/-- `text` shows the given UTC time (day number, hour, minute) with the given offset: the date in
it is the calendar date of the local day, and the clock shows the local time. -/
def ShowsLocalTime (text : Str) (mjd hour minute : Nat) (offset : Int) : Prop :=
  ∃ (y m d h min : Nat), text = isoTime y m d h min offset ∧ y < 10000 ∧
    ValidDate y m d ∧ h < 24 ∧ min < 60 ∧
    (modifiedJulianDay y m d * 24 + h) * 60 + min = ((mjd : Int) * 24 + hour) * 60 + minute + offset * 30

/-- Fields of a programme item number: day of month, hour, minute (IEC 62106, 6.1.5.2). -/
def pinDay (pin : Word) : Nat := pin.toNat / 2048
def pinHour (pin : Word) : Nat := pin.toNat / 64 % 32
def pinMinute (pin : Word) : Nat := pin.toNat % 64

end Redsea
