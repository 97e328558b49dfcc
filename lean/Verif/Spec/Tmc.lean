import Verif.Model.Tmc

/-
ALERT-C (ISO 14819-1) and its encryption (ISO 14819-6) from the broadcaster's point of view.
-/

namespace Redsea

/-! ### Encryption (C50) -/

/-- The location code as transmitted: rotated right and combined with the shifted key value. -/
def encryptLocation (location : Word) (xorval shift rotation : Nat) : Word :=
  location.rotateRight rotation ^^^ BitVec.ofNat 16 (xorval * 2 ^ shift)

/-! ### Times (C55) -/

/-- What a start or stop time can denote. -/
inductive TmcTime where
  /-- a quarter hour of the day -/
  | clock (hour quarter : Nat)
  /-- a full hour today or after some days -/
  | hour (days hour : Nat)
  /-- a day of the month -/
  | day (day : Nat)
  /-- the middle (false) or the end (true) of a month 1..12 -/
  | month (month : Nat) (atEnd : Bool)
  deriving DecidableEq, Repr

/-- The times that can be coded. -/
def TmcTime.Valid : TmcTime → Prop
  | .clock h q => h < 24 ∧ q < 4
  | .hour d h => h < 24 ∧ (d < 4 ∨ (d = 4 ∧ h ≤ 8))
  | .day d => 1 ≤ d ∧ d ≤ 31
  | .month m _ => 1 ≤ m ∧ m ≤ 12

instance (t : TmcTime) : Decidable t.Valid := by cases t <;> unfold TmcTime.Valid <;> infer_instance

/-- The 8-bit code. -/
def TmcTime.code : TmcTime → Nat
  | .clock h q => 4 * h + q
  | .hour d h => 96 + 24 * d + h
  | .day d => 200 + d
  | .month m atEnd => 230 + 2 * m + (if atEnd then 1 else 0)

/-- Two decimal digits as characters. -/
def digits2 (n : Nat) : String :=
  String.ofList [Char.ofNat (48 + n / 10), Char.ofNat (48 + n % 10)]

/-- Its text. -/
def TmcTime.text : TmcTime → String
  | .clock h q => digits2 h ++ ":" ++ digits2 (15 * q)
  | .hour 0 h => "at " ++ digits2 h ++ ":00"
  | .hour 1 h => "after 1 day at " ++ digits2 h ++ ":00"
  | .hour d h => "after " ++ String.ofList [Char.ofNat (48 + d)] ++ " days at " ++ digits2 h ++ ":00"
  | .day d => "day " ++ (if d < 10 then String.ofList [Char.ofNat (48 + d)] else digits2 d) ++ " of the month"
  | .month m atEnd => (if atEnd then "end of " else "mid-") ++
      (["", "January", "February", "March", "April", "May", "June", "July", "August", "September",
        "October", "November", "December"].getD m "")

/-! ### Free-format fields (C51) -/

/-- Bits of a number, most significant first. -/
def bitsOf : Nat → Nat → List Bool
  | 0, _ => []
  | n + 1, v => v.testBit n :: bitsOf n v

/-- Number with the given bits, most significant first. -/
def natOfBits : List Bool → Nat := List.foldl (fun r b => 2 * r + b.toNat) 0

/-- Number of data bits after each label (ISO 14819-1, 5.5); label 15 is not used. -/
def labelSize : Nat → Nat
  | 0 => 3 | 1 => 3 | 2 => 5 | 3 => 5 | 4 => 5 | 5 => 8 | 6 => 8 | 7 => 8 | 8 => 8 | 9 => 11
  | 10 => 16 | 11 => 16 | 12 => 16 | 13 => 16 | _ => 0

/-- A field that can be transmitted. Label 0 with value 0 marks the end of the fields. -/
def ValidField (f : Nat × Nat) : Prop := f.1 ≤ 14 ∧ f.2 < 2 ^ labelSize f.1 ∧ f ≠ (0, 0)

/-- Label and data of a field. -/
def fieldBits (f : Nat × Nat) : List Bool := bitsOf 4 f.1 ++ bitsOf (labelSize f.1) f.2

/-- All fields, filled up with zeros. -/
def packedFields (capacity : Nat) (fields : List (Nat × Nat)) : List Bool :=
  fields.flatMap fieldBits ++ List.replicate (capacity - (fields.flatMap fieldBits).length) false

/-- The fields fit into the message. A separator (label 14), which has no data, must not occupy the
very last bits. -/
def Fits (capacity : Nat) (fields : List (Nat × Nat)) : Prop :=
  (∀ f ∈ fields, ValidField f) ∧ (fields.flatMap fieldBits).length ≤ capacity ∧
  ((∀ f ∈ fields.getLast?, f.1 ≠ 14) ∨ (fields.flatMap fieldBits).length < capacity)

/-- Blocks 3 and 4 of a subsequent group: second-group flag, group sequence indicator (number of
groups still to come) and 28 bits of data. -/
def subsequentGroup (second : Bool) (gsi : Nat) (bits : List Bool) : Word × Word :=
  (BitVec.ofNat 16 ((if second then 2 ^ 14 else 0) + gsi * 2 ^ 12 + natOfBits (bits.take 12)),
   BitVec.ofNat 16 (natOfBits ((bits.drop 12).take 16)))

/-- The `j`-th group (from 0) after the first one in a message of `n + 1` groups. -/
def nthSubsequent (n : Nat) (bits : List Bool) (j : Nat) : Word × Word :=
  subsequentGroup (j == 0) (n - 1 - j) ((bits.drop (28 * j)).take 28)

/-- All groups of a message after the first one. -/
def subsequentGroups (n : Nat) (fields : List (Nat × Nat)) : List (Word × Word) :=
  (List.range n).map (nthSubsequent n (packedFields (28 * n) fields))

/-! ### Multi-group messages (C52) -/

/-- A user group: 5 bits of block 2, block 3, block 4. -/
structure UserGroup where
  x : Word
  y : Word
  z : Word
  deriving DecidableEq, Repr

namespace UserGroup
/-- Encryption administration group. -/
def isAdmin (g : UserGroup) : Bool := g.x.toNat % 32 == 0
/-- Tuning information. -/
def isTuning (g : UserGroup) : Bool := g.x.toNat / 16 % 2 == 1
/-- Part of a multi-group message: no tuning information, no single-group message. -/
def isMulti (g : UserGroup) : Bool := g.x.toNat / 8 % 4 == 0 && !g.isAdmin
/-- Continuity index. -/
def index (g : UserGroup) : Nat := g.x.toNat % 8
/-- First group of a message. -/
def isFirst (g : UserGroup) : Bool := g.y.toNat / 2 ^ 15 == 1
/-- No more groups to come. -/
def isLast (g : UserGroup) : Bool := !g.isFirst && g.y.toNat / 2 ^ 12 % 4 == 0
end UserGroup

/-- A TMC group as seen by the service: system information (3A) or user group (8A). -/
inductive TmcGroup where
  | system (w : Word)
  | user (g : UserGroup)
  deriving DecidableEq, Repr

/-- A system group of variant 0, which carries the location table number. -/
def TmcGroup.isVariant0 : TmcGroup → Bool
  | .system w => w.toNat / 2 ^ 14 == 0
  | .user _ => false

/-- An encryption administration group. -/
def TmcGroup.isAdmin : TmcGroup → Bool
  | .system _ => false
  | .user g => g.isAdmin

/-- The parts of a message with this continuity index that are still open, from the groups received
so far (most recent first): all multi-group parts back to the last one with a different index or
the last one that ended a message. -/
def openParts (index : Nat) : List UserGroup → List UserGroup
  | [] => []
  | g :: older =>
    if g.isMulti then
      if g.index = index ∧ !g.isLast then openParts index older ++ [g] else []
    else openParts index older

/-! ### The location database (C54) -/

/-- The database links the points in the list: the first one has the given code, and every other one
has the code to which its predecessor's offset (in the direction of the extent) refers. -/
def Linked (db : LocationDatabase) (positive : Bool) : Word → List Point → Prop
  | _, [] => True
  | lcd, p :: rest =>
    db.points lcd = some p ∧ Linked db positive (if positive then p.posOff else p.negOff) rest

/-- The code that follows the last point of a linked list. -/
def afterLast (positive : Bool) : Word → List Point → Word
  | lcd, [] => lcd
  | _, p :: rest => afterLast positive (if positive then p.posOff else p.negOff) rest

end Redsea
