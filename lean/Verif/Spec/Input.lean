import Verif.Model.Group
import Verif.Model.Text

/-
Independent description of the textual formats: hexadecimal groups (the format of RDS Spy),
TEF6686 lines, ASCII bits and interleaved PCM.
-/

namespace Redsea

/-- The hexadecimal digits of a text file, with their values. -/
def hexDigitTable : List (Byte × Nat) :=
  (ascii "0123456789ABCDEF").zipIdx ++ ((ascii "abcdef").zipIdx 10)

/-- A hexadecimal digit, upper or lower case. -/
def IsHexDigit (c : Byte) : Prop := c ∈ hexDigitTable.map Prod.fst

instance (c : Byte) : Decidable (IsHexDigit c) := by unfold IsHexDigit; infer_instance

/-- The value of a digit (0 for other characters). -/
def hexDigitVal (c : Byte) : Nat := (hexDigitTable.lookup c).getD 0

/-- The value of a string of digits, most significant first. -/
def hexNumber : Str → Nat
  | [] => 0
  | c :: cs => hexDigitVal c * 16 ^ cs.length + hexNumber cs

/-- The characters of a line that are not blanks. -/
def nonBlank (s : Str) : Str := s.filter (· ≠ 0x20#8)

/-- Position of a block in its group. -/
def blockIndex : BlockNum → Nat
  | .b1 => 0 | .b2 => 1 | .b3 => 2 | .b4 => 3

/-- The characters belonging to a block: the four non-blank characters at its place (fewer when
the line is too short). -/
def blockChars (line : Str) (n : BlockNum) : Str :=
  ((nonBlank line).drop (4 * blockIndex n)).take 4

/-- The line transmits the block completely: four hexadecimal digits. -/
def TransmitsBlock (line : Str) (n : BlockNum) : Prop :=
  (blockChars line n).length = 4 ∧ ∀ c ∈ blockChars line n, IsHexDigit c

/-- A line without stream prefix. -/
def lineBody (line : Str) : Str :=
  if line.length ≥ 20 ∧ line.take 4 ∈ [ascii "#S1 ", ascii "#S2 ", ascii "#S3 "]
  then line.drop 4 else line

/-- The stream number of a line. -/
def lineStream (line : Str) : Nat :=
  if line.length ≥ 20 ∧ line.take 4 ∈ [ascii "#S1 ", ascii "#S2 ", ascii "#S3 "]
  then (line.getD 2 0).toNat - 0x30 else 0

/-- Two-bit error level of a block in the error byte of a TEF6686 line: block 2 in bits 5-4,
block 3 in bits 3-2, block 4 in bits 1-0 (bits 7-6 belong to block 1). -/
def tefErrorLevel (err : Nat) : BlockNum → Nat
  | .b1 => err / 64 % 4
  | .b2 => err / 16 % 4
  | .b3 => err / 4 % 4
  | .b4 => err % 4

/-- The bits in a text of `0`s and `1`s, everything else being ignored. -/
def bitsOfText (s : Str) : List Bool :=
  s.filterMap fun c => if c = 0x30#8 then some false else if c = 0x31#8 then some true else none

/-- The samples of channel `c` in an interleaved recording of `n` channels: samples `c`, `c + n`,
`c + 2n`, … of the complete frames. -/
def channelSamples {α : Type} (n c : Nat) (samples : List α) : List α :=
  (List.range (samples.length / n)).filterMap fun i => samples[i * n + c]?

end Redsea
