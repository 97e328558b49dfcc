import Verif.Model.TimeStamp

/-
Formats of time stamps as the usage text of src/redsea.cc:95-97 describes them: "see man strftime for formatting
options (or try "%c"). Use "%f" to add hundredths of seconds."
-/

namespace Redsea.Spec

/-- A part of a format. -/
inductive FormatPart where
  /-- a character that stands for itself -/
  | plain (c : Byte)
  /-- a conversion of `strftime`, `%` followed by modifiers and a letter -/
  | conversion (modifiers : Str) (letter : Byte)
  /-- `%f` -/
  | hundredths
  deriving DecidableEq, Repr

namespace FormatPart

/-- How a part is written. -/
def written : FormatPart → Str
  | .plain c => [c]
  | .conversion m c => 0x25 :: (m ++ [c])
  | .hundredths => ascii "%f"

/-- `%` does not stand for itself, and `%f` is no conversion of `strftime`. -/
def Valid : FormatPart → Prop
  | .plain c => c ≠ 0x25
  | .conversion m c => (∀ x ∈ m, isConversionModifier x = true) ∧ isConversionModifier c = false ∧ (m = [] → c ≠ 0x66)
  | .hundredths => True

instance : DecidablePred Valid := fun p => by
  cases p <;> unfold Valid <;> infer_instance

/-- The two digits of a number below 100. -/
def twoDigits (n : Nat) : Str := [BitVec.ofNat 8 (0x30 + n / 10), BitVec.ofNat 8 (0x30 + n % 10)]

/-- What a part stands for at a time in nanoseconds: a conversion is for the second in which the time lies, and the
hundredths are those that have passed since this second began. -/
def text (conv : Str → Int → Str) (ns : Int) : FormatPart → Str
  | .plain c => [c]
  | .conversion m c => conv (0x25 :: (m ++ [c])) (ns / 1000000000)
  | .hundredths => twoDigits ((ns / 10000000) % 100).toNat

/-- Does the part end with `%`, as `%%` does? -/
def endsPercent : FormatPart → Bool
  | .conversion _ c => c == 0x25
  | _ => false

end FormatPart

/-- A format is written as its parts. -/
def formatText (parts : List FormatPart) : Str := parts.flatMap FormatPart.written

/-- What a format stands for. -/
def timeText (conv : Str → Int → Str) (ns : Int) (parts : List FormatPart) : Str :=
  parts.flatMap (FormatPart.text conv ns)

/-- Is there a letter f directly after `%%`? -/
def percentThenF : List FormatPart → Bool
  | a :: b :: l => (a.endsPercent && b == .plain 0x66) || percentThenF (b :: l)
  | _ => false

end Redsea.Spec
