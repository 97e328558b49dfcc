import Verif.Model.Options

/-
What the options on the command line mean (the usage of the program).
-/

namespace Redsea.Spec

/-- The options of the program. -/
def KnownOption : Opt → Prop
  | .noFec => True
  | .question => True
  | .letter c => c ∈ ['b', 'e', 'E', 'h', 'x', 'p', 'R', 's', 'u', 'v']
  | .arg c _ => c ∈ ['c', 'f', 'i', 'o', 'r', 't', 'l']

/-- The last of several choices counts. -/
def lastChoice {α : Type} (choice : Opt → Option α) (d : α) (opts : List Opt) : α := ((opts.filterMap choice).getLast?).getD d

/-- `-b`, `-h`, `-f name` and `-i type` choose the input. -/
def inputChoice : Opt → Option InputType
  | .letter 'b' => some .asciiBits
  | .letter 'h' => some .hex
  | .arg 'f' _ => some .mpxSndfile
  | .arg 'i' a => [(ascii "hex", InputType.hex), (ascii "mpx", .mpxStdin), (ascii "tef", .tef6686), (ascii "bits", .asciiBits)].lookup a
  | _ => none

/-- `-x` and `-o type` choose the output. -/
def outputChoice : Opt → Option OutputType
  | .letter 'x' => some .hex
  | .arg 'o' a => [(ascii "hex", OutputType.hex), (ascii "json", .json)].lookup a
  | _ => none

/-- The argument of an option with some letter. -/
def argumentOf (c : Char) : Opt → Option Str
  | .arg c' a => if c' = c then some a else none
  | _ => none

/-- What a number is multiplied with because of the letter after it. -/
def unitOf (a : Str) : FloatVal :=
  if 2 ≤ a.length ∧ (a.getLast? = some 0x6B ∨ a.getLast? = some 0x4B) then .num 1000
  else if 2 ≤ a.length ∧ (a.getLast? = some 0x6D ∨ a.getLast? = some 0x4D) then .num 1000000
  else .num 1

/-- The rate that an option chooses. -/
def rateChoice (lib : FloatLib) (x : Opt) : Option FloatVal :=
  (argumentOf 'r' x).map fun a => lib.mul (lib.strtof a).1 (unitOf a)

/-- The number of channels that an option chooses: what `strtoul` makes of its argument, as a number of 32 bits. -/
def channelChoice (x : Opt) : Option Nat := (argumentOf 'c' x).map fun a => (strtoul10 a).1 % 2 ^ 32

/-- The arguments that are accepted. -/
def ArgumentOk (lib : FloatLib) : Opt → Prop
  | .arg 'c' a => (strtoul10 a).2 = false ∧ 1 ≤ (strtoul10 a).1 % 2 ^ 32 ∧ (strtoul10 a).1 % 2 ^ 32 ≤ 32
  | .arg 'i' a => a ∈ [ascii "hex", ascii "mpx", ascii "tef", ascii "bits"]
  | .arg 'o' a => a ∈ [ascii "hex", ascii "json"]
  | .arg 'r' a => (lib.strtof a).2 = false ∧ (lib.mul (lib.strtof a).1 (unitOf a)).lt 128000 = false ∧
      (lib.mul (lib.strtof a).1 (unitOf a)).gt 40000000 = false
  | _ => True

end Redsea.Spec
