import Verif.Model.Text

/-
Command line options: src/options.hh, src/options.cc.
-/

namespace Redsea

/-- `enum class InputType`, src/options.hh:26. -/
inductive InputType where
  | mpxStdin | mpxSndfile | asciiBits | hex | tef6686
  deriving DecidableEq, Repr

/-- `enum class OutputType`, src/options.hh:28. -/
inductive OutputType where
  | hex | json
  deriving DecidableEq, Repr

/-- A `float` as far as it is compared with constants here. `num` holds the exact value of a
finite float. -/
inductive FloatVal where
  | nan
  | negInf
  | posInf
  | num (r : Rat)
  deriving DecidableEq, Repr

/-- `x < c` for a constant. -/
def FloatVal.lt : FloatVal → Rat → Bool
  | .nan, _ => false
  | .negInf, _ => true
  | .posInf, _ => false
  | .num r, c => decide (r < c)

/-- `x > c` for a constant. -/
def FloatVal.gt : FloatVal → Rat → Bool
  | .nan, _ => false
  | .negInf, _ => false
  | .posInf, _ => true
  | .num r, c => decide (c < r)

/-- `struct Options`, src/options.hh:30-56. -/
structure Options where
  rbds : Bool := false
  feedThru : Bool := false
  showPartial : Bool := false
  earlyExit : Bool := false
  initError : Bool := false
  printUsage : Bool := false
  printVersion : Bool := false
  timestamp : Bool := false
  bler : Bool := false
  showRaw : Bool := false
  isRateDefined : Bool := false
  isNumChannelsDefined : Bool := false
  useFec : Bool := true
  streams : Bool := false
  samplerate : FloatVal := .num 0
  numChannels : Nat := 1
  inputType : InputType := .mpxStdin
  outputType : OutputType := .json
  loctableDirs : List Str := []
  sndfilename : Str := []
  timeFormat : Str := []
  deriving DecidableEq, Repr

/-! ### Parsing -/

/-- What the C library does for option arguments: `strtof` (value, and whether `errno` is set to
`ERANGE`) and multiplication of floats. The theorems hold for every choice. -/
structure FloatLib where
  strtof : Str → FloatVal × Bool
  mul : FloatVal → FloatVal → FloatVal

/-- White space of `isspace`. -/
def isSpace (c : Byte) : Bool := c == 0x20 || (decide (0x09 ≤ c.toNat) && decide (c.toNat ≤ 0x0D))

/-- A decimal digit. -/
def isDigit (c : Byte) : Bool := decide (0x30 ≤ c.toNat) && decide (c.toNat ≤ 0x39)

/-- The value of digits. -/
def digitsValue (l : Str) : Nat := l.foldl (fun n c => n * 10 + (c.toNat - 0x30)) 0

/-- `strtoul(s, nullptr, 10)` with 64-bit `unsigned long` (C standard): the value, and whether `errno`
is set to `ERANGE`. A negative number is negated modulo 2^64. -/
def strtoul10 (s : Str) : Nat × Bool :=
  let s := s.dropWhile isSpace
  let negative := s.head? == some 0x2D
  let s := if negative || s.head? == some 0x2B then s.drop 1 else s
  let v := digitsValue (s.takeWhile isDigit)
  if v ≥ 2 ^ 64 then (2 ^ 64 - 1, true)
  else if negative then ((2 ^ 64 - v) % 2 ^ 64, false)
  else (v, false)

/-- A result of `getopt_long`, src/options.cc:66-67: the letter of the option with its argument;
`noFec` for the flag (`case 0`), `question` for `--help` and for anything `getopt_long` rejects
(unknown options, missing arguments: it returns '?' and prints a message). -/
inductive Opt where
  | noFec
  | letter (c : Char)
  | arg (c : Char) (value : Str)
  | question
  deriving DecidableEq, Repr

/-- State of the loop: `options`, `fec_flag`, and whether `errno` is `ERANGE` (it is never reset). -/
structure ParseState where
  options : Options := {}
  fecFlag : Bool := true
  erange : Bool := false

/-- `kMinimumSampleRate_Hz`, src/constants.hh:25. -/
def kMinimumSampleRate : Rat := 128000
/-- `kMaximumSampleRate_Hz`, src/constants.hh:33. -/
def kMaximumSampleRate : Rat := 40000000
/-- `kTargetSampleRate_Hz`, src/constants.hh:29. -/
def kTargetSampleRate : Rat := 171000

/-- `factor`, src/options.cc:124-130. -/
def rateFactor (s : Str) : FloatVal :=
  if s.length > 1 then
    if s.getLast? = some 0x6B ∨ s.getLast? = some 0x4B then .num 1000
    else if s.getLast? = some 0x4D ∨ s.getLast? = some 0x6D then .num 1000000
    else .num 1
  else .num 1

/-- `case 'c'`, src/options.cc:74-83. `none`: an exception is thrown. -/
def parseChannels (st : ParseState) (a : Str) : Option ParseState :=
  let r := strtoul10 a
  let n := r.1 % 2 ^ 32
  let erange := st.erange || r.2
  if erange || decide (n < 1) || decide (n > 32) then none
  else some { st with
    options := { st.options with numChannels := n, isNumChannelsDefined := true }, erange := erange }

/-- `case 'i'`, src/options.cc:93-107. -/
def parseInput (st : ParseState) (a : Str) : Option ParseState :=
  if a = ascii "hex" then some { st with options := { st.options with inputType := .hex } }
  else if a = ascii "mpx" then some { st with options := { st.options with inputType := .mpxStdin } }
  else if a = ascii "tef" then some { st with options := { st.options with inputType := .tef6686 } }
  else if a = ascii "bits" then some { st with options := { st.options with inputType := .asciiBits } }
  else none

/-- `case 'o'`, src/options.cc:108-118. -/
def parseOutput (st : ParseState) (a : Str) : Option ParseState :=
  if a = ascii "hex" then some { st with options := { st.options with outputType := .hex } }
  else if a = ascii "json" then some { st with options := { st.options with outputType := .json } }
  else none

/-- `case 'r'`, src/options.cc:123-147. -/
def parseRate (lib : FloatLib) (st : ParseState) (a : Str) : Option ParseState :=
  let r := lib.strtof a
  let rate := lib.mul r.1 (rateFactor a)
  let erange := st.erange || r.2
  if erange then none
  else if rate.lt kMinimumSampleRate || rate.gt kMaximumSampleRate then none
  else some { st with
    options := { st.options with samplerate := rate, isRateDefined := true }, erange := erange }

/-- `default`, src/options.cc:160-163. -/
def parseDefault (st : ParseState) : Option ParseState :=
  some { st with options := { st.options with printUsage := true, initError := true } }

/-- One option, src/options.cc:68-164. -/
def parseOption (lib : FloatLib) (st : ParseState) : Opt → Option ParseState
  | .noFec => some { st with fecFlag := false }
  | .question => some { st with options := { st.options with printUsage := true } }
  | .letter 'b' => some { st with options := { st.options with inputType := .asciiBits } }
  | .letter 'e' => some { st with options := { st.options with feedThru := true } }
  | .letter 'E' => some { st with options := { st.options with bler := true } }
  | .letter 'h' => some { st with options := { st.options with inputType := .hex } }
  | .letter 'x' => some { st with options := { st.options with outputType := .hex } }
  | .letter 'p' => some { st with options := { st.options with showPartial := true } }
  | .letter 'R' => some { st with options := { st.options with showRaw := true } }
  | .letter 's' => some { st with options := { st.options with streams := true } }
  | .letter 'u' => some { st with options := { st.options with rbds := true } }
  | .letter 'v' => some { st with options := { st.options with printVersion := true } }
  | .letter _ => parseDefault st
  | .arg 'c' a => parseChannels st a
  | .arg 'f' a =>
    some { st with options := { st.options with sndfilename := a, inputType := .mpxSndfile } }
  | .arg 'i' a => parseInput st a
  | .arg 'o' a => parseOutput st a
  | .arg 'r' a => parseRate lib st a
  | .arg 't' a => some { st with options := { st.options with timestamp := true, timeFormat := a } }
  | .arg 'l' a =>
    some { st with options := { st.options with loctableDirs := st.options.loctableDirs ++ [a] } }
  | .arg _ _ => parseDefault st

/-- The loop, src/options.cc:66-167. -/
def parseLoop (lib : FloatLib) : ParseState → List Opt → Option ParseState
  | st, [] => some st
  | st, o :: l => do
    let st ← parseOption lib st o
    if st.options.initError then pure st else parseLoop lib st l

/-- Is the input type MPX? -/
def InputType.isMpx (t : InputType) : Bool := t == .mpxStdin || t == .mpxSndfile

/-- After the loop, src/options.cc:169-201; `extra` is `argc > optind`. `none`: an exception is
thrown. -/
def finishOptions (st : ParseState) (extra : Bool) : Option Options :=
  let o := st.options
  let o := { o with earlyExit := o.printUsage || o.printVersion, useFec := st.fecFlag }
  let o := if extra then { o with printUsage := true, initError := true, earlyExit := true } else o
  if o.feedThru && o.inputType == .mpxSndfile then none
  else if decide (o.numChannels > 1) && !o.inputType.isMpx then none
  else if o.streams && !o.inputType.isMpx && o.inputType != .hex then none
  else
    let assumingRawMpx := o.inputType == .mpxStdin && !o.printUsage && !o.initError
    some (if assumingRawMpx && !o.isRateDefined then
      { o with samplerate := .num kTargetSampleRate } else o)

/-- `getOptions`, src/options.cc:36-200. -/
def getOptions (lib : FloatLib) (opts : List Opt) (extra : Bool) : Option Options := do
  let st ← parseLoop lib {} opts
  finishOptions st extra

/-- What `main` does after parsing, src/redsea.cc:205-234: exit at once, or start processing. -/
inductive Start where
  | exitFailure
  | exitSuccess
  | process (o : Options)
  deriving DecidableEq, Repr

/-- `main`, src/redsea.cc:205-234. -/
def mainStart (lib : FloatLib) (opts : List Opt) (extra : Bool) : Start :=
  match getOptions lib opts extra with
  | none => .exitFailure
  | some o => if o.earlyExit then (if o.initError then .exitFailure else .exitSuccess) else .process o

end Redsea
