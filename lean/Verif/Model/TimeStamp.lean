import Verif.Model.Station

/-
Time stamps: `getTimePointString`, src/util.cc:39-67.

A time is a number of nanoseconds since 1970, the unit of `std::chrono::system_clock` in libstdc++. What a single
conversion of `strftime` gives for a second, with the time zone and the locale of the process, is a parameter. Formats
have no zero byte, as they are arguments of the program (src/options.cc:152).
-/

namespace Redsea

/-- Characters that may stand between `%` and the letter of a conversion: flags, width, `E` and `O` (`man strftime`;
the order of these is not checked). -/
def isConversionModifier (c : Byte) : Bool :=
  (0x30 ≤ c.toNat && c.toNat ≤ 0x39) || c == 0x5F || c == 0x2D || c == 0x5E || c == 0x23 || c == 0x2B ||
    c == 0x45 || c == 0x4F

/-- The text that `strftime` makes, called at src/util.cc:61-62: ordinary characters are copied, every conversion
is replaced. The first argument is the beginning of a conversion that is not finished. `conv` gives the text of a
conversion; it stands for anything if the conversion is not known or not finished. -/
def strftimeText (conv : Str → Int → Str) (t : Int) : Option Str → Str → Str
  | none, [] => []
  | some p, [] => conv p t
  | none, c :: s => if c = 0x25 then strftimeText conv t (some [c]) s else c :: strftimeText conv t none s
  | some p, c :: s =>
    if isConversionModifier c then strftimeText conv t (some (p ++ [c])) s
    else conv (p ++ [c]) t ++ strftimeText conv t none s

/-- `strftime` with a buffer of `size` bytes: `none` stands for the result 0, which means that the text and its zero
byte are too long, or that the text is empty. -/
def strftime (conv : Str → Int → Str) (size : Nat) (format : Str) (t : Int) : Option Str :=
  let text := strftimeText conv t none format
  if text.length + 1 > size ∨ text = [] then none else some text

/-- `std::to_string` of an integer, src/util.cc:57. -/
def toStringInt (n : Int) : Str := if n < 0 then ascii "-" ++ decimal n.natAbs else decimal n.natAbs

/-- `find("%f")` and `replace`, src/util.cc:49-58: the first occurrence is replaced. -/
def replaceFraction (digits : Str) : Str → Str
  | [] => []
  | c :: s => if c = 0x25 ∧ s.head? = some 0x66 then digits ++ s.tail else c :: replaceFraction digits s

/-- The text for `%f`, src/util.cc:51-57. Divisions truncate towards zero. -/
def fractionDigits (ns : Int) : Str :=
  let seconds := ns.tdiv 1000000000
  let ms := (ns - seconds * 1000000000).tdiv 1000000
  let hundredths := (ms.tdiv 10).tmod 10
  let tenths := (ms.tdiv 100).tmod 10
  toStringInt tenths ++ toStringInt hundredths

/-- `getTimePointString`, src/util.cc:40-67. -/
def getTimePointString (conv : Str → Int → Str) (ns : Int) (format : Str) : Str :=
  (strftime conv 64 (replaceFraction (fractionDigits ns) format) (ns.tdiv 1000000000)).getD
    (ascii "(format error)")

/-- The decoder with time stamps as the options ask for, src/groups.cc:287-288 and src/io/output.hh:17-18. -/
def Env.withTimes (env : Env) (conv : Str → Int → Str) (o : Options) : Env :=
  { env with formatTime := fun t => getTimePointString conv t o.timeFormat }

end Redsea
