import Verif.Model.Station

/-
The text of the output: how nlohmann::json 3.11.3 (subprojects/nlohmann_json.wrap) prints an object that is sent to a
stream (`operator<<`, used at src/groups.cc:376 and 381), and the lines that follow from it, src/groups.cc:371-382 and
src/io/output.hh:12-21.

The library is not part of the repository; its behaviour is modelled from its documentation: no white space between
tokens, members in the order of their creation, `"` and `\` and control characters escaped, everything else copied.
The text of a floating point number is a parameter; numbers that are not finite are printed as null.
-/

namespace Redsea

/-- A hexadecimal digit of `%04x`. -/
def lowerHexDigit (v : Nat) : Byte :=
  if v < 10 then BitVec.ofNat 8 (0x30 + v) else BitVec.ofNat 8 (0x61 + (v - 10))

/-- A byte of a string, `serializer::dump_escaped` of nlohmann::json. (Bytes from 0x80 are parts of characters that are
copied.) -/
def escapeByte (b : Byte) : Str :=
  if b = 0x08 then ascii "\\b"
  else if b = 0x09 then ascii "\\t"
  else if b = 0x0A then ascii "\\n"
  else if b = 0x0C then ascii "\\f"
  else if b = 0x0D then ascii "\\r"
  else if b = 0x22 then ascii "\\\""
  else if b = 0x5C then ascii "\\\\"
  else if b.toNat < 0x20 then ascii "\\u00" ++ [lowerHexDigit (b.toNat / 16), lowerHexDigit (b.toNat % 16)]
  else [b]

/-- A string in quotation marks. -/
def quoteStr (s : Str) : Str := 0x22 :: (s.flatMap escapeByte ++ [0x22])

/-- A single precision number is neither infinite nor "not a number". -/
def floatFinite (bits : BitVec 32) : Bool := decide (bits.toNat / 2 ^ 23 % 256 ≠ 255)

mutual
/-- `serializer::dump` of nlohmann::json without indentation. `F` is the text of a finite floating point number. -/
def J.dump (F : BitVec 32 → Str) : J → Str
  | .null => ascii "null"
  | .bool b => ascii (if b then "true" else "false")
  | .int i => intStr i
  | .float bits => if floatFinite bits then F bits else ascii "null"
  | .str s => quoteStr s
  | .arr l => 0x5B :: (J.dumpList F l ++ [0x5D])
  | .obj l => 0x7B :: (J.dumpMembers F l ++ [0x7D])
/-- … for the elements of an array -/
def J.dumpList (F : BitVec 32 → Str) : List J → Str
  | [] => []
  | j :: l => j.dump F ++ J.dumpMore F l
/-- … for the elements after the first one -/
def J.dumpMore (F : BitVec 32 → Str) : List J → Str
  | [] => []
  | j :: l => 0x2C :: (j.dump F ++ J.dumpMore F l)
/-- … for the members of an object -/
def J.dumpMembers (F : BitVec 32 → Str) : List (String × J) → Str
  | [] => []
  | m :: l => quoteStr (utf8Str m.1) ++ 0x3A :: (m.2.dump F ++ J.dumpMoreMembers F l)
/-- … for the members after the first one -/
def J.dumpMoreMembers (F : BitVec 32 → Str) : List (String × J) → Str
  | [] => []
  | m :: l => 0x2C :: (quoteStr (utf8Str m.1) ++ 0x3A :: (m.2.dump F ++ J.dumpMoreMembers F l))
end

/-- The text of a line, src/groups.cc:376-381 and src/io/output.hh:19. `report` is the message of an exception. (The
line break of a line of hex output is part of it, see `printAsHex`.) -/
def Line.text (F : BitVec 32 → Str) (report : Str) : Line → Str
  | .json j => j.dump F ++ [0x0A]
  | .error => (J.obj [("debug", .str report)]).dump F ++ [0x0A]
  | .hex s => s

end Redsea
