import Verif.Model.Bits

/-
Received texts: src/text/rdsstring.hh, src/text/rdsstring.cc, src/text/radiotext.hh.

Decoded texts (`std::string` holding UTF-8) are lists of bytes.
-/

namespace Redsea

/-- A `std::string`: its bytes. -/
abbrev Str := List Byte

/-- ASCII text constants as bytes. -/
def ascii (s : String) : Str := s.toList.map fun c => BitVec.ofNat 8 c.toNat

/-- `codetable_G0`, src/text/rdsstring.cc:39-55: the Unicode code point of each entry (every
entry is a single character; in the source file they are UTF-8 encoded literals). -/
def codetableG0 : List Nat := [
   0x0020, 0x0020, 0x0020, 0x0020, 0x0020, 0x0020, 0x0020, 0x0020, 0x0020, 0x0020, 0x000A, 0x0020, 0x0020, 0x000D, 0x0020, 0x0020,
   0x0020, 0x0020, 0x0020, 0x0020, 0x0020, 0x0020, 0x0020, 0x0020, 0x0020, 0x0020, 0x0020, 0x0020, 0x0020, 0x0020, 0x0020, 0x00AD,
   0x0020, 0x0021, 0x0022, 0x0023, 0x00A4, 0x0025, 0x0026, 0x0027, 0x0028, 0x0029, 0x002A, 0x002B, 0x002C, 0x002D, 0x002E, 0x002F,
   0x0030, 0x0031, 0x0032, 0x0033, 0x0034, 0x0035, 0x0036, 0x0037, 0x0038, 0x0039, 0x003A, 0x003B, 0x003C, 0x003D, 0x003E, 0x003F,
   0x0040, 0x0041, 0x0042, 0x0043, 0x0044, 0x0045, 0x0046, 0x0047, 0x0048, 0x0049, 0x004A, 0x004B, 0x004C, 0x004D, 0x004E, 0x004F,
   0x0050, 0x0051, 0x0052, 0x0053, 0x0054, 0x0055, 0x0056, 0x0057, 0x0058, 0x0059, 0x005A, 0x005B, 0x005C, 0x005D, 0x2015, 0x005F,
   0x2016, 0x0061, 0x0062, 0x0063, 0x0064, 0x0065, 0x0066, 0x0067, 0x0068, 0x0069, 0x006A, 0x006B, 0x006C, 0x006D, 0x006E, 0x006F,
   0x0070, 0x0071, 0x0072, 0x0073, 0x0074, 0x0075, 0x0076, 0x0077, 0x0078, 0x0079, 0x007A, 0x007B, 0x007C, 0x007D, 0x00AF, 0x0020,
   0x00E1, 0x00E0, 0x00E9, 0x00E8, 0x00ED, 0x00EC, 0x00F3, 0x00F2, 0x00FA, 0x00F9, 0x00D1, 0x00C7, 0x015E, 0x03B2, 0x00A1, 0x0132,
   0x00E2, 0x00E4, 0x00EA, 0x00EB, 0x00EE, 0x00EF, 0x00F4, 0x00F6, 0x00FB, 0x00FC, 0x00F1, 0x00E7, 0x015F, 0x01E7, 0x0131, 0x0133,
   0x00AA, 0x03B1, 0x00A9, 0x2030, 0x01E6, 0x011B, 0x0148, 0x0151, 0x03C0, 0x20AC, 0x00A3, 0x0024, 0x2190, 0x2191, 0x2192, 0x2193,
   0x00BA, 0x00B9, 0x00B2, 0x00B3, 0x00B1, 0x0130, 0x0144, 0x0171, 0x00B5, 0x00BF, 0x00F7, 0x00B0, 0x00BC, 0x00BD, 0x00BE, 0x00A7,
   0x00C1, 0x00C0, 0x00C9, 0x00C8, 0x00CD, 0x00CC, 0x00D3, 0x00D2, 0x00DA, 0x00D9, 0x0158, 0x010C, 0x0160, 0x017D, 0x00D0, 0x013F,
   0x00C2, 0x00C4, 0x00CA, 0x00CB, 0x00CE, 0x00CF, 0x00D4, 0x00D6, 0x00DB, 0x00DC, 0x0159, 0x010D, 0x0161, 0x017E, 0x0111, 0x0140,
   0x00C3, 0x00C5, 0x00C6, 0x0152, 0x0177, 0x00DD, 0x00D5, 0x00D8, 0x00DE, 0x014A, 0x0154, 0x0106, 0x015A, 0x0179, 0x0166, 0x00F0,
   0x00E3, 0x00E5, 0x00E6, 0x0153, 0x0175, 0x00FD, 0x00F5, 0x00F8, 0x00FE, 0x014B, 0x0155, 0x0107, 0x015B, 0x017A, 0x0167, 0x0020]

/-- UTF-8 encoding of a code point (how the compiler stores the literals of the table). -/
def utf8Encode (c : Nat) : Str :=
  if c < 0x80 then [BitVec.ofNat 8 c]
  else if c < 0x800 then [BitVec.ofNat 8 (0xC0 + c / 64), BitVec.ofNat 8 (0x80 + c % 64)]
  else if c < 0x10000 then
    [BitVec.ofNat 8 (0xE0 + c / 4096), BitVec.ofNat 8 (0x80 + c / 64 % 64),
     BitVec.ofNat 8 (0x80 + c % 64)]
  else
    [BitVec.ofNat 8 (0xF0 + c / 262144), BitVec.ofNat 8 (0x80 + c / 4096 % 64),
     BitVec.ofNat 8 (0x80 + c / 64 % 64), BitVec.ofNat 8 (0x80 + c % 64)]

/-- `getRDSCharString`, src/text/rdsstring.cc:37-59. The index is a `uint8_t`, the table has
256 entries. -/
def getRDSCharString (code : Byte) : Str := utf8Encode (codetableG0.getD code.toNat 0)

/-- `kStringTerminator`, src/text/rdsstring.cc:70. -/
def kStringTerminator : Byte := 0x0D
/-- `kBlankSpace`, src/text/rdsstring.cc:71. -/
def kBlankSpace : Byte := 0x20

/-- `RDSString::Encoding`, src/text/rdsstring.hh:48. -/
inductive Encoding where
  | basic | ucs2 | utf8
  deriving DecidableEq, Repr

/-- `class RDSString`, src/text/rdsstring.hh:46-78. `direction_` is only written and
therefore omitted. -/
structure RDSString where
  encoding : Encoding := .basic
  data : List Byte
  lastCompleteData : List Byte := []
  prevPos : Nat := 0
  seqLen : Nat := 0
  lastCompleteString : Str := []
  deriving DecidableEq, Repr

/-- `iconv` conversion from UCS-2 to UTF-8 (not modelled, a parameter); `none` when the
library throws. -/
abbrev Ucs2Decoder := List Byte → Option Str

namespace RDSString

/-- Constructor, src/text/rdsstring.cc:75: `len` zero bytes. -/
def new (len : Nat) : RDSString := { data := List.replicate len 0 }

/-- `getReceivedLength`, src/text/rdsstring.cc:106-108. -/
def getReceivedLength (s : RDSString) : Nat := s.seqLen

/-- `getExpectedLength`, src/text/rdsstring.cc:111-119. -/
def getExpectedLength (s : RDSString) : Nat :=
  min (s.data.findIdx (· == kStringTerminator) + 1) s.data.length

/-- `hasPreviouslyReceivedTerminators`, src/text/rdsstring.cc:121-124. -/
def hasPreviouslyReceivedTerminators (s : RDSString) : Bool := s.data.any (· == kStringTerminator)

/-- `isComplete`, src/text/rdsstring.cc:202-204. -/
def isComplete (s : RDSString) : Bool := decide (s.getReceivedLength ≥ s.getExpectedLength)

/-- `resize`, src/text/rdsstring.cc:126-128. -/
def resize (s : RDSString) (n : Nat) : RDSString :=
  { s with data := s.data.take n ++ List.replicate (n - s.data.length) kBlankSpace }

/-- `setEncoding`, src/text/rdsstring.cc:130-132. -/
def setEncoding (s : RDSString) (e : Encoding) : RDSString := { s with encoding := e }

/-- One element of the result of `getData`, src/text/rdsstring.cc:161-165. -/
def shownByte (s : RDSString) (i : Nat) : Byte :=
  let b := s.data.getD i 0
  if s.seqLen > i ∧ b ≠ kStringTerminator ∧ b ≠ 0 then b else kBlankSpace

/-- `getData`, src/text/rdsstring.cc:158-168. -/
def getData (s : RDSString) : List Byte :=
  (List.range s.getExpectedLength).map s.shownByte

/-- The `switch` of `str`, src/text/rdsstring.cc:142-153. -/
def decode (ucs2 : Ucs2Decoder) (e : Encoding) (bytes : List Byte) : Option Str :=
  match e with
  | .basic => some (bytes.flatMap getRDSCharString)
  | .ucs2 => ucs2 bytes
  | .utf8 => some bytes

/-- `str`, src/text/rdsstring.cc:139-156; `none` when it throws. -/
def str (ucs2 : Ucs2Decoder) (s : RDSString) : Option Str := decode ucs2 s.encoding s.getData

/-- `clear`, src/text/rdsstring.cc:206-210. The received bytes and `prev_pos_` are kept. -/
def clear (s : RDSString) : RDSString :=
  { s with seqLen := 0, lastCompleteString := [], lastCompleteData := [] }

/-- Storing a byte, src/text/rdsstring.cc:81-84. -/
def store (s : RDSString) (pos : Nat) (byte : Byte) : RDSString :=
  { s with
    data := s.data.set pos byte
    seqLen := if pos = 0 ∨ (pos = s.prevPos + 1 ∧ s.seqLen = pos) then pos + 1 else s.seqLen }

/-- `set(pos, byte)`, src/text/rdsstring.cc:77-98. -/
def set (ucs2 : Ucs2Decoder) (s : RDSString) (pos : Nat) (byte : Byte) : RDSString :=
  if pos ≥ s.data.length then s
  else
    let s := s.store pos byte
    if s.isComplete then
      match s.str ucs2 with
      | none => s.clear
      | some t =>
        { s with lastCompleteString := t, lastCompleteData := s.getData, prevPos := pos }
    else { s with prevPos := pos }

/-- `set(pos, byte1, byte2)`, src/text/rdsstring.cc:100-103. -/
def set2 (ucs2 : Ucs2Decoder) (s : RDSString) (pos : Nat) (b1 b2 : Byte) : RDSString :=
  (s.set ucs2 pos b1).set ucs2 (pos + 1) b2

end RDSString

/-- Is this byte a UTF-8 continuation byte? Condition in `charlen`, src/text/rdsstring.hh:35. -/
def isContinuation (b : Byte) : Bool := b &&& 0xC0 == 0x80

/-- The loop of `charlen`, src/text/rdsstring.hh:35-42, on the rest of the string from the
current byte on; the result is the number of bytes up to and including the first byte
that is not a continuation byte, 0 if there is none. -/
def charlenFrom : Str → Nat
  | [] => 0
  | b :: rest =>
    if isContinuation b then
      match charlenFrom rest with
      | 0 => 0
      | n + 1 => n + 2
    else 1

/-- `charlen`, src/text/rdsstring.hh:29-43. -/
def charlen (s : Str) (byteStart : Nat) : Nat := charlenFrom (s.drop byteStart)

/-- The loops in `getLastCompleteString(start, len)`, src/text/rdsstring.cc:179-185 and
189-195: advance by `n` characters; `none` for the early `return ""`. -/
def advanceChars (s : Str) : Nat → Nat → Option Nat
  | byte, 0 => some byte
  | byte, n + 1 =>
    let clen := charlen s byte
    if clen = 0 then none else advanceChars s (byte + clen) n

/-- `getLastCompleteString(start, len)`, src/text/rdsstring.cc:176-200, on the string. -/
def substringChars (s : Str) (start len : Nat) : Str :=
  match advanceChars s 0 start with
  | none => []
  | some byteStart =>
    match advanceChars s byteStart len with
    | none => []
    | some byteEnd =>
      if byteEnd < s.length then (s.drop byteStart).take (byteEnd - byteStart) else []

/-- `rtrim`, src/util.cc:203-205. -/
def rtrim (s : Str) : Str := (s.reverse.dropWhile (· == 0x20)).reverse

end Redsea
