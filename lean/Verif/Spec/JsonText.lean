import Verif.Spec.Utf8
import Verif.Spec.Input

/-
Reading newline-delimited JSON: a reader for JSON texts as described in RFC 8259, which knows nothing about the way they
were written.
-/

namespace Redsea.Spec

/-- What a JSON text says. Numbers with a fraction or an exponent are kept as text. -/
inductive Value where
  | null
  | bool (b : Bool)
  | integer (i : Int)
  | real (text : Str)
  | string (s : Str)
  | array (l : List Value)
  | object (l : List (Str × Value))
  deriving Repr

/-- White space of JSON: space, tab, line feed, carriage return. -/
def jsonSpace (b : Byte) : Bool := b = 0x20 || b = 0x09 || b = 0x0A || b = 0x0D

/-- The text after white space. -/
def skip (s : Str) : Str := s.dropWhile jsonSpace

/-! ### Numbers -/

def isNumeral (b : Byte) : Bool := decide (0x30 ≤ b.toNat) && decide (b.toNat ≤ 0x39)

/-- The bytes that occur in numbers: digits, `+`, `-`, `.`, `E`, `e`. -/
def numberByte (b : Byte) : Bool := isNumeral b || b = 0x2B || b = 0x2D || b = 0x2E || b = 0x45 || b = 0x65

/-- The value of decimal digits. -/
def numeralsValue (s : Str) : Nat := s.foldl (fun v b => v * 10 + (b.toNat - 0x30)) 0

/-- One or more digits and nothing else. -/
def allNumerals (s : Str) : Bool := s ≠ [] && s.all isNumeral

/-- An exponent, or nothing: `E` or `e`, a sign or none, digits. -/
def exponentOk : Str → Bool
  | [] => true
  | e :: rest =>
    (e = 0x45 || e = 0x65) && match rest with
      | [] => false
      | c :: digits => if c = 0x2B || c = 0x2D then allNumerals digits else allNumerals (c :: digits)

/-- What follows the digits of the whole part: a fraction or not, then an exponent or not. -/
def tailOk : Str → Bool
  | [] => true
  | b :: rest =>
    if b = 0x2E then
      let digits := rest.takeWhile isNumeral
      digits ≠ [] && exponentOk (rest.dropWhile isNumeral)
    else exponentOk (b :: rest)

/-- The value of a number: a sign or none, digits without unnecessary zeros, fraction, exponent. -/
def numberValue (t : Str) : Option Value :=
  let negative := t.head? = some 0x2D
  let u := if negative then t.drop 1 else t
  let digits := u.takeWhile isNumeral
  let rest := u.dropWhile isNumeral
  if digits = [] then none
  else if digits.head? = some 0x30 ∧ digits.length > 1 then none
  else if !tailOk rest then none
  else if rest = [] then
    some (.integer (if negative then -(numeralsValue digits : Int) else numeralsValue digits))
  else some (.real t)

/-- A number extends as far as its bytes do. -/
def takeNumber (s : Str) : Option (Value × Str) :=
  (numberValue (s.takeWhile numberByte)).map fun v => (v, s.dropWhile numberByte)

/-! ### Strings -/

/-- Four hexadecimal digits. -/
def fourDigits (a b c d : Byte) : Option Nat :=
  if IsHexDigit a ∧ IsHexDigit b ∧ IsHexDigit c ∧ IsHexDigit d then some (hexNumber [a, b, c, d]) else none

/-- The character of an escape sequence of two bytes. -/
def simpleEscape (e : Byte) : Option Byte :=
  [((0x22 : Byte), (0x22 : Byte)), (0x5C, 0x5C), (0x2F, 0x2F), (0x62, 0x08), (0x66, 0x0C), (0x6E, 0x0A), (0x72, 0x0D),
    (0x74, 0x09)].lookup e

/-- The bytes of a character. -/
def characterBytes (n : Nat) : Str := unicodeBytes (String.singleton (Char.ofNat n))

/-- What an escape sequence stands for, after its backslash, and the text after it. Characters outside of the basic
multilingual plane can be written as two sequences; a half of such a pair alone is not accepted. -/
def escapeSequence : Str → Option (Str × Str)
  | [] => none
  | e :: rest =>
    if e ≠ 0x75 then (simpleEscape e).map fun c => ([c], rest)
    else match rest with
      | d1 :: d2 :: d3 :: d4 :: rest => do
        let u ← fourDigits d1 d2 d3 d4
        if u < 0xD800 ∨ 0xE000 ≤ u then pure (characterBytes u, rest)
        else if u < 0xDC00 then
          match rest with
          | b1 :: b2 :: e1 :: e2 :: e3 :: e4 :: rest => do
            let u' ← fourDigits e1 e2 e3 e4
            if b1 = 0x5C ∧ b2 = 0x75 ∧ 0xDC00 ≤ u' ∧ u' < 0xE000 then
              pure (characterBytes (0x10000 + (u - 0xD800) * 1024 + (u' - 0xDC00)), rest)
            else none
          | _ => none
        else none
      | _ => none

/-- A string after its first quotation mark, and the text after it. The number limits its length. -/
def readString : Nat → Str → Option (Str × Str)
  | 0, _ => none
  | _ + 1, [] => none
  | n + 1, b :: rest =>
    if b = 0x22 then some ([], rest)
    else if b.toNat < 0x20 then none
    else if b = 0x5C then do
      let e ← escapeSequence rest
      let r ← readString n e.2
      pure (e.1 ++ r.1, r.2)
    else (readString n rest).map fun r => (b :: r.1, r.2)

/-! ### Values -/

/-- The text after a word, if it begins with it. -/
def readWord (w s : Str) : Option Str := if s.take w.length = w then some (s.drop w.length) else none

/-- The text after a byte, which must come next, with white space before it. -/
def expect (b : Byte) (s : Str) : Option Str :=
  match skip s with
  | [] => none
  | c :: rest => if c = b then some rest else none

mutual
/-- A value, with white space before it, and the text after it. The number limits the depth and the length. -/
def readValue : Nat → Str → Option (Value × Str)
  | 0, _ => none
  | n + 1, s =>
    match skip s with
    | [] => none
    | b :: rest =>
      if b = 0x22 then (readString (rest.length + 1) rest).map fun r => (.string r.1, r.2)
      else if b = 0x5B then
        match expect 0x5D rest with
        | some rest => some (.array [], rest)
        | none => (readElements n rest).map fun r => (.array r.1, r.2)
      else if b = 0x7B then
        match expect 0x7D rest with
        | some rest => some (.object [], rest)
        | none => (readMembers n rest).map fun r => (.object r.1, r.2)
      else if b = 0x6E then (readWord (ascii "null") (b :: rest)).map fun r => (.null, r)
      else if b = 0x74 then (readWord (ascii "true") (b :: rest)).map fun r => (.bool true, r)
      else if b = 0x66 then (readWord (ascii "false") (b :: rest)).map fun r => (.bool false, r)
      else takeNumber (b :: rest)
/-- One or more elements, separated by commas, and the bracket after them. -/
def readElements : Nat → Str → Option (List Value × Str)
  | 0, _ => none
  | n + 1, s => do
    let r ← readValue n s
    match expect 0x2C r.2 with
    | some rest => do
      let more ← readElements n rest
      pure (r.1 :: more.1, more.2)
    | none => do
      let rest ← expect 0x5D r.2
      pure ([r.1], rest)
/-- One or more members, separated by commas, and the brace after them. -/
def readMembers : Nat → Str → Option (List (Str × Value) × Str)
  | 0, _ => none
  | n + 1, s => do
    let s ← expect 0x22 s
    let name ← readString (s.length + 1) s
    let s ← expect 0x3A name.2
    let r ← readValue n s
    match expect 0x2C r.2 with
    | some rest => do
      let more ← readMembers n rest
      pure ((name.1, r.1) :: more.1, more.2)
    | none => do
      let rest ← expect 0x7D r.2
      pure ([(name.1, r.1)], rest)
end

/-- A JSON text: one value, and nothing but white space around it. -/
def readText (s : Str) : Option Value :=
  match readValue (s.length + 1) s with
  | some (v, rest) => if skip rest = [] then some v else none
  | none => none

/-! ### What is printed -/

mutual
/-- What the text of a value should say. `F` is the text of a floating point number; the ones that are not finite have
none. -/
def valueOf (F : BitVec 32 → Option Str) : J → Value
  | .null => .null
  | .bool b => .bool b
  | .int i => .integer i
  | .float bits => match F bits with
    | some t => .real t
    | none => .null
  | .str s => .string s
  | .arr l => .array (valuesOf F l)
  | .obj l => .object (membersOf F l)
/-- … for the elements of an array -/
def valuesOf (F : BitVec 32 → Option Str) : List J → List Value
  | [] => []
  | j :: l => valueOf F j :: valuesOf F l
/-- … for the members of an object -/
def membersOf (F : BitVec 32 → Option Str) : List (String × J) → List (Str × Value)
  | [] => []
  | m :: l => (unicodeBytes m.1, valueOf F m.2) :: membersOf F l
end

/-- The text of a single precision number; those with the largest exponent are infinite or no numbers, and have none. -/
def finiteText (F : BitVec 32 → Str) (bits : BitVec 32) : Option Str :=
  if bits.extractLsb' 23 8 = 255#8 then none else some (F bits)

mutual
/-- No object has two members of the same name. -/
def NoRepeats : Value → Prop
  | .array l => NoRepeatsList l
  | .object l => (l.map Prod.fst).Nodup ∧ NoRepeatsMembers l
  | _ => True
/-- … for the elements of an array -/
def NoRepeatsList : List Value → Prop
  | [] => True
  | v :: l => NoRepeats v ∧ NoRepeatsList l
/-- … for the members of an object -/
def NoRepeatsMembers : List (Str × Value) → Prop
  | [] => True
  | m :: l => NoRepeats m.2 ∧ NoRepeatsMembers l
end

/-- The texts of floating point numbers are numbers with a fraction or an exponent. -/
def NumberTexts (F : BitVec 32 → Str) : Prop := ∀ bits, numberValue (F bits) = some (.real (F bits))

/-! ### Lines -/

/-- The lines of a text in which every line ends with a line feed; `none` if the last one does not. -/
def textLines : Str → Option (List Str)
  | [] => some []
  | b :: rest =>
    if b = 0x0A then (textLines rest).map ([] :: ·)
    else match textLines rest with
      | some (l :: ls) => some ((b :: l) :: ls)
      | _ => none

/-- Newline-delimited JSON: one JSON text per line. -/
def readLines (s : Str) : Option (List Value) := do
  let ls ← textLines s
  ls.mapM readText

end Redsea.Spec
