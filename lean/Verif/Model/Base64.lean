import Verif.Model.Text

/-
Base64 encoding, src/base64.hh.
-/

namespace Redsea

/-- `base64_table`, src/base64.hh:10-11. -/
def base64Table : Str :=
  ascii "ABCDEFGHIJKLMNOPQRSTUVWXYZabcdefghijklmnopqrstuvwxyz0123456789+/"

/-- `base64_table[(chunk >> shift) & 0x3F]`. The default is never used: the index is less
than 64. -/
def base64Char (chunk : BitVec 32) (shift : Nat) : Byte :=
  base64Table.getD ((chunk >>> shift) &&& 0x3F#32).toNat 0

/-- `chunk |= bytes[i + j] << (16 - j * 8)` for the (one to three) bytes of a chunk,
src/base64.hh:25-33. -/
def base64Chunk (bytes : List Byte) : BitVec 32 :=
  (bytes.zipIdx).foldl (fun chunk (b, j) => chunk ||| (b.setWidth 32 <<< (16 - j * 8))) 0#32

/-- The four characters of a chunk, src/base64.hh:35-49. -/
def base64Encode (bytes : List Byte) : Str :=
  let chunk := base64Chunk bytes
  [base64Char chunk 18, base64Char chunk 12,
    if bytes.length > 1 then base64Char chunk 6 else 61#8,
    if bytes.length = 3 then base64Char chunk 0 else 61#8]

/-- `asBase64`, src/base64.hh:9-53, of a (non-null) byte array. The loop over `i` in steps of
three is written as a recursion on the rest of the input. -/
def asBase64 : List Byte → Str
  | [] => []
  | a :: b :: c :: rest => base64Encode [a, b, c] ++ asBase64 rest
  | l => base64Encode l

end Redsea
