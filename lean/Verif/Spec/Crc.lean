import Verif.Model.Bits

/-
CRC-16 with polynomial x^16 + x^12 + x^5 + 1, computed bit by bit.
-/

namespace Redsea.Spec

/-- One bit enters the shift register. -/
def crcBit (s : BitVec 16) (b : Bool) : BitVec 16 :=
  (s <<< 1) ^^^ (if (s.getLsbD 15 ^^ b) then 0x1021#16 else 0#16)

/-- Bits of a byte, most significant first. -/
def byteBits (b : Byte) : List Bool :=
  [b.getLsbD 7, b.getLsbD 6, b.getLsbD 5, b.getLsbD 4, b.getLsbD 3, b.getLsbD 2, b.getLsbD 1,
    b.getLsbD 0]

/-- The checksum: register preset to all ones, output inverted. -/
def crc16 (bytes : List Byte) : BitVec 16 :=
  ~~~ ((bytes.flatMap byteBits).foldl crcBit 0xFFFF#16)

end Redsea.Spec
