/-
Bit-field extraction helpers.
-/

namespace Redsea

/-- Bytes as stored in `std::uint8_t`. -/
abbrev Byte := BitVec 8
/-- A 16-bit RDS data word (`std::uint16_t`). -/
abbrev Word := BitVec 16

/-- `getBits<N>(word, starting_at)`, src/util.hh:35-41.
The C++ result is a `uint16_t`; all call sites use it as a small unsigned number, so the
model returns the number itself. The `assert(starting_at + N <= 16)` holds at every call
site by constants. -/
def getBits (n : Nat) (w : Word) (start : Nat) : Nat :=
  (w.toNat >>> start) % 2 ^ n

/-- `getBits<N>(word1, word2, starting_at)`, src/util.hh:45-53: bit field of the
concatenation of two words (`word1` is the high half). `N = 32` is never used
(`1U << 32` would be undefined). -/
def getBits2 (n : Nat) (w1 w2 : Word) (start : Nat) : Nat :=
  ((w2.toNat + w1.toNat * 2 ^ 16) >>> start) % 2 ^ n

/-- `getBool`, src/util.hh:56-59. -/
def getBool (w : Word) (pos : Nat) : Bool :=
  getBits 1 w pos != 0

/-- `getUint8`, src/util.hh:60-63. -/
def getUint8 (w : Word) (pos : Nat) : Byte :=
  BitVec.ofNat 8 (getBits 8 w pos)

/-- `divideRoundingUp`, src/util.hh:65-69. -/
def divideRoundingUp (dividend divisor : Nat) : Nat :=
  (dividend + divisor - 1) / divisor

end Redsea
