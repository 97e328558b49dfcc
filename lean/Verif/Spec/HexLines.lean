import Verif.Model.Channel

/-
The lines of hexadecimal output with different options.
-/

namespace Redsea

/-- What follows the blocks in a line of hexadecimal output: with `-t` a space and some time as it is formatted; then the line
break. -/
def HexLineEnd (o : Options) (format : Int → Str) (s : Str) : Prop :=
  if o.timestamp then ∃ t, s = ascii " " ++ format t ++ ascii "\n" else s = ascii "\n"

/-- A digit of a hexadecimal number, or the dash that stands for one. -/
def IsHexCharacter (c : Byte) : Prop := c ∈ ascii "0123456789ABCDEF-"

/-- The part of a line with the blocks: an optional number of the data stream, and four times four characters. -/
inductive HexBlocks : Str → Prop where
  | intro (stream : Nat) (b1 b2 b3 b4 : Str) (h : ∀ b ∈ [b1, b2, b3, b4], b.length = 4 ∧ ∀ c ∈ b, IsHexCharacter c) :
    HexBlocks ((if stream = 0 then [] else ascii "#S" ++ ascii (toString stream) ++ ascii " ") ++
      b1 ++ ascii " " ++ b2 ++ ascii " " ++ b3 ++ ascii " " ++ b4)

/-- Two lines with the same blocks. -/
def SameHexLine (o o' : Options) (format format' : Int → Str) (a b : Line) : Prop :=
  ∃ blocks s s', a = .hex (blocks ++ s) ∧ b = .hex (blocks ++ s') ∧ HexBlocks blocks ∧ HexLineEnd o format s ∧
    HexLineEnd o' format' s'

end Redsea
