import Verif.Spec.Transmission

/-
Transmissions that cannot be mistaken for long: what accidental codewords may do.
-/

namespace Spec

/-- A codeword ends after `n` bits of the transmission. -/
def CodewordAt (air : List Bool) (n : Nat) (o : OffsetName) : Prop :=
  26 ≤ n ∧ n ≤ air.length ∧ ∃ d, EndsWith (air.take n) (encode d o)

/-- A codeword ends there that was not sent: `n` is not the end of a block. -/
def Accidental (air : List Bool) (n : Nat) (o : OffsetName) : Prop := n % 26 ≠ 0 ∧ CodewordAt air n o

/-- The accidental codewords of a transmission are as scattered as can be expected. (On the average there are five of them
in 1024 bits, that is, one in eight blocks at some place between the blocks, and one in 200 blocks at a given place.) -/
structure Unmistakable (air : List Bool) : Prop where
  /-- At most seven of them end at the same place within the blocks. -/
  few : ∀ (r : Nat) (l : List Nat), l.Nodup → (∀ n ∈ l, n % 26 = r ∧ ∃ o, Accidental air n o) → l.length ≤ 7
  /-- No three of them follow each other in the distances and in the order of real blocks, at most six blocks apart. -/
  noTriple : ∀ (n m k : Nat) (o1 o2 o3 : OffsetName), 1 ≤ m → m ≤ 6 → 1 ≤ k → k ≤ 6 →
    (o1.index + m) % 4 = o2.index → (o2.index + k) % 4 = o3.index →
    Accidental air n o1 → Accidental air (n + 26 * m) o2 → ¬ Accidental air (n + 26 * (m + k)) o3
  /-- From everywhere, within ten blocks, there are two successive blocks with at most one of them inside. -/
  quiet : ∀ j, 26 * (j + 13) ≤ air.length → ∃ i, j ≤ i ∧ i ≤ j + 10 ∧ ∀ (a b : Nat) (o o' : OffsetName),
    26 * (i + 1) < a → a < 26 * (i + 3) → 26 * (i + 1) < b → b < 26 * (i + 3) →
    Accidental air a o → Accidental air b o' → a = b

end Spec
