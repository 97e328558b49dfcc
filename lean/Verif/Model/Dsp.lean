/-
The parts of the demodulator that make bits from symbols: src/dsp/subcarrier.cc:49-89.

The floating point arithmetic is a parameter: the theorems hold for every choice of it, so in
particular for IEEE single precision (with not-a-number and infinities).
-/

namespace Redsea

/-- The operations on `float` used by the biphase decoder. -/
structure Arith (F : Type) where
  zero : F
  /-- `(x - y) * 0.5f` -/
  halfDiff : F → F → F
  /-- `std::fabs` -/
  abs : F → F
  add : F → F → F
  /-- `x >= 0.0f` -/
  nonneg : F → Bool
  /-- `x > y` -/
  gt : F → F → Bool

/-- `class BiphaseDecoder`, src/dsp/subcarrier.hh:31-41. Of the complex numbers only the real parts
are kept, since the imaginary parts are never used (subcarrier.cc:52-58). -/
structure BiphaseDecoder (F : Type) where
  prev : F
  history : List F
  clock : Nat
  polarity : Nat

namespace BiphaseDecoder

variable {F : Type} (ar : Arith F)

/-- The state after construction, src/dsp/subcarrier.hh:37-40. -/
def new : BiphaseDecoder F :=
  { prev := ar.zero, history := List.replicate 128 ar.zero, clock := 0, polarity := 0 }

/-- The loop over the history, src/dsp/subcarrier.cc:66-72: from position `i`, with the values of `a`
and `b` so far. (The entries are set to 0 by the caller here.) -/
def energies : Nat → List F → F × F → F × F
  | _, [], ab => ab
  | i, x :: l, ab =>
    if i % 2 = 0 then energies (i + 1) l (ar.add ab.1 x, ab.2)
    else energies (i + 1) l (ab.1, ar.add ab.2 x)

/-- The new `clock_polarity_`, src/dsp/subcarrier.cc:74-77. -/
def decide (ab : F × F) (old : Nat) : Nat :=
  if ar.gt ab.1 ab.2 then 0 else if ar.gt ab.2 ab.1 then 1 else old

/-- `BiphaseDecoder::push`, src/dsp/subcarrier.cc:51-83. The result is `data` and `valid`; `none` for
an access of `clock_history_` out of range. -/
def push (d : BiphaseDecoder F) (symbol : F) : Option (BiphaseDecoder F × Bool × Bool) :=
  let x := ar.halfDiff symbol d.prev
  let data := ar.nonneg x
  let valid := d.clock % 2 == d.polarity
  if d.clock < d.history.length then
    let history := d.history.set d.clock (ar.abs x)
    let clock := d.clock + 1
    if clock = history.length then
      let ab := energies ar 0 history (ar.zero, ar.zero)
      some ({ prev := symbol, history := history.map fun _ => ar.zero, clock := 0,
              polarity := decide ar ab d.polarity }, data, valid)
    else some ({ prev := symbol, history := history, clock := clock, polarity := d.polarity },
      data, valid)
  else none

/-- A sequence of calls. -/
def run : BiphaseDecoder F → List F → Option (BiphaseDecoder F × List (Bool × Bool))
  | d, [] => some (d, [])
  | d, s :: l => do
    let r ← push ar d s
    let rs ← run r.1 l
    pure (rs.1, r.2 :: rs.2)

end BiphaseDecoder

/-- `DeltaDecoder::decode`, src/dsp/subcarrier.cc:85-89: the returned bit and the new `prev_`. -/
def deltaDecode (prev d : BitVec 32) : BitVec 32 × BitVec 32 :=
  (if d ≠ prev then 1 else 0, d)

/-- A sequence of calls; `prev_` is 0 at the start (src/dsp/subcarrier.hh:49). -/
def deltaRun : BitVec 32 → List (BitVec 32) → List (BitVec 32)
  | _, [] => []
  | prev, d :: l => (deltaDecode prev d).1 :: deltaRun (deltaDecode prev d).2 l

/-- The bits that go from the symbols of one subcarrier into the bit buffer,
src/dsp/subcarrier.cc:194-201: the differential decoder is only called for valid biphase symbols. -/
def demodBits (out : List (Bool × Bool)) : List (BitVec 32) :=
  deltaRun 0 ((out.filter fun o => o.2).map fun o => if o.1 then 1 else 0)

end Redsea
