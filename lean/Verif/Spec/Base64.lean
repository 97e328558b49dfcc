import Verif.Model.Bits

/-
Base64 (RFC 4648, section 4): a strict decoder.
-/

namespace Redsea.Spec

/-- Value of a character of the Base64 alphabet. -/
def b64Value (c : Byte) : Option Nat :=
  let n := c.toNat
  if 65 ≤ n ∧ n ≤ 90 then some (n - 65)            -- A-Z
  else if 97 ≤ n ∧ n ≤ 122 then some (n - 97 + 26) -- a-z
  else if 48 ≤ n ∧ n ≤ 57 then some (n - 48 + 52)  -- 0-9
  else if n = 43 then some 62                      -- +
  else if n = 47 then some 63                      -- /
  else none

/-- The padding character `=`. -/
def b64Pad : Byte := 61#8

/-- Number with the given base-64 digits. -/
def b64Number (ds : List Nat) : Nat := ds.foldl (fun acc d => acc * 64 + d) 0

/-- Decode; `none` for malformed text. Bits not used by the last group must be zero. -/
def b64Decode : List Byte → Option (List Byte)
  | [] => some []
  | a :: b :: c :: d :: rest => do
    let va ← b64Value a
    let vb ← b64Value b
    if c = b64Pad ∧ d = b64Pad ∧ rest = [] then
      let n := b64Number [va, vb]
      if n % 16 = 0 then some [BitVec.ofNat 8 (n / 16)] else none
    else if d = b64Pad ∧ rest = [] then
      let vc ← b64Value c
      let n := b64Number [va, vb, vc]
      if n % 4 = 0 then some [BitVec.ofNat 8 (n / 1024), BitVec.ofNat 8 (n / 4)] else none
    else
      let vc ← b64Value c
      let vd ← b64Value d
      let n := b64Number [va, vb, vc, vd]
      let tail ← b64Decode rest
      some (BitVec.ofNat 8 (n / 65536) :: BitVec.ofNat 8 (n / 256) :: BitVec.ofNat 8 n :: tail)
  | _ => none

end Redsea.Spec
