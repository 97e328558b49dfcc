import Verif.Model.Bits

/-
Alternative frequency codes (IEC 62106, 6.2.1.6).
-/

namespace Redsea.Spec

/-- VHF code 1..204: 87.6 MHz upwards in steps of 100 kHz. -/
def fmKhz (c : Nat) : Int := 87600 + 100 * ((c : Int) - 1)

/-- LF code 1..15: 153 kHz upwards in steps of 9 kHz; MF code 16..135: 531 kHz upwards. -/
def lfMfKhz (c : Nat) : Int :=
  if c ≤ 15 then 153 + 9 * ((c : Int) - 1) else 531 + 9 * ((c : Int) - 16)

/-- The codes `cs` following a list announcement transmit the frequencies `fs`; `pending`
tells whether an LF/MF code must come next. -/
inductive ListBody : List Nat → List Int → Bool → Prop
  | start : ListBody [] [] false
  /-- an FM frequency -/
  | fm {cs fs c} : ListBody cs fs false → 1 ≤ c → c ≤ 204 → ListBody (cs ++ [c]) (fs ++ [fmKhz c]) false
  /-- an LF/MF frequency after code 250 -/
  | lfMf {cs fs c} : ListBody cs fs true → 1 ≤ c → c ≤ 135 →
      ListBody (cs ++ [c]) (fs ++ [lfMfKhz c]) false
  /-- a filler (205) or "no AF exists" (224) carries nothing -/
  | filler {cs fs p c} : ListBody cs fs p → c = 205 ∨ c = 224 → ListBody (cs ++ [c]) fs false
  /-- code 250: an LF/MF frequency follows -/
  | lfMfFollows {cs fs p} : ListBody cs fs p → ListBody (cs ++ [250]) fs true

end Redsea.Spec
