import Verif.Spec.Broadcast
import Verif.Spec.Transmission
import Verif.Spec.Channel
import Verif.Spec.Station
import Verif.Spec.RadioText

/-
From the fields of a group to the bits on air, by IEC 62106-2: block 1 is the PI code; in version B
groups, block 3 is the PI code too and has offset C'.
-/

namespace Redsea.Spec

/-- A group that a station with PI code `p` can send. -/
structure Broadcast.Sendable (s : Broadcast) (p : Word) : Prop where
  valid : s.Valid
  block3 : s.versionB = true → s.block3 = p

/-- The group on air. -/
def Broadcast.onAir (s : Broadcast) (p : Word) : _root_.Spec.TxGroup :=
  ⟨p, s.block2, s.block3, s.block4, s.versionB⟩

/-- The group has a fixed function; it is never used for an open data application. -/
def Broadcast.Fixed (s : Broadcast) : Prop :=
  (⟨s.number, if s.versionB then .B else .A⟩ : GroupType) ∈ fixedTypes

instance (s : Broadcast) : Decidable s.Fixed := by unfold Broadcast.Fixed; infer_instance

/-- Characters of the programme service name: type 0, block 4; the low 2 bits of block 2 are the
segment address. -/
def Broadcast.psChars (s : Broadcast) : List (Nat × Byte) :=
  if s.number = 0 then
    [(2 * (s.low % 4), hiByte s.block4), (2 * (s.low % 4) + 1, loByte s.block4)]
  else []

/-- Characters of the RadioText: type 2, in version A blocks 3 and 4, in version B only block 4; the low
4 bits of block 2 are the segment address. -/
def Broadcast.rtChars (s : Broadcast) : List (Nat × Byte) :=
  if s.number = 2 then
    if s.versionB then [(2 * (s.low % 16), hiByte s.block4), (2 * (s.low % 16) + 1, loByte s.block4)]
    else [(4 * (s.low % 16), hiByte s.block3), (4 * (s.low % 16) + 1, loByte s.block3),
      (4 * (s.low % 16) + 2, hiByte s.block4), (4 * (s.low % 16) + 3, loByte s.block4)]
  else []

/-- The text A/B flag of a type 2 group. -/
def Broadcast.textFlag (s : Broadcast) : Nat := s.low / 16

/-- Four hexadecimal digits. -/
def hexWord (d : Word) : Str :=
  [hexDigitChar (d.toNat / 4096), hexDigitChar (d.toNat / 256 % 16), hexDigitChar (d.toNat / 16 % 16),
   hexDigitChar (d.toNat % 16)]

/-- A group in hexadecimal form: four words separated by blanks, and a line break. -/
def Broadcast.hexLine (s : Broadcast) (p : Word) : Str :=
  hexWord p ++ [0x20] ++ hexWord s.block2 ++ [0x20] ++ hexWord s.block3 ++ [0x20] ++ hexWord s.block4 ++ [0x0A]

end Redsea.Spec

namespace Redsea

/-- What is printed during the calls `calls` if the calls `past` came before, group by group. -/
def linesDuring (env : Env) (delay : Nat → Int) (o : Options) (w : Nat) (past calls : List ChannelEvent) :
    Option (List (Option Line)) := do
  let r0 ← Channel.run env delay (Channel.new o w) past
  let r ← Channel.run env delay r0.1 calls
  pure (r.2.filterMap fun t => match t with
    | .handled h => some h.line
    | .reset => none)

/-- A call that only feeds bits into stream 0 (the only one of single-stream RDS). -/
def ChannelEvent.OnlyBits : ChannelEvent → Prop
  | .bit _ _ s => s = 0
  | .bits _ _ s => s = 0
  | _ => False

end Redsea
