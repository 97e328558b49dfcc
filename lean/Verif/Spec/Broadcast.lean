import Verif.Model.Group
import Verif.Model.Text

/-
Groups as they are broadcast, by IEC 62106-2 (RBDS: NRSC-4-B): which field is sent in which bits.
-/

namespace Redsea.Spec

/-- A group of version A or B. `low` are the 5 last bits of block 2. -/
structure Broadcast where
  number : Nat
  versionB : Bool := false
  tp : Bool := false
  pty : Nat := 0
  low : Nat := 0
  block3 : Word := 0
  block4 : Word := 0
  deriving Repr

/-- The fields fit. -/
structure Broadcast.Valid (s : Broadcast) : Prop where
  number : s.number < 16
  pty : s.pty < 32
  low : s.low < 32

/-- Block 2: 4 bits for the type, 1 for the version, 1 for TP, 5 for PTY, 5 others. -/
def Broadcast.block2 (s : Broadcast) : Word :=
  BitVec.ofNat 16 (s.number * 4096 + s.versionB.toNat * 2048 + s.tp.toNat * 1024 + s.pty * 32 + s.low)

/-- The receiver has a group which was sent as `s`: block 2 was received and the type was recognised;
blocks 3 and 4, if received, are as sent. -/
structure Broadcast.HeardAs (s : Broadcast) (g : Group) : Prop where
  typed : g.hasType = true
  type : g.type = ⟨s.number, if s.versionB then .B else .A⟩
  received2 : g.block2.isReceived = true
  block2 : g.block2.data = s.block2
  block3 : g.block3.isReceived = true → g.block3.data = s.block3
  block4 : g.block4.isReceived = true → g.block4.data = s.block4

/-- Types 0A, 0B and 15B: traffic announcement, music/speech, one bit of the decoder information and
its address. -/
def tuningLow (ta music di : Bool) (address : Nat) : Nat :=
  ta.toNat * 16 + music.toNat * 8 + di.toNat * 4 + address

/-- The meaning of the decoder information bits by address. -/
def diName : Nat → String
  | 0 => "dynamic_pty"
  | 1 => "compressed"
  | 2 => "artificial_head"
  | _ => "stereo"

/-- Type 1A, block 3: linkage actuator, variant, 12 bits. -/
def labelWord (linkage : Bool) (variant data : Nat) : Word :=
  BitVec.ofNat 16 (linkage.toNat * 32768 + variant * 4096 + data)

/-- Type 14: TP of the other network and, in 14A, the variant. -/
def eonLow (tp : Bool) (variant : Nat) : Nat := tp.toNat * 16 + variant

/-- A tag of RadioText Plus: content type, start, length marker. -/
structure PlusTag where
  contentType : Nat
  start : Nat
  length : Nat

/-- The 37 bits of RadioText Plus in a group: item toggle, item running, and two tags. -/
structure PlusGroup where
  toggle : Bool
  running : Bool
  tag1 : PlusTag
  tag2 : PlusTag

/-- The fields fit: 6 bits each, 5 bits for the second length. -/
structure PlusGroup.Valid (r : PlusGroup) : Prop where
  type1 : r.tag1.contentType < 64
  start1 : r.tag1.start < 64
  length1 : r.tag1.length < 64
  type2 : r.tag2.contentType < 64
  start2 : r.tag2.start < 64
  length2 : r.tag2.length < 32

/-- The 37 bits as a number. -/
def PlusGroup.bits (r : PlusGroup) : Nat :=
  r.toggle.toNat * 2 ^ 36 + r.running.toNat * 2 ^ 35 + r.tag1.contentType * 2 ^ 29 +
    r.tag1.start * 2 ^ 23 + r.tag1.length * 2 ^ 17 + r.tag2.contentType * 2 ^ 11 +
    r.tag2.start * 2 ^ 5 + r.tag2.length

/-- A group that carries 37 bits: 5 in block 2, 16 in block 3, 16 in block 4. -/
structure Broadcast.Carries (s : Broadcast) (bits : Nat) : Prop where
  low : s.low = bits / 2 ^ 32
  block3 : s.block3 = BitVec.ofNat 16 (bits / 2 ^ 16)
  block4 : s.block4 = BitVec.ofNat 16 bits

/-- The cross reference to a DAB ensemble (application 0093): 0, mode, frequency in 16 kHz, ensemble. -/
def dabBits (mode frequency : Nat) (ensemble : Word) : Nat :=
  mode * 2 ^ 34 + frequency * 2 ^ 16 + ensemble.toNat

/-- The DAB channels by frequency in kHz (EN 300 401, ITU Wiesbaden 1995 plan): in Band III, channels 5
to 12 have four blocks of 1712 kHz and channel 13 has six; in the L band, there are 23 in a row. -/
def dabPlan : List (Nat × String) :=
  let letters := ["A", "B", "C", "D", "E", "F", "G", "H", "I", "J", "K", "L", "M", "N", "O", "P", "Q",
    "R", "S", "T", "U", "V", "W"]
  let row (base : Nat) (name : String) (n : Nat) :=
    (letters.take n).mapIdx fun i l => (base + 1712 * i, name ++ l)
  row 174928 "5" 4 ++ row 181936 "6" 4 ++ row 188928 "7" 4 ++ row 195936 "8" 4 ++ row 202928 "9" 4 ++
    row 209936 "10" 4 ++ row 216928 "11" 4 ++ row 223936 "12" 4 ++ row 230784 "13" 3 ++
    [(235776, "13D"), (237488, "13E"), (239200, "13F")] ++ row 1452960 "L" 23

/-- The DAB transmission modes. -/
def dabMode : Nat → String
  | 0 => "unspecified"
  | 1 => "I"
  | 2 => "II or III"
  | _ => "IV"

end Redsea.Spec
