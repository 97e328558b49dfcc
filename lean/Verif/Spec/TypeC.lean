import Verif.Spec.Rft
import Verif.Spec.Texts

/-
Type C groups (IEC 62106-1, RDS2), as a broadcaster would put them together: file transfer data, data of
an application on a channel, assignment of an application to a channel. Independent of `decodeC`.
-/

namespace Redsea.Spec

/-- The four blocks of a type C group. -/
abbrev CWords := Word × Word × Word × Word

/-- Two bytes in a block. -/
def bytePair (a b : Byte) : Word := BitVec.ofNat 16 (2 ^ 8 * a.toNat + b.toNat)

/-- A segment of five bytes of the file on one of 16 pipes: function header 10pppp, toggle bit, segment
address of 15 bits, data. -/
def segmentWords (pipe : Nat) (toggle : Bool) (address : Nat) (d0 d1 d2 d3 d4 : Byte) : CWords :=
  (BitVec.ofNat 16 (2 ^ 13 + 2 ^ 8 * pipe + 2 ^ 7 * toggle.toNat + address / 2 ^ 8),
   BitVec.ofNat 16 (2 ^ 8 * (address % 2 ^ 8) + d0.toNat), bytePair d1 d2, bytePair d3 d4)

/-- Data for the application on a channel: function identifier 1, channel, 7 bytes. -/
def channelDataWords (channel : Nat) (d0 d1 d2 d3 d4 d5 d6 : Byte) : CWords :=
  (BitVec.ofNat 16 (2 ^ 14 + 2 ^ 8 * channel + d0.toNat), bytePair d1 d2, bytePair d3 d4, bytePair d5 d6)

/-- Assignment of an application to a channel (function identifier 2, number 0, method 0), with 32 bits for
the application. -/
def assignmentWords (channel : Nat) (app b3 b4 : Word) : CWords :=
  (BitVec.ofNat 16 (2 ^ 15 + channel), app, b3, b4)

/-- The assignment of variant 0: information on a file. -/
def fileInfoWords (channel : Nat) (app : Word) (crc : Bool) (version id size : Nat) : CWords :=
  assignmentWords channel app
    (BitVec.ofNat 16 (2 ^ 11 * crc.toNat + 2 ^ 8 * version + 2 ^ 2 * id + size / 2 ^ 16))
    (BitVec.ofNat 16 (size % 2 ^ 16))

/-- The assignment of variant 1: a checksum of a file or of a chunk of it. -/
def fileCrcWords (channel : Nat) (app : Word) (mode chunk : Nat) (crc : Word) : CWords :=
  assignmentWords channel app (BitVec.ofNat 16 (2 ^ 12 + 2 ^ 9 * mode + chunk)) crc

/-- The assignment of another variant, with 28 bits of data. -/
def variantWords (channel : Nat) (app : Word) (variant data : Nat) : CWords :=
  assignmentWords channel app (BitVec.ofNat 16 (2 ^ 12 * variant + data / 2 ^ 16))
    (BitVec.ofNat 16 (data % 2 ^ 16))

/-- Bytes as numbers in a JSON array. -/
def bytesAsArray (l : List Byte) : J := .arr (l.map fun b => .nat b.toNat)

/-- The blocks of a type C group of which all four were received. -/
def typeCPart (_before : List Group) (g : Group) : List CWords :=
  if g.hasType = true ∧ g.type.version = .C ∧ g.block1.isReceived = true ∧ g.block2.isReceived = true ∧
      g.block3.isReceived = true ∧ g.block4.isReceived = true then
    [(g.block1.data, g.block2.data, g.block3.data, g.block4.data)]
  else []

/-- The application assigned to a channel by some blocks. -/
def channelAssigned (channel : Nat) (w : CWords) : Option Word :=
  if w.1 = BitVec.ofNat 16 (2 ^ 15 + channel) then some w.2.1 else none

/-- The application assigned to a channel last. -/
def channelApp (ws : List CWords) (channel : Nat) : Option Word :=
  (ws.filterMap (channelAssigned channel)).getLast?

/-- The file transfer event of some blocks, and its pipe. -/
inductive FileEvent : CWords → Nat → RftEvent → Prop
  | segment (pipe : Nat) (toggle : Bool) (address : Nat) (d0 d1 d2 d3 d4 : Byte) (hp : pipe < 16)
      (ha : address < 2 ^ 15) :
      FileEvent (segmentWords pipe toggle address d0 d1 d2 d3 d4) pipe
        (.segment toggle.toNat address (segmentWords pipe toggle address d0 d1 d2 d3 d4).2.1
          (bytePair d1 d2) (bytePair d3 d4))
  | info (pipe : Nat) (app : Word) (crc : Bool) (version id size : Nat) (hp : pipe < 16)
      (hv : version < 8) (hi : id < 64) (hs : size < 2 ^ 18) :
      FileEvent (fileInfoWords pipe app crc version id size) pipe (.info size crc)
  | crc (pipe : Nat) (app : Word) (mode chunk : Nat) (crc : Word) (hp : pipe < 16) (hm : mode < 8)
      (hc : chunk < 512) :
      FileEvent (fileCrcWords pipe app mode chunk crc) pipe (.crc mode chunk crc)

/-- The toggle bit of a segment. -/
def toggleIn : RftEvent → Option Nat
  | .segment toggle _ _ _ _ => some toggle
  | _ => none

/-- The toggle bit of the latest segment. -/
def lastToggle (evs : List RftEvent) : Option Nat := (evs.filterMap toggleIn).getLast?

/-- The bytes of a segment are those of the file at its place (there may be filling after the end). -/
def PartOfFile (file : List Byte) (address : Nat) (bytes : List Byte) : Prop :=
  ∀ i, i < 5 → 5 * address + i < file.length → bytes[i]? = file[5 * address + i]?

/-- The events all belong to the transfer of one file: its size, its segments with one toggle bit,
checksums. -/
def TransferOf (file : List Byte) (toggle : Nat) (evs : List RftEvent) : Prop :=
  ∀ e ∈ evs, match e with
    | .segment t a b2 b3 b4 => t = toggle ∧ PartOfFile file a (segmentBytes b2 b3 b4)
    | .info size _ => size = file.length
    | .crc _ _ _ => True

end Redsea.Spec
