import Verif.Model.Base64

/-
RDS2 file transfer: src/rft.hh, and the file transfer parts of `Station::decodeC`,
src/groups.cc:1078-1206.

The buffers are `std::vector`s that are either empty or have their full size; `Buf` is such
a vector. A function returns `none` if the C++ code would access a buffer outside its size
(or fail an `assert`).
-/

namespace Redsea

/-- `crc16_ccitt`, src/rft.hh:61-78, of `data[address .. address + length)` given as a list.
The loop body. -/
def crcStep (crc : BitVec 32) (b : Byte) : BitVec 32 :=
  let crc := ((crc >>> 8) &&& 0xFF#32) ||| (crc <<< 8)
  let crc := crc ^^^ b.setWidth 32
  let crc := crc ^^^ ((crc &&& 0xFF#32) >>> 4)
  let crc := crc ^^^ ((crc <<< 8) <<< 4)
  crc ^^^ (((crc &&& 0xFF#32) <<< 4) <<< 1)

/-- `crc16_ccitt(data, address, length)`, src/rft.hh:61-78; `none` if bytes after the end of
`data` would be read. A null pointer is not modelled. -/
def crc16Ccitt (data : List Byte) (address length : Nat) : Option (BitVec 32) :=
  if length = 0 then some 0#32
  else if address + length ≤ data.length then
    let crc := (((data.drop address).take length).foldl crcStep 0xFFFF#32)
    some ((crc ^^^ 0xFFFF#32) &&& 0xFFFF#32)
  else none

/-- `RFTSegment`, src/rft.hh:15-17. -/
structure RFTSegment where
  b0 : Byte := 0
  b1 : Byte := 0
  b2 : Byte := 0
  b3 : Byte := 0
  b4 : Byte := 0
  deriving DecidableEq, Repr

def RFTSegment.bytes (s : RFTSegment) : List Byte := [s.b0, s.b1, s.b2, s.b3, s.b4]

/-- A vector. -/
structure Buf (α : Type) where
  size : Nat
  get : Nat → α

namespace Buf
variable {α : Type}

def empty [Inhabited α] : Buf α := { size := 0, get := fun _ => default }

/-- `v[i]`. -/
def read (b : Buf α) (i : Nat) : Option α := if i < b.size then some (b.get i) else none

/-- `v[i] = x`. -/
def write (b : Buf α) (i : Nat) (x : α) : Option (Buf α) :=
  if i < b.size then some { b with get := fun j => if j = i then x else b.get j } else none

/-- `v.resize(n)` (new elements are value-initialised). -/
def resize (b : Buf α) (n : Nat) (dflt : α) : Buf α :=
  { size := n, get := fun i => if i < b.size then b.get i else dflt }

end Buf

def kMaxNumSegments : Nat := 2 ^ 15
def kMaxNumCRCs : Nat := 2 ^ 9

/-- `ChunkCRC`, src/rft.hh:22-59 (data members). -/
structure ChunkCRC where
  mode : Nat := 0
  addressRaw : Nat := 0
  crc : Word := 0
  received : Bool := false
  deriving DecidableEq, Repr, Inhabited

/-- `ChunkCRC::getActualMode`, src/rft.hh:29-40. -/
def ChunkCRC.getActualMode (c : ChunkCRC) (fileSize : Nat) : Nat :=
  if c.mode = 7 then
    if fileSize ≤ 40960 then 1 else if fileSize ≤ 81920 then 2 else 3
  else c.mode

/-- `ChunkCRC::getChunkLength`, src/rft.hh:43-49. -/
def ChunkCRC.getChunkLength (c : ChunkCRC) (fileSize : Nat) : Nat :=
  if c.mode = 0 then fileSize else 5 * (8 <<< c.getActualMode fileSize)

/-- `ChunkCRC::getByteAddress`, src/rft.hh:52-58. -/
def ChunkCRC.getByteAddress (c : ChunkCRC) (fileSize : Nat) : Nat :=
  if c.mode = 0 then 0 else c.addressRaw * c.getChunkLength fileSize

/-- `RFTFile`, src/rft.hh:80-174. -/
structure RFTFile where
  data : Buf RFTSegment := ⟨0, fun _ => {}⟩
  received : Buf Bool := ⟨0, fun _ => false⟩
  crcChunks : Buf ChunkCRC := ⟨0, fun _ => {}⟩
  expectedSize : Nat := 0
  isPrinted : Bool := false
  expectCrc : Bool := false
  prevToggle : Nat := 0

namespace RFTFile

/-- `setSize`, src/rft.hh:85-89. -/
def setSize (f : RFTFile) (size : Nat) : RFTFile :=
  if size ≤ kMaxNumSegments * 5 then { f with expectedSize := size } else f

/-- `clear`, src/rft.hh:91-97. -/
def clear (f : RFTFile) : RFTFile :=
  { f with received := { f.received with get := fun _ => false }, isPrinted := false,
           crcChunks := ⟨0, fun _ => {}⟩ }

/-- `setCRCFlag`, src/rft.hh:100-102. -/
def setCRCFlag (f : RFTFile) (flag : Bool) : RFTFile := { f with expectCrc := flag }

/-- `receiveCRC`, src/rft.hh:108-113. -/
def receiveCRC (f : RFTFile) (c : ChunkCRC) : Option RFTFile := do
  if c.addressRaw < kMaxNumCRCs then
    let chunks ← (f.crcChunks.resize kMaxNumCRCs {}).write c.addressRaw { c with received := true }
    pure { f with crcChunks := chunks }
  else none

/-- The clearing part of `receive`, src/rft.hh:123-131: buffers are allocated, and cleared if
the toggle bit has changed. -/
def prepare (f : RFTFile) (toggle : Nat) : RFTFile :=
  let f := { f with received := f.received.resize kMaxNumSegments false,
                    data := f.data.resize kMaxNumSegments {} }
  let f := if toggle ≠ f.prevToggle then f.clear else f
  { f with prevToggle := toggle }

/-- The segment in blocks 2 to 4, src/rft.hh:135-139. -/
def rftSegment (block2 block3 block4 : Word) : RFTSegment :=
  { b0 := getUint8 block2 0, b1 := getUint8 block3 8, b2 := getUint8 block3 0,
    b3 := getUint8 block4 8, b4 := getUint8 block4 0 }

/-- `receive`, src/rft.hh:118-144. -/
def receive (f : RFTFile) (toggle : Nat) (address : Nat) (block2 block3 block4 : Word) :
    Option RFTFile := do
  let f := f.prepare toggle
  if address < kMaxNumSegments then
    let data ← f.data.write address (rftSegment block2 block3 block4)
    let received ← f.received.write address true
    pure { f with data := data, received := received }
  else pure f

/-- The loop of `hasNewCompleteFile`, src/rft.hh:151-155, over the remaining `k` of `n`
segments. -/
def allReceived (f : RFTFile) (n : Nat) : Nat → Option Bool
  | 0 => some true
  | k + 1 =>
    match f.received.read (n - (k + 1)) with
    | none => none
    | some false => some false
    | some true => allReceived f n k

/-- `hasNewCompleteFile`, src/rft.hh:146-158. -/
def hasNewCompleteFile (f : RFTFile) : Option Bool :=
  if f.isPrinted || f.expectedSize == 0 || f.received.size == 0 then some false
  else
    let n := divideRoundingUp f.expectedSize 5
    f.allReceived n n

/-- The first `n` bytes of the segment array read as bytes; `none` if they are not all inside
the array. -/
def dataBytes (f : RFTFile) (n : Nat) : Option (List Byte) :=
  if n ≤ 5 * f.data.size then
    some ((List.range n).map fun k => ((f.data.get (k / 5)).bytes).getD (k % 5) 0)
  else none

/-- `getBase64Data`, src/rft.hh:161-164. An empty vector gives a null pointer (or a pointer
which is not read), for which `asBase64` returns an empty string. -/
def getBase64Data (f : RFTFile) : Option (RFTFile × Str) := do
  let f := { f with isPrinted := true }
  if f.data.size = 0 then pure (f, [])
  else
    let bytes ← f.dataBytes f.expectedSize
    pure (f, asBase64 bytes)

end RFTFile

/-- What `decodeC` does to the files, by type of group. -/
inductive RftEvent where
  /-- segment data, src/groups.cc:1089-1115 -/
  | segment (toggle address : Nat) (block2 block3 block4 : Word)
  /-- file size announcement, src/groups.cc:1144-1151 -/
  | info (size : Nat) (crcFlag : Bool)
  /-- CRC, src/groups.cc:1157-1164 -/
  | crc (mode address : Nat) (crc : Word)
  deriving DecidableEq, Repr

/-- The file transfer event in a type C group with the given blocks, and the pipe it is for;
the branch conditions of `decodeC`. -/
def rftEvent (b1 b2 b3 b4 : Word) : Option (Nat × RftEvent) :=
  let fid := getBits 2 b1 14
  let fn := getBits 6 b1 8
  if fid = 0 ∧ fn = 0 then none
  else if fid = 0 ∧ fn &&& 0b110000 = 0b100000 then
    some (fn &&& 0b1111, .segment (getBits 1 b1 7) (getBits2 15 b1 b2 8) b2 b3 b4)
  else if fid = 1 then none
  else if fid = 2 ∧ fn = 0 then
    let assMethod := getBits 2 b1 6 + 1
    let channelId := getBits 6 b1 0
    if assMethod = 1 then
      if channelId < 16 then
        let variant := getBits 4 b3 12
        if variant = 0 then
          some (channelId, .info (getBits2 18 b3 b4 0) (getBool b3 11))
        else if variant = 1 then
          some (channelId, .crc (getBits 3 b3 9) (getBits 9 b3 0) b4)
        else none
      else none
    else none
  else none

/-- Effect of an event on the file; the second component is `file_contents` in the JSON
output. -/
def RFTFile.event (f : RFTFile) : RftEvent → Option (RFTFile × Option Str)
  | .segment toggle address b2 b3 b4 => do
    let f ← f.receive toggle address b2 b3 b4
    let complete ← f.hasNewCompleteFile
    if complete then
      let (f, text) ← f.getBase64Data
      pure (f.clear, some text)
    else pure (f, none)
  | .info size crcFlag => some ((f.setSize size).setCRCFlag crcFlag, none)
  | .crc mode address crc => do
    let f ← f.receiveCRC { mode := mode, addressRaw := address, crc := crc }
    pure (f, none)

/-- The file transfer part of `decodeC`. `files` is `rft_file_` (16 entries, src/groups.hh:182);
`none` is an access outside of it or of a buffer. The second component is the pipe and
`file_contents` if the group printed a file. -/
def decodeCRft (files : List RFTFile) (b1 b2 b3 b4 : Word) :
    Option (List RFTFile × Option (Nat × Str)) :=
  match rftEvent b1 b2 b3 b4 with
  | none => some (files, none)
  | some (pipe, e) =>
    match files[pipe]? with
    | none => none
    | some f => do
      let (f, out) ← f.event e
      pure (files.set pipe f, out.map fun t => (pipe, t))

end Redsea
