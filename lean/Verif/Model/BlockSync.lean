import Verif.Model.Group

/-
Block synchronisation and error correction: src/block_sync.cc, src/block_sync.hh.
-/

namespace Redsea

/-- `kMaxTolerableBLER`, src/block_sync.cc:33. -/
def kMaxTolerableBLER : Nat := 85
/-- `kMaxErrorsToleratedOver50Blocks`, src/block_sync.cc:35. -/
def kMaxErrorsToleratedOver50Blocks : Nat := kMaxTolerableBLER / 2
/-- `kBlockLength`, src/block_sync.cc:37. -/
def kBlockLength : Nat := 26
/-- `kBlockBitmask`, src/block_sync.cc:38. -/
def kBlockBitmask : BitVec 32 := ((1#32) <<< kBlockLength) - 1#32
/-- `kCheckwordLength`, src/block_sync.cc:39. -/
def kCheckwordLength : Nat := 10

/-- `getBlockNumberForOffset`, src/block_sync.cc:42-53. -/
def getBlockNumberForOffset : Offset → BlockNum
  | .A => .b1
  | .B => .b2
  | .C => .b3
  | .Cprime => .b3
  | .D => .b4
  | .invalid => .b1

/-- `getNextOffsetFor`, src/block_sync.cc:56-67. -/
def getNextOffsetFor : Offset → Offset
  | .A => .B
  | .B => .C
  | .C => .D
  | .Cprime => .D
  | .D => .A
  | .invalid => .A

/-- `getOffsetForSyndrome`, src/block_sync.cc:70-80. -/
def getOffsetForSyndrome (s : BitVec 32) : Offset :=
  if s = 0b1111011000#32 then .A
  else if s = 0b1111010100#32 then .B
  else if s = 0b1001011100#32 then .C
  else if s = 0b1111001100#32 then .Cprime
  else if s = 0b1001011000#32 then .D
  else .invalid

/-- `parity_check_matrix`, src/block_sync.cc:86-113. -/
def parityCheckMatrix : List (BitVec 32) :=
  [0b1000000000, 0b0100000000, 0b0010000000, 0b0001000000, 0b0000100000,
   0b0000010000, 0b0000001000, 0b0000000100, 0b0000000010, 0b0000000001,
   0b1011011100, 0b0101101110, 0b0010110111, 0b1010000111, 0b1110011111,
   0b1100010011, 0b1101010101, 0b1101110110, 0b0110111011, 0b1000000001,
   0b1111011100, 0b0111101110, 0b0011110111, 0b1010100111, 0b1110001111,
   0b1100011011]

/-- One addend of the loop in `calculateSyndrome`, src/block_sync.cc:122-124. -/
def syndromeTerm (vec : BitVec 32) (k : Nat) : BitVec 32 :=
  (parityCheckMatrix.getD (parityCheckMatrix.length - 1 - k) 0) * ((vec >>> k) &&& 1#32)

/-- `calculateSyndrome`, src/block_sync.cc:84-127. -/
def calculateSyndrome (vec : BitVec 32) : BitVec 32 :=
  (List.range 26).foldl (fun result k => result ^^^ syndromeTerm vec k) 0

/-- `offset_words`, src/block_sync.cc:136-142. -/
def offsetWords : List (Offset × BitVec 32) :=
  [(.A, 0b0011111100), (.B, 0b0110011000), (.C, 0b0101101000),
   (.Cprime, 0b1101010000), (.D, 0b0110110100)]

/-- The `error_vector`s of the two inner loops, in loop order,
src/block_sync.cc:150-152. -/
def errorVectors : List (BitVec 32) :=
  [0b1#32, 0b11#32].flatMap fun bits =>
    (List.range 26).map fun shift => (bits <<< shift) &&& kBlockBitmask

/-- `makeErrorLookupTable`, src/block_sync.cc:131-163, as an association list in
insertion order. `std::map::insert` keeps the first value inserted for a key; so does
`lookupError` below, which returns the first match. -/
def errorLookupTable : List ((BitVec 32 × Offset) × BitVec 32) :=
  offsetWords.flatMap fun ow =>
    errorVectors.map fun ev => ((calculateSyndrome (ev ^^^ ow.2), ow.1), ev)

/-- `error_lookup_table.find({syndrome, expected_offset})`. -/
def lookupError (s : BitVec 32) (o : Offset) : Option (BitVec 32) :=
  (errorLookupTable.find? fun e => e.1.1 == s && e.1.2 == o).map (·.2)

/-- `correctBurstErrors`, src/block_sync.cc:166-182: `some corrected_bits` iff
`succeeded`. (When it does not succeed, the caller ignores `corrected_bits`.) -/
def correctBurstErrors (raw : BitVec 32) (expected : Offset) : Option (BitVec 32) :=
  (lookupError (calculateSyndrome raw) expected).map (raw ^^^ ·)

/-- `SyncPulse`, src/block_sync.hh:30-35. -/
structure SyncPulse where
  offset : Offset := .invalid
  bitPosition : BitVec 32 := 0
  deriving DecidableEq, Repr

/-- `SyncPulse::couldFollow`, src/block_sync.cc:185-194 (`this` = `p`). The unsigned
subtraction wraps. -/
def SyncPulse.couldFollow (p other : SyncPulse) : Bool :=
  let d := p.bitPosition - other.bitPosition
  d.toNat % 26 == 0 && d.toNat / 26 ≤ 6 &&
    p.offset != .invalid && other.offset != .invalid &&
    ((getBlockNumberForOffset other.offset).toNat + d.toNat / 26) % 4 ==
      (getBlockNumberForOffset p.offset).toNat

/-- `SyncPulseBuffer`, src/block_sync.hh:37-44 (an array of four). -/
structure SyncPulseBuffer where
  p0 : SyncPulse := {}
  p1 : SyncPulse := {}
  p2 : SyncPulse := {}
  p3 : SyncPulse := {}
  deriving DecidableEq, Repr

/-- `SyncPulseBuffer::push`, src/block_sync.cc:199-210. -/
def SyncPulseBuffer.push (b : SyncPulseBuffer) (o : Offset) (bitcount : BitVec 32) :
    SyncPulseBuffer :=
  { p0 := b.p1, p1 := b.p2, p2 := b.p3, p3 := { offset := o, bitPosition := bitcount } }

/-- `SyncPulseBuffer::isSequenceFound`, src/block_sync.cc:213-224: the pairs
(i_first, i_second) visited by the loops are (0,1), (0,2), (1,2). -/
def SyncPulseBuffer.isSequenceFound (b : SyncPulseBuffer) : Bool :=
  (b.p3.couldFollow b.p1 && b.p1.couldFollow b.p0) ||
  (b.p3.couldFollow b.p2 && b.p2.couldFollow b.p0) ||
  (b.p3.couldFollow b.p2 && b.p2.couldFollow b.p1)

/-- `RunningSum<int, 50>`, src/util.hh:127-147, instantiated for the block error
window. -/
structure RunningSum where
  history : List Nat
  pointer : Nat
  deriving DecidableEq, Repr

namespace RunningSum
/-- Constructor + `clear`, src/util.hh:129-131, 145. -/
def init : RunningSum := { history := List.replicate 50 0, pointer := 0 }
/-- `getSum`, src/util.hh:132-134. -/
def getSum (r : RunningSum) : Nat := r.history.sum
/-- `push`, src/util.hh:135-138. -/
def push (r : RunningSum) (n : Nat) : RunningSum :=
  { history := r.history.set r.pointer n, pointer := (r.pointer + 1) % r.history.length }
/-- `clear`, src/util.hh:139-141; the write pointer is kept. -/
def clear (r : RunningSum) : RunningSum :=
  { r with history := List.replicate r.history.length 0 }
end RunningSum

/-- `BlockStream`, src/block_sync.hh:52-80. `options_` enters as the parameter
`useFec`. The unused member `bler_average_` is omitted. -/
structure BlockStream where
  bitcount : BitVec 32 := 0
  numBitsUntilNextBlock : BitVec 32 := 1
  inputRegister : BitVec 32 := 0
  expectedOffset : Offset := .A
  isInSync : Bool := false
  blockErrorSum50 : RunningSum := RunningSum.init
  currentGroup : Group := {}
  readyGroup : Group := {}
  hasGroupReady : Bool := false
  numBitsSinceSyncLost : BitVec 32 := 0
  syncBuffer : SyncPulseBuffer := {}
  deriving DecidableEq, Repr

namespace BlockStream

/-- `BlockStream::acquireSync`, src/block_sync.cc:231-247. -/
def acquireSync (s : BlockStream) (block : Block) : BlockStream :=
  if s.isInSync then s
  else
    let s := { s with numBitsSinceSyncLost := s.numBitsSinceSyncLost + 1 }
    if block.offset ≠ .invalid then
      let s := { s with syncBuffer := s.syncBuffer.push block.offset s.bitcount }
      if s.syncBuffer.isSequenceFound then
        { s with
          isInSync := true
          expectedOffset := block.offset
          currentGroup := {}
          numBitsSinceSyncLost := 0 }
      else s
    else s

/-- `BlockStream::handleNewlyReceivedGroup`, src/block_sync.cc:308-312. -/
def handleNewlyReceivedGroup (s : BlockStream) : BlockStream :=
  { s with readyGroup := s.currentGroup, hasGroupReady := true, currentGroup := {} }

/-- The block found in the input register, first lines of
`findBlockInInputRegister`, src/block_sync.cc:264-266. -/
def registerBlock (reg : BitVec 32) : Block :=
  let raw := reg &&& kBlockBitmask
  { raw := raw, offset := getOffsetForSyndrome (calculateSyndrome raw) }

/-- Correction part of `findBlockInInputRegister`, src/block_sync.cc:284-292: sets
`data`, and on successful correction replaces data and offset. -/
def correctBlock (useFec : Bool) (block : Block) (expected : Offset) : Block :=
  let block := { block with data := (block.raw >>> kCheckwordLength).setWidth 16 }
  if block.hadErrors && useFec then
    match correctBurstErrors block.raw expected with
    | some bits =>
      { block with data := (bits >>> kCheckwordLength).setWidth 16, offset := expected }
    | none => block
  else block

/-- Storing of an accepted block, src/block_sync.cc:294-298. -/
def storeBlock (s : BlockStream) (block : Block) : BlockStream :=
  if block.offset = s.expectedOffset then
    let received : Block := { block with isReceived := true }
    { s with currentGroup :=
        s.currentGroup.setBlock (getBlockNumberForOffset s.expectedOffset) received }
  else s

/-- Moving on to the next expected offset, src/block_sync.cc:300-303. -/
def advance (s : BlockStream) : BlockStream :=
  let s : BlockStream := { s with expectedOffset := getNextOffsetFor s.expectedOffset }
  if s.expectedOffset = .A then s.handleNewlyReceivedGroup else s

/-- The expected offset after the C/C' adjustment, src/block_sync.cc:271-272. -/
def adjustExpected (expected found : Offset) : Offset :=
  if expected = .C ∧ found = .Cprime then .Cprime else expected

/-- The part of `findBlockInInputRegister` executed when in sync,
src/block_sync.cc:270-304. -/
def processInSync (useFec : Bool) (s : BlockStream) (block : Block) : BlockStream :=
  let expected := adjustExpected s.expectedOffset block.offset
  let block : Block := { block with hadErrors := block.offset != expected }
  let sum := s.blockErrorSum50.push (if block.hadErrors then 1 else 0)
  let s : BlockStream := { s with expectedOffset := expected, blockErrorSum50 := sum }
  if sum.getSum > kMaxErrorsToleratedOver50Blocks then
    { s with isInSync := false, blockErrorSum50 := sum.clear }
  else
    (s.storeBlock (correctBlock useFec block expected)).advance

/-- `BlockStream::findBlockInInputRegister`, src/block_sync.cc:263-305. -/
def findBlockInInputRegister (useFec : Bool) (s : BlockStream) : BlockStream :=
  let block := registerBlock s.inputRegister
  let s := s.acquireSync block
  if s.isInSync then s.processInSync useFec block else s

/-- `BlockStream::pushBit`, src/block_sync.cc:250-260. -/
def pushBit (useFec : Bool) (s : BlockStream) (bit : Bool) : BlockStream :=
  let s := { s with
    inputRegister := (s.inputRegister <<< 1) + (if bit then 1 else 0)
    numBitsUntilNextBlock := s.numBitsUntilNextBlock - 1
    bitcount := s.bitcount + 1 }
  if s.numBitsUntilNextBlock = 0 then
    let s := s.findBlockInInputRegister useFec
    { s with numBitsUntilNextBlock := if s.isInSync then 26 else 1 }
  else s

/-- `BlockStream::popGroup`, src/block_sync.cc:318-321. -/
def popGroup (s : BlockStream) : BlockStream × Group :=
  ({ s with hasGroupReady := false }, s.readyGroup)

/-- `BlockStream::flushCurrentGroup`, src/block_sync.cc:323-325. -/
def flushCurrentGroup (s : BlockStream) : Group := s.currentGroup

/-- How every caller drives the stream (src/channel.cc:64-69 and 72-80): push one bit,
pop a group if one is ready. -/
def step (useFec : Bool) (s : BlockStream) (bit : Bool) : BlockStream × Option Group :=
  let s := s.pushBit useFec bit
  if s.hasGroupReady then
    let (s, g) := s.popGroup
    (s, some g)
  else (s, none)

/-- Feed a list of bits; collect the delivered groups in order. -/
def run (useFec : Bool) : BlockStream → List Bool → BlockStream × List Group
  | s, [] => (s, [])
  | s, b :: bs =>
    let (s, g) := s.step useFec b
    let (s, gs) := run useFec s bs
    (s, g.toList ++ gs)

end BlockStream

end Redsea
