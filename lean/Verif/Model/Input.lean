import Verif.Model.Group
import Verif.Model.Text

/-
Textual input and output of groups, the bit reader and the PCM reader:
src/groups.cc (`Group::printHex`), src/io/output.hh, src/io/input.cc,
and the loops of src/redsea.cc that drive the readers.

The standard input is the list of its bytes. `std::cin.eof()` becomes true when
`std::getline` runs into the end of the input before a newline.
-/

namespace Redsea

/-! ### Hex output -/

/-- One digit of an unsigned number printed with `std::hex` and `std::uppercase`. -/
def hexDigit (v : Nat) : Byte :=
  if v < 10 then BitVec.ofNat 8 (0x30 + v) else BitVec.ofNat 8 (0x41 + (v - 10))

/-- `std::hex << std::setw(n) << v` with fill `'0'` and `std::uppercase`, for `v < 16^n` (true at
every call site: 4 digits for a `uint16_t`, and see `getHexString`). -/
def hexPadded (n v : Nat) : Str :=
  match n with
  | 0 => []
  | n + 1 => hexPadded n (v / 16) ++ [hexDigit (v % 16)]

/-- `Group::printHex`, src/groups.cc:206-228. -/
def Group.printHex (g : Group) : Str :=
  let block (n : BlockNum) : Str :=
    if (g.block n).isReceived then hexPadded 4 (g.block n).data.toNat else ascii "----"
  block .b1 ++ ascii " " ++ block .b2 ++ ascii " " ++ block .b3 ++ ascii " " ++ block .b4

/-- An unsigned number printed in decimal (`output_stream << group.getDataStream()`). -/
def decimal (n : Nat) : Str := ascii (toString n)

/-- `printAsHex`, src/io/output.hh:12-21. `timestamp` is the text of the receiving time when the
timestamp option is on. -/
def printAsHex (g : Group) (timestamp : Option Str) : Str :=
  if g.isEmpty then []
  else
    (if g.dataStream > 0 then ascii "#S" ++ decimal g.dataStream ++ ascii " " else [])
      ++ g.printHex
      ++ (match timestamp with | some t => ascii " " ++ t | none => [])
      ++ ascii "\n"

/-! ### Line input -/

/-- `std::getline(std::cin, line)`: the line, the remaining input, and whether the end of the
input was hit (`std::cin.eof()` afterwards). -/
def getLine : Str → Str × Str × Bool
  | [] => ([], [], true)
  | c :: cs =>
    if c = 0x0A then ([], cs, false)
    else
      let (line, rest, eof) := getLine cs
      (c :: line, rest, eof)

theorem getLine_rest_length (s : Str) (h : (getLine s).2.2 = false) :
    (getLine s).2.1.length < s.length := by
  induction s with
  | nil => simp [getLine] at h
  | cons c cs ih =>
    unfold getLine at h ⊢
    split
    · simp
    · rename_i hc
      simp only [hc, if_false] at h
      exact Nat.lt_succ_of_lt (ih h)

/-- `std::stoi(single, nullptr, 16)` for a string of one character: only hexadecimal digits
convert, everything else (also white space and signs) throws. -/
def hexDigitValue (c : Byte) : Option Nat :=
  let v := c.toNat
  if 0x30 ≤ v ∧ v ≤ 0x39 then some (v - 0x30)
  else if 0x41 ≤ v ∧ v ≤ 0x46 then some (v - 0x41 + 10)
  else if 0x61 ≤ v ∧ v ≤ 0x66 then some (v - 0x61 + 10)
  else none

/-- The inner loop of `readHexGroup`, src/io/input.cc:217-236: reads up to `n` non-blank
characters. Returns the block data, `block_still_valid` and the rest of the line. -/
def readNibbles : Nat → Str → Word → Bool → Word × Bool × Str
  | 0, line, data, valid => (data, valid, line)
  | _ + 1, [], data, valid => (data, valid, [])
  | n + 1, c :: line, data, valid =>
    if c = 0x20 then readNibbles (n + 1) line data valid
    else
      match hexDigitValue c with
      | some v => readNibbles n line (BitVec.ofNat 16 (data.toNat * 16 + v)) valid
      | none => readNibbles n line data false

/-- One turn of the loop over the blocks, src/io/input.cc:212-244. -/
def readHexBlock (g : Group) (n : BlockNum) (line : Str) : Group × Str :=
  let (data, valid, rest) := readNibbles 4 line 0 true
  if valid then (g.setBlock n { data := data, isReceived := true }, rest) else (g, rest)

/-- A line of at least 16 characters, src/io/input.cc:201-245. -/
def parseHexLine (g : Group) (line : Str) : Group :=
  let prefixed := decide (line.length ≥ 20) &&
    (line.take 4 == ascii "#S1 " || line.take 4 == ascii "#S2 " || line.take 4 == ascii "#S3 ")
  let stream := if prefixed then ((line.getD 2 0).toNat - 0x30) else 0
  let line := if prefixed then line.drop 4 else line
  let g := g.setDataStream stream
  let (g, line) := readHexBlock g .b1 line
  let (g, line) := readHexBlock g .b2 line
  let (g, line) := readHexBlock g .b3 line
  (readHexBlock g .b4 line).1

/-- `readHexGroup`, src/io/input.cc:187-250, without echo; the time stamp (system clock) is set
by the caller of this model. Returns the group, the remaining input and `std::cin.eof()`.
The loop ends after the first line of at least 16 characters or at the end of the input. -/
def readHexLoop (input : Str) : Group × Str × Bool :=
  let g : Group := Group.disableOffsets {}
  match h : getLine input with
  | (line, rest, eof) =>
    if line.length < 16 then
      if he : eof = true then (g, rest, eof)
      else
        have : rest.length < input.length := by
          have := getLine_rest_length input (by simp [h, he])
          simpa [h] using this
        readHexLoop rest
    else (parseHexLine g line, rest, eof)
termination_by input.length

/-- `readHexGroup`. -/
def readHexGroup (input : Str) (now : Option Int) : Group × Str × Bool :=
  let (g, rest, eof) := readHexLoop input
  match now with
  | some t => (g.setTime t, rest, eof)
  | none => (g, rest, eof)

theorem getLine_rest_le (s : Str) : (getLine s).2.1.length ≤ s.length := by
  induction s with
  | nil => simp [getLine]
  | cons c cs ih =>
    unfold getLine
    split
    · simp
    · exact Nat.le_succ_of_le ih

theorem readHexLoop_rest_length (input : Str) (h : (readHexLoop input).2.2 = false) :
    (readHexLoop input).2.1.length < input.length := by
  rw [readHexLoop] at h ⊢
  split at h
  rename_i l r e heq
  have hr : e = false → r.length < input.length := by
    intro he
    have := getLine_rest_length input (by rw [heq]; exact he)
    rwa [heq] at this
  by_cases hl : l.length < 16
  · rw [if_pos hl] at h ⊢
    by_cases he : e = true
    · simp [he] at h
    · rw [dif_neg he] at h ⊢
      have h1 := hr (by simpa using he)
      exact Nat.lt_trans (readHexLoop_rest_length r h) h1
  · rw [if_neg hl] at h ⊢
    exact hr h
termination_by input.length

/-- `processHexInput`, src/redsea.cc:182-190: the groups given to `Channel::processGroup`, in
order (before time stamps are set). -/
def hexInputGroups (input : Str) : List Group :=
  match h : readHexLoop input with
  | (g, rest, eof) =>
    if he : eof = true then [g]
    else
      have : rest.length < input.length := by
        have := readHexLoop_rest_length input (by simp [h, he])
        simpa [h] using this
      g :: hexInputGroups rest
termination_by input.length

/-! ### TEF6686 input -/

/-- `isspace` in the C locale, as used by `strtol`. -/
def isSpaceC (c : Byte) : Bool := c == 0x20 || (decide (0x09 ≤ c.toNat) && decide (c.toNat ≤ 0x0D))

/-- The digits of `strtol(…, 16)`: the value of the longest prefix of hexadecimal digits, `none`
if there is no digit. -/
def hexPrefix : Str → Option Nat → Option Nat
  | [], acc => acc
  | c :: cs, acc =>
    match hexDigitValue c with
    | some v => hexPrefix cs (some (acc.getD 0 * 16 + v))
    | none => acc

/-- The optional prefix `0x` of `strtol(…, 16)` (skipped only in front of a digit). -/
def skip0x : Str → Str
  | z :: x :: d :: cs =>
    if z = 0x30 ∧ (x = 0x78 ∨ x = 0x58) ∧ (hexDigitValue d).isSome then d :: cs
    else z :: x :: d :: cs
  | s => s

/-- `std::stol(s, nullptr, 16)`: leading white space, optional sign, optional `0x`, digits;
`none` for the exceptions `invalid_argument` (no digits) and `out_of_range` (64-bit `long`). -/
def stol16 (s : Str) : Option Int :=
  let s := s.dropWhile isSpaceC
  let (neg, s) := match s with
    | c :: cs => if c = 0x2D then (true, cs) else if c = 0x2B then (false, cs) else (false, s)
    | [] => (false, [])
  match hexPrefix (skip0x s) none with
  | none => none
  | some v =>
    let r : Int := if neg then -(v : Int) else v
    if r < -2 ^ 63 ∨ r ≥ 2 ^ 63 then none else some r

/-- A line starting with `P`, src/io/input.cc:264-275. -/
def tefPLine (g : Group) (line : Str) : Group :=
  match stol16 (line.drop 1) with
  | none => g
  | some v => g.setBlock .b1 { data := BitVec.ofInt 16 v, isReceived := true }

/-- A line of at least 15 characters starting with `R`, src/io/input.cc:276-300. -/
def tefRLine (g : Group) (line : Str) : Group :=
  match stol16 ((line.drop 1).take 4), stol16 ((line.drop 5).take 4), stol16 ((line.drop 9).take 4),
      stol16 ((line.drop 13).take 2) with
  | some d2, some d3, some d4, some e =>
    let err := BitVec.ofInt 32 e
    let g := g.setBlock .b2
      { data := BitVec.ofInt 16 d2, isReceived := (err >>> 4) &&& 0xFF#32 == 0#32 }
    let g := g.setBlock .b3
      { data := BitVec.ofInt 16 d3, isReceived := (err >>> 2) &&& 0xFF#32 == 0#32 }
    g.setBlock .b4 { data := BitVec.ofInt 16 d4, isReceived := err &&& 0xFF#32 == 0#32 }
  | _, _, _, _ => g

/-- The loop of `readTEFGroup`, src/io/input.cc:257-300. -/
def readTEFLoop (g : Group) (input : Str) : Group × Str × Bool :=
  match h : getLine input with
  | (line, rest, eof) =>
    if line.take 1 = ascii "R" ∧ line.length ≥ 15 then (tefRLine g line, rest, eof)
    else
      let g := if line.take 1 = ascii "P" then tefPLine g line else g
      if he : eof = true then (g, rest, eof)
      else
        have : rest.length < input.length := by
          have := getLine_rest_length input (by simp [h, he])
          simpa [h] using this
        readTEFLoop g rest
termination_by input.length

/-- `readTEFGroup`, src/io/input.cc:253-303. -/
def readTEFGroup (input : Str) : Group × Str × Bool :=
  readTEFLoop (Group.disableOffsets {}) input

/-! ### ASCII bits -/

/-- `AsciiBitReader::readBit`, src/io/input.cc:165-177: the returned bit, the remaining input and
`is_eof_`. -/
def readBit : Str → Bool × Str × Bool
  | [] => (false, [], true)
  | c :: cs =>
    if c = 0x30 then (false, cs, false)
    else if c = 0x31 then (true, cs, false)
    else readBit cs

theorem readBit_rest_length (s : Str) (h : (readBit s).2.2 = false) :
    (readBit s).2.1.length < s.length := by
  induction s with
  | nil => simp [readBit] at h
  | cons c cs ih =>
    unfold readBit at h ⊢
    split
    · simp
    · split
      · simp
      · rename_i h0 h1
        simp only [h0, h1, if_false] at h
        have := ih h
        simp only [List.length_cons]
        omega

/-- `processASCIIBitsInput`, src/redsea.cc:168-179: the bits given to `Channel::processBit`, in
order. -/
def asciiBitsFed (input : Str) : List Bool :=
  match h : readBit input with
  | (bit, rest, eof) =>
    if he : eof = true then [bit]
    else
      have : rest.length < input.length := by
        have := readBit_rest_length input (by simp [h, he])
        simpa [h] using this
      bit :: asciiBitsFed rest
termination_by input.length

/-! ### PCM input -/

/-- `kInputChunkSize`, src/io/input.hh:35. -/
def kInputChunkSize : Nat := 8192

/-- `kBufferSize`, src/io/input.hh:38: `(size_t)(8192 * (171000.f / 128000.f)) + 1`
(`171/128` is exact in binary). -/
def kBufferSize : Nat := 8192 * 171 / 128 + 1

/-- `chunk_size_`, src/io/input.cc:92. -/
def mpxChunkSize (channels : Nat) : Nat := kInputChunkSize / channels * channels

/-- The state of `MPXReader` that matters for the samples. The samples themselves are opaque. -/
structure MPXReader (α : Type) where
  numChannels : Nat
  chunkSize : Nat
  isEof : Bool
  /-- The used part of `buffer_`. -/
  buffer : List α
  /-- Samples `sf_read_float` has not delivered yet. -/
  file : List α

/-- `MPXReader::init`, src/io/input.cc:46-96, for a file that can be opened. -/
def MPXReader.init {α : Type} (channels : Nat) (file : List α) : MPXReader α where
  numChannels := channels
  chunkSize := mpxChunkSize channels
  isEof := decide (channels ≥ kBufferSize)
  buffer := []
  file := file

/-- `MPXReader::fillBuffer`, src/io/input.cc:115-127. `sf_read_float` delivers the requested
number of samples, fewer only at the end of the file. -/
def MPXReader.fillBuffer {α : Type} (r : MPXReader α) : MPXReader α :=
  let read := r.file.take r.chunkSize
  { r with buffer := read, file := r.file.drop r.chunkSize
           isEof := if read.length < r.chunkSize then true else r.isEof }

/-- `MPXReader::readChunk`, src/io/input.cc:130-147: the used samples of the returned buffer;
`none` for the exception and for an access outside `buffer_` or `buffer_singlechan_`. -/
def MPXReader.readChunk {α : Type} (r : MPXReader α) (channel : Nat) : Option (List α) :=
  if channel ≥ r.numChannels then none
  else if r.isEof then some r.buffer
  else if r.numChannels = 1 then some r.buffer
  else if r.buffer.length / r.numChannels > kBufferSize then none
  else (List.range (r.buffer.length / r.numChannels)).mapM
    fun i => r.buffer[i * r.numChannels + channel]?

/-- The loop of `processMPXInput`, src/redsea.cc:147-160, reduced to what channel `channel`
receives: the samples of all its chunks. `fuel` bounds the number of turns; `none` when it is
not enough (or on an exception). -/
def mpxSamples {α : Type} (channel : Nat) : Nat → MPXReader α → Option (List α)
  | 0, _ => none
  | fuel + 1, r =>
    if r.isEof then some []
    else do
      let r := r.fillBuffer
      let here ← r.readChunk channel
      let later ← mpxSamples channel fuel r
      return here ++ later

end Redsea
