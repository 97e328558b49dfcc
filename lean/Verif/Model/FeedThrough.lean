import Verif.Model.Programs

/-
The option `--feed-through`: what the readers of src/io/input.cc write to the standard output while they read, and
the loop for TEF6686 input. Samples are those that `sf_read_float` delivers; the conversion between samples and bytes
by libsndfile is not modelled.
-/

namespace Redsea

/-- The calls of `std::putchar` in `AsciiBitReader::readBit`, src/io/input.cc:165-171, during one call. At the end of
the input `EOF` (-1) is written, which `putchar` converts to `unsigned char`. -/
def bitEcho : Str → Str
  | [] => [0xFF]
  | c :: cs => if c = 0x30 ∨ c = 0x31 then [c] else c :: bitEcho cs

/-- What `processASCIIBitsInput`, src/redsea.cc:168-179, echoes. -/
def bitsEcho (input : Str) : Str :=
  match h : readBit input with
  | (_, rest, eof) =>
    if he : eof = true then bitEcho input
    else
      have : rest.length < input.length := by
        have := readBit_rest_length input (by simp [h, he])
        simpa [h] using this
      bitEcho input ++ bitsEcho rest
termination_by input.length

/-- The lines that one call of `readHexGroup` echoes, src/io/input.cc:193-200. -/
def hexLoopEcho (input : Str) : Str :=
  match h : getLine input with
  | (line, rest, eof) =>
    line ++ [0x0A] ++
    if line.length < 16 then
      if he : eof = true then []
      else
        have : rest.length < input.length := by
          have := getLine_rest_length input (by simp [h, he])
          simpa [h] using this
        hexLoopEcho rest
    else []
termination_by input.length

/-- What `processHexInput`, src/redsea.cc:181-190, echoes. -/
def hexEcho (input : Str) : Str :=
  match h : readHexLoop input with
  | (_, rest, eof) =>
    if he : eof = true then hexLoopEcho input
    else
      have : rest.length < input.length := by
        have := readHexLoop_rest_length input (by simp [h, he])
        simpa [h] using this
      hexLoopEcho input ++ hexEcho rest
termination_by input.length

/-- The lines that one call of `readTEFGroup` echoes, src/io/input.cc:257-261. -/
def tefLoopEcho (input : Str) : Str :=
  match h : getLine input with
  | (line, rest, eof) =>
    line ++ [0x0A] ++
    if line.take 1 = ascii "R" ∧ line.length ≥ 15 then []
    else if he : eof = true then []
    else
      have : rest.length < input.length := by
        have := getLine_rest_length input (by simp [h, he])
        simpa [h] using this
      tefLoopEcho rest
termination_by input.length

theorem readTEFLoop_rest_length (g : Group) (input : Str) (h : (readTEFLoop g input).2.2 = false) :
    (readTEFLoop g input).2.1.length < input.length := by
  rw [readTEFLoop] at h ⊢
  split at h
  rename_i l r e heq
  have hr : e = false → r.length < input.length := by
    intro he
    have := getLine_rest_length input (by rw [heq]; exact he)
    rwa [heq] at this
  by_cases hl : l.take 1 = ascii "R" ∧ l.length ≥ 15
  · rw [if_pos hl] at h ⊢
    exact hr h
  · rw [if_neg hl] at h ⊢
    by_cases he : e = true
    · simp [he] at h
    · rw [dif_neg he] at h ⊢
      have h1 := hr (by simpa using he)
      exact Nat.lt_trans (readTEFLoop_rest_length _ r h) h1
termination_by input.length

/-- `processTEFInput`, src/redsea.cc:193-201: the groups given to `Channel::processGroup`, in order. -/
def tefInputGroups (input : Str) : List Group :=
  match h : readTEFGroup input with
  | (g, rest, eof) =>
    if he : eof = true then [g]
    else
      have : rest.length < input.length := by
        have := readTEFLoop_rest_length _ input (by rw [show readTEFLoop _ input = _ from h]; simpa using he)
        rw [show readTEFLoop _ input = _ from h] at this
        exact this
      g :: tefInputGroups rest
termination_by input.length

/-- What `processTEFInput` echoes. -/
def tefEcho (input : Str) : Str :=
  match h : readTEFGroup input with
  | (_, rest, eof) =>
    if he : eof = true then tefLoopEcho input
    else
      have : rest.length < input.length := by
        have := readTEFLoop_rest_length _ input (by rw [show readTEFLoop _ input = _ from h]; simpa using he)
        rw [show readTEFLoop _ input = _ from h] at this
        exact this
      tefLoopEcho input ++ tefEcho rest
termination_by input.length

/-- `processTEFInput`, src/redsea.cc:193-201. Every group is given to stream 0. -/
def processTEFInput (env : Env) (delay : Nat → Int) (now : Nat → Int) (o : Options) (input : Str) :
    Option (Channel × List Trace) :=
  Channel.run env delay (Channel.new o 0)
    ((tefInputGroups input).zipIdx.map fun q => .group (now q.2) q.1 0)

/-- The samples written by `fillBuffer`, src/io/input.cc:125-126, in the loop of `processMPXInput`,
src/redsea.cc:147-160. -/
def mpxEcho {α : Type} : Nat → MPXReader α → Option (List α)
  | 0, _ => none
  | fuel + 1, r =>
    if r.isEof then some []
    else do
      let r := r.fillBuffer
      let later ← mpxEcho fuel r
      return r.buffer ++ later

end Redsea
