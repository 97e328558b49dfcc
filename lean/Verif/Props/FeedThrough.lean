import Verif.Model.FeedThrough
import Verif.Props.OtherInput

/-
C79: what `--feed-through` writes to the standard output.
-/

namespace Redsea

/-- A line that was read, what remains, and whether the input ended: nothing is lost. -/
theorem getLine_whole (s : Str) :
    s = (getLine s).1 ++ (if (getLine s).2.2 = true then [] else [0x0A]) ++ (getLine s).2.1 ∧
    ((getLine s).2.2 = true → (getLine s).2.1 = []) := by
  induction s with
  | nil => exact ⟨rfl, fun _ => rfl⟩
  | cons c cs ih =>
    unfold getLine
    by_cases hc : c = 0x0A
    · rw [if_pos hc, hc]
      exact ⟨rfl, fun h => by cases h⟩
    · rw [if_neg hc]
      dsimp only
      refine ⟨?_, ih.2⟩
      conv => lhs; rw [ih.1]
      rfl

theorem hexLoopEcho_eq {input line rest : Str} {eof : Bool} (h : getLine input = (line, rest, eof)) :
    hexLoopEcho input = line ++ [0x0A] ++ if line.length < 16 then if eof = true then [] else hexLoopEcho rest
      else [] := by
  rw [hexLoopEcho]
  split
  rename_i l r e heq
  rw [h] at heq
  cases heq
  by_cases he : eof = true
  · rw [dif_pos he, if_pos he]
  · rw [dif_neg he, if_neg he]

theorem readHexLoop_line_eq {input line rest : Str} {eof : Bool} (h : getLine input = (line, rest, eof)) :
    readHexLoop input = if line.length < 16 then
        if eof = true then (Group.disableOffsets {}, rest, eof) else readHexLoop rest
      else (parseHexLine (Group.disableOffsets {}) line, rest, eof) := by
  rw [readHexLoop]
  split
  rename_i l r e heq
  rw [h] at heq
  cases heq
  by_cases he : eof = true
  · rw [dif_pos he, if_pos he]
  · rw [dif_neg he, if_neg he]

theorem tefLoopEcho_eq {input line rest : Str} {eof : Bool} (h : getLine input = (line, rest, eof)) :
    tefLoopEcho input = line ++ [0x0A] ++ if line.take 1 = ascii "R" ∧ line.length ≥ 15 then [] else
      if eof = true then [] else tefLoopEcho rest := by
  rw [tefLoopEcho]
  split
  rename_i l r e heq
  rw [h] at heq
  cases heq
  by_cases he : eof = true
  · rw [dif_pos he, if_pos he]
  · rw [dif_neg he, if_neg he]

theorem readTEFLoop_eq {input line rest : Str} {eof : Bool} (g : Group) (h : getLine input = (line, rest, eof)) :
    readTEFLoop g input = if line.take 1 = ascii "R" ∧ line.length ≥ 15 then (tefRLine g line, rest, eof) else
      if eof = true then (if line.take 1 = ascii "P" then tefPLine g line else g, rest, eof)
      else readTEFLoop (if line.take 1 = ascii "P" then tefPLine g line else g) rest := by
  rw [readTEFLoop]
  split
  rename_i l r e heq
  rw [h] at heq
  cases heq
  by_cases he : eof = true
  · rw [dif_pos he, if_pos he]
  · rw [dif_neg he, if_neg he]

theorem hexLoopEcho_whole (input : Str) :
    ((readHexLoop input).2.2 = true → hexLoopEcho input = input ++ [0x0A]) ∧
    ((readHexLoop input).2.2 = false → input = hexLoopEcho input ++ (readHexLoop input).2.1) := by
  obtain ⟨hw, he0⟩ := getLine_whole input
  obtain ⟨line, rest, eof, heq⟩ : ∃ line rest eof, getLine input = (line, rest, eof) := ⟨_, _, _, rfl⟩
  rw [heq] at hw he0
  dsimp only at hw he0
  rw [hexLoopEcho_eq heq, readHexLoop_line_eq heq]
  by_cases hl : line.length < 16
  · simp only [if_pos hl]
    by_cases he : eof = true
    · simp only [if_pos he]
      rw [he0 he, if_pos he, List.append_nil, List.append_nil] at hw
      refine ⟨fun _ => by rw [hw]; simp, fun h => ?_⟩
      rw [he] at h
      cases h
    · simp only [if_neg he]
      rw [if_neg he] at hw
      have hlt : rest.length < input.length := by
        rw [hw]
        simp only [List.length_append, List.length_cons, List.length_nil]
        omega
      obtain ⟨i1, i2⟩ := hexLoopEcho_whole rest
      constructor
      · intro h
        rw [i1 h]
        conv => rhs; rw [hw]
        simp only [List.append_assoc]
      · intro h
        conv => lhs; rw [hw, i2 h]
        simp only [List.append_assoc]
  · simp only [if_neg hl]
    constructor
    · intro he
      have he : eof = true := he
      rw [he0 he, if_pos he, List.append_nil, List.append_nil] at hw
      rw [hw, List.append_nil]
    · intro he
      have he : eof = false := he
      rw [if_neg (by rw [he]; decide)] at hw
      rw [List.append_nil]
      exact hw
termination_by input.length

/-- **C79**: for hexadecimal input the echo is the input and one more line break. -/
theorem C79_hex (input : Str) : hexEcho input = input ++ ascii "\n" := by
  obtain ⟨h1, h2⟩ := hexLoopEcho_whole input
  rw [hexEcho]
  split
  rename_i g rest eof heq
  rw [heq] at h1 h2
  by_cases he : eof = true
  · rw [dif_pos he, h1 he]
    rfl
  · rw [dif_neg he]
    have hf : eof = false := by simpa using he
    have hin := h2 hf
    have hlt : rest.length < input.length := by
      have := readHexLoop_rest_length input (by rw [heq]; exact hf)
      rwa [heq] at this
    rw [C79_hex rest]
    conv => rhs; rw [hin]
    rw [List.append_assoc]
termination_by input.length

theorem tefLoopEcho_whole (g : Group) (input : Str) :
    ((readTEFLoop g input).2.2 = true → tefLoopEcho input = input ++ [0x0A]) ∧
    ((readTEFLoop g input).2.2 = false → input = tefLoopEcho input ++ (readTEFLoop g input).2.1) := by
  obtain ⟨hw, he0⟩ := getLine_whole input
  obtain ⟨line, rest, eof, heq⟩ : ∃ line rest eof, getLine input = (line, rest, eof) := ⟨_, _, _, rfl⟩
  rw [heq] at hw he0
  dsimp only at hw he0
  rw [tefLoopEcho_eq heq, readTEFLoop_eq g heq]
  by_cases hl : line.take 1 = ascii "R" ∧ line.length ≥ 15
  · simp only [if_pos hl]
    constructor
    · intro he
      have he : eof = true := he
      rw [he0 he, if_pos he, List.append_nil, List.append_nil] at hw
      rw [hw, List.append_nil]
    · intro he
      have he : eof = false := he
      rw [if_neg (by rw [he]; decide)] at hw
      rw [List.append_nil]
      exact hw
  · simp only [if_neg hl]
    by_cases he : eof = true
    · simp only [if_pos he]
      rw [he0 he, if_pos he, List.append_nil, List.append_nil] at hw
      refine ⟨fun _ => by rw [hw]; simp, fun h => ?_⟩
      rw [he] at h
      cases h
    · simp only [if_neg he]
      rw [if_neg he] at hw
      have hlt : rest.length < input.length := by
        rw [hw]
        simp only [List.length_append, List.length_cons, List.length_nil]
        omega
      obtain ⟨i1, i2⟩ := tefLoopEcho_whole (if line.take 1 = ascii "P" then tefPLine g line else g) rest
      constructor
      · intro h
        rw [i1 h]
        conv => rhs; rw [hw]
        simp only [List.append_assoc]
      · intro h
        conv => lhs; rw [hw, i2 h]
        simp only [List.append_assoc]
termination_by input.length

/-- **C79**: for TEF6686 input the echo is the input and one more line break. -/
theorem C79_tef (input : Str) : tefEcho input = input ++ ascii "\n" := by
  obtain ⟨h1, h2⟩ := tefLoopEcho_whole (Group.disableOffsets {}) input
  rw [tefEcho]
  split
  rename_i g rest eof heq
  rw [show readTEFLoop _ input = _ from heq] at h1 h2
  by_cases he : eof = true
  · rw [dif_pos he, h1 he]
    rfl
  · rw [dif_neg he]
    have hf : eof = false := by simpa using he
    have hin := h2 hf
    have hlt : rest.length < input.length := by
      have := readTEFLoop_rest_length (Group.disableOffsets {}) input
        (by rw [show readTEFLoop _ input = _ from heq]; exact hf)
      rwa [show readTEFLoop _ input = _ from heq] at this
    rw [C79_tef rest]
    conv => rhs; rw [hin]
    rw [List.append_assoc]
termination_by input.length

theorem bitEcho_whole (input : Str) :
    ((readBit input).2.2 = true → bitEcho input = input ++ [0xFF]) ∧
    ((readBit input).2.2 = false → input = bitEcho input ++ (readBit input).2.1) := by
  induction input with
  | nil => exact ⟨fun _ => rfl, fun h => by cases h⟩
  | cons c cs ih =>
    unfold readBit bitEcho
    by_cases h0 : c = 0x30
    · rw [if_pos h0, if_pos (.inl h0)]
      exact ⟨fun h => (Bool.noConfusion h : _), fun _ => rfl⟩
    by_cases h1 : c = 0x31
    · rw [if_neg h0, if_pos h1, if_pos (.inr h1)]
      exact ⟨fun h => (Bool.noConfusion h : _), fun _ => rfl⟩
    rw [if_neg h0, if_neg h1, if_neg (by simp only [not_or]; exact ⟨h0, h1⟩)]
    exact ⟨fun h => by rw [ih.1 h]; rfl, fun h => congrArg (c :: ·) (ih.2 h)⟩

/-- **C79**: for input of bits the echo is the input and one more byte, FF. -/
theorem C79_bits (input : Str) : bitsEcho input = input ++ [0xFF] := by
  obtain ⟨h1, h2⟩ := bitEcho_whole input
  rw [bitsEcho]
  split
  rename_i b rest eof heq
  rw [heq] at h1 h2
  by_cases he : eof = true
  · rw [dif_pos he, h1 he]
  · rw [dif_neg he]
    have hf : eof = false := by simpa using he
    have hin := h2 hf
    have hlt : rest.length < input.length := by
      have := readBit_rest_length input (by rw [heq]; exact hf)
      rwa [heq] at this
    rw [C79_bits rest]
    conv => rhs; rw [hin]
    rw [List.append_assoc]
termination_by input.length

theorem mpxEcho_whole {α : Type} : ∀ (fuel : Nat) (r : MPXReader α), 0 < r.chunkSize → r.isEof = false →
    r.file.length + 1 < fuel → mpxEcho fuel r = some r.file
  | 0, _, _, _, hf => by omega
  | fuel + 1, r, hc, he, hf => by
    unfold mpxEcho
    rw [if_neg (by rw [he]; decide)]
    show ((mpxEcho fuel r.fillBuffer).bind fun later => some (r.fillBuffer.buffer ++ later)) = _
    have hb : r.fillBuffer.buffer = r.file.take r.chunkSize := rfl
    by_cases hl : (r.file.take r.chunkSize).length < r.chunkSize
    · have hlen : r.file.length < r.chunkSize := by
        rw [List.length_take] at hl
        omega
      have hEof : r.fillBuffer.isEof = true := by
        unfold MPXReader.fillBuffer
        dsimp only
        rw [if_pos hl]
      obtain ⟨f, rfl⟩ : ∃ f, fuel = f + 1 := ⟨fuel - 1, by omega⟩
      unfold mpxEcho
      rw [if_pos hEof, hb, List.take_of_length_le (by omega)]
      simp
    · have hEof : r.fillBuffer.isEof = false := by
        unfold MPXReader.fillBuffer
        dsimp only
        rw [if_neg hl, he]
      have hfile : r.fillBuffer.file = r.file.drop r.chunkSize := rfl
      have hsize : r.fillBuffer.chunkSize = r.chunkSize := rfl
      rw [mpxEcho_whole fuel r.fillBuffer (by rw [hsize]; exact hc) hEof ?_, hb, hfile]
      · show some (_ ++ _) = _
        rw [List.take_append_drop]
      · rw [hfile, List.length_drop]
        rw [List.length_take] at hl
        omega

/-- **C79**: for sound all samples that are read are written, in order, for all numbers of channels that the options
allow. -/
theorem C79_mpx {α : Type} (n : Nat) (hn : 1 ≤ n) (h32 : n ≤ 32) (file : List α) :
    mpxEcho (file.length + 2) (MPXReader.init n file) = some file := by
  obtain ⟨hpos, hbuf, hmul⟩ := mpxChunkSize_spec n hn h32
  refine mpxEcho_whole _ _ hpos ?_ (by show file.length + 1 < _; omega)
  have : kBufferSize = 10945 := by decide
  show decide (n ≥ kBufferSize) = false
  rw [this]
  exact decide_eq_false (by omega)

example : bitsEcho (ascii "01x\n1 ") = ascii "01x\n1 " ++ [0xFF] := C79_bits _

example : hexEcho (ascii "6204 0000 0000 0000\nshort\n") = ascii "6204 0000 0000 0000\nshort\n\n" := C79_hex _

example : mpxEcho 6 (MPXReader.init 2 [10, 20, 11, 21]) = some [10, 20, 11, 21] := C79_mpx 2 (by decide) (by decide) _

end Redsea
