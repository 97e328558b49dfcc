import Verif.Model.Text
import Verif.Spec.Text
import Verif.Lemmas.ListAux

namespace Redsea

open Spec

/-- Effect of one reception or clear. -/
def RDSString.op (ucs2 : Ucs2Decoder) (s : RDSString) : TextOp → RDSString
  | .recv pos b => s.set ucs2 pos b
  | .clear => s.clear

/-- The text after a history, starting from state `s`. -/
def RDSString.ops (ucs2 : Ucs2Decoder) (s : RDSString) (h : List TextOp) : RDSString :=
  h.foldl (RDSString.op ucs2) s

theorem RDSString.ops_snoc (ucs2 : Ucs2Decoder) (s : RDSString) (h : List TextOp) (o : TextOp) :
    s.ops ucs2 (h ++ [o]) = (s.ops ucs2 h).op ucs2 o := by simp [RDSString.ops]

theorem RDSString.ops_append (ucs2 : Ucs2Decoder) (s : RDSString) (h h' : List TextOp) :
    s.ops ucs2 (h ++ h') = (s.ops ucs2 h).ops ucs2 h' := by simp [RDSString.ops]

theorem LatestByte.snoc_recv {h : List TextOp} {i : Nat} {b : Byte} (hl : LatestByte h i b)
    {p : Nat} {c : Byte} (h1 : p ≠ i) (h2 : p ≠ 0) : LatestByte (h ++ [.recv p c]) i b := by
  obtain ⟨x, y, rfl, hy⟩ := hl
  refine ⟨x, y ++ [.recv p c], by simp, ?_⟩
  intro op hop
  rcases List.mem_append.1 hop with hop | hop
  · exact hy op hop
  · simp at hop; subst hop
    simp [h1, h2]

theorem LatestByte.now (h : List TextOp) (i : Nat) (b : Byte) :
    LatestByte (h ++ [.recv i b]) i b := ⟨h, [], by simp⟩

/-- The invariant relating a text buffer of size `n` to the history. -/
structure TextInv (ucs2 : Ucs2Decoder) (n : Nat) (e : Encoding) (h : List TextOp)
    (s : RDSString) : Prop where
  len : s.data.length = n
  enc : s.encoding = e
  seq : s.seqLen ≤ n
  bytes : ∀ i, i < s.seqLen → ∃ b, s.data[i]? = some b ∧ LatestByte h i b
  complete : s.isComplete = true →
    s.lastCompleteData = s.getData ∧ s.str ucs2 = some s.lastCompleteString

theorem isComplete_iff (s : RDSString) : s.isComplete = true ↔ s.getExpectedLength ≤ s.seqLen := by
  simp [RDSString.isComplete, RDSString.getReceivedLength]

theorem getExpectedLength_pos (s : RDSString) (h : 0 < s.data.length) :
    0 < s.getExpectedLength := by
  simp only [RDSString.getExpectedLength]; omega

theorem not_isComplete_of_seq_zero (s : RDSString) (h : 0 < s.data.length) (h0 : s.seqLen = 0) :
    s.isComplete = false := by
  have := getExpectedLength_pos s h
  cases hc : s.isComplete with
  | false => rfl
  | true => rw [isComplete_iff] at hc; omega

theorem textInv_clear {ucs2 : Ucs2Decoder} {n : Nat} {e : Encoding} {h : List TextOp} {s : RDSString} (hn : 0 < n)
    (hl : s.data.length = n) (he : s.encoding = e) : TextInv ucs2 n e h s.clear := by
  refine ⟨hl, he, Nat.zero_le _, fun i hi => absurd hi (Nat.not_lt_zero i), fun hc => ?_⟩
  rw [not_isComplete_of_seq_zero _ (by simpa [RDSString.clear] using hl ▸ hn) rfl] at hc
  cases hc

theorem textInv_init (ucs2 : Ucs2Decoder) (n : Nat) (hn : 0 < n) (e : Encoding) :
    TextInv ucs2 n e [] { RDSString.new n with encoding := e } := by
  refine ⟨by simp [RDSString.new], rfl, by simp [RDSString.new],
    fun i hi => absurd hi (Nat.not_lt_zero i), fun hc => ?_⟩
  rw [not_isComplete_of_seq_zero _ (by simpa [RDSString.new] using hn) rfl] at hc
  cases hc

theorem textInv_recv {ucs2 : Ucs2Decoder} {n : Nat} {e : Encoding} {h : List TextOp} {s : RDSString} (hn : 0 < n)
    (inv : TextInv ucs2 n e h s) (pos : Nat) (b : Byte) :
    TextInv ucs2 n e (h ++ [.recv pos b]) (s.set ucs2 pos b) := by
  obtain ⟨len, enc, seq, bytes, complete⟩ := inv
  by_cases hpos : pos ≥ s.data.length
  · have : s.set ucs2 pos b = s := by simp [RDSString.set, hpos]
    rw [this]
    refine ⟨len, enc, seq, fun i hi => ?_, complete⟩
    obtain ⟨c, hc, hl⟩ := bytes i hi
    exact ⟨c, hc, LatestByte.snoc_recv hl (by omega) (by omega)⟩
  · -- the buffer after storing
    have hst : ∀ i, i < (s.store pos b).seqLen →
        ∃ c, (s.store pos b).data[i]? = some c ∧ LatestByte (h ++ [.recv pos b]) i c := by
      intro i hi
      by_cases hip : i = pos
      · subst hip
        refine ⟨b, ?_, LatestByte.now h i b⟩
        simp only [RDSString.store]
        rw [List.getElem?_set_self (by omega)]
      · have hp0 : pos ≠ 0 := by
          rintro rfl
          simp [RDSString.store] at hi
          omega
        have hi' : i < s.seqLen := by
          simp only [RDSString.store] at hi
          split at hi <;> omega
        obtain ⟨c, hc, hl⟩ := bytes i hi'
        refine ⟨c, ?_, LatestByte.snoc_recv hl (Ne.symm hip) hp0⟩
        simp only [RDSString.store]
        rw [List.getElem?_set_ne (Ne.symm hip)]
        exact hc
    have hsl : (s.store pos b).data.length = n := by simpa [RDSString.store] using len
    have hsn : (s.store pos b).seqLen ≤ n := by
      simp only [RDSString.store]; split <;> omega
    have hse : (s.store pos b).encoding = e := enc
    have hset : s.set ucs2 pos b =
        if (s.store pos b).isComplete then
          match (s.store pos b).str ucs2 with
          | none => (s.store pos b).clear
          | some t => { s.store pos b with
              lastCompleteString := t, lastCompleteData := (s.store pos b).getData, prevPos := pos }
        else { s.store pos b with prevPos := pos } := by
      simp only [RDSString.set, if_neg hpos]
      rfl
    rw [hset]
    clear hset
    generalize s.store pos b = s' at *
    by_cases hcm : s'.isComplete = true
    · rw [if_pos hcm]
      cases hs : s'.str ucs2 with
      | none => exact textInv_clear hn hsl hse
      | some t =>
        refine ⟨hsl, hse, hsn, hst, fun _ => ⟨rfl, hs⟩⟩
    · rw [if_neg hcm]
      exact ⟨hsl, hse, hsn, hst, fun hc => absurd hc hcm⟩

theorem textInv_op {ucs2 : Ucs2Decoder} {n : Nat} {e : Encoding} {h : List TextOp} {s : RDSString} (hn : 0 < n)
    (inv : TextInv ucs2 n e h s) (o : TextOp) :
    TextInv ucs2 n e (h ++ [o]) (s.op ucs2 o) := by
  cases o with
  | recv pos b => exact textInv_recv hn inv pos b
  | clear => exact textInv_clear hn inv.len inv.enc

/-- The invariant holds after every history. -/
theorem textInv (ucs2 : Ucs2Decoder) (n : Nat) (hn : 0 < n) (e : Encoding) (h : List TextOp) :
    TextInv ucs2 n e h (({ RDSString.new n with encoding := e } : RDSString).ops ucs2 h) := by
  induction h using snocInduction with
  | nil => exact textInv_init ucs2 n hn e
  | snoc h o ih => rw [RDSString.ops_snoc]; exact textInv_op hn ih o

theorem getExpectedLength_le (s : RDSString) : s.getExpectedLength ≤ s.data.length := by
  simp only [RDSString.getExpectedLength]; omega

/-- The part of the buffer that makes up the text is a whole text. -/
theorem wholeText_take (s : RDSString) (h : 0 < s.data.length) :
    WholeText s.data.length (s.data.take s.getExpectedLength) := by
  have hle := getExpectedLength_le s
  have hpos := getExpectedLength_pos s h
  have hlen : (s.data.take s.getExpectedLength).length = s.getExpectedLength := by
    rw [List.length_take]; omega
  refine ⟨by omega, by omega, ?_, ?_⟩
  · by_cases he : s.getExpectedLength = s.data.length
    · left; omega
    · right
      have hlt : s.data.findIdx (· == kStringTerminator) < s.data.length := by
        simp only [RDSString.getExpectedLength] at he; omega
      have hee : s.getExpectedLength = s.data.findIdx (· == kStringTerminator) + 1 := by
        simp only [RDSString.getExpectedLength] at he ⊢; omega
      have hget := List.findIdx_getElem (w := hlt)
      rw [List.getLast?_eq_getElem?, hlen, hee, List.getElem?_take]
      simp only [Nat.add_sub_cancel]
      rw [if_pos (by omega), List.getElem?_eq_getElem hlt]
      simpa [kStringTerminator] using hget
  · intro hm
    rw [List.dropLast_eq_take, hlen, List.take_take, List.mem_take_iff_getElem] at hm
    obtain ⟨i, hi, hb⟩ := hm
    have hi' : i < s.data.findIdx (· == kStringTerminator) := by
      have : s.getExpectedLength ≤ s.data.findIdx (· == kStringTerminator) + 1 := by
        simp only [RDSString.getExpectedLength]; omega
      omega
    have := List.not_of_lt_findIdx hi'
    simp [hb, kStringTerminator] at this

/-- When everything expected has been received, the shown bytes are those of the buffer. -/
theorem getData_of_complete (s : RDSString) (hc : s.isComplete = true) :
    s.getData = (s.data.take s.getExpectedLength).map display := by
  rw [isComplete_iff] at hc
  have hle := getExpectedLength_le s
  apply List.ext_getElem
  · simp [RDSString.getData]; omega
  · intro i h1 h2
    have hi : i < s.getExpectedLength := by simpa [RDSString.getData] using h1
    have hd : i < s.data.length := by omega
    simp only [RDSString.getData, List.getElem_map, List.getElem_range, List.getElem_take,
      RDSString.shownByte, display, kStringTerminator, kBlankSpace]
    have hg : s.data.getD i 0 = s.data[i] := by simp [List.getD, hd]
    rw [hg]
    by_cases h0 : s.data[i] = 0x0D#8
    · simp [h0]
    · by_cases h1 : s.data[i] = 0#8
      · simp [h1]
      · have : s.seqLen > i := by omega
        simp [h0, h1, this]

end Redsea
