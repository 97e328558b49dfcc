import Verif.Lemmas.Utf8
import Verif.Props.Text

/-
Property C28: RT+ tags select exactly the tagged characters.
-/

namespace Redsea

open Spec

/-- **C28** (partial). For every text (given by its Unicode characters `cs`) and every tag
(start `s`, length `n`) that lies inside the text and does not reach its end: if the
character before the tag and the last tagged character are plain ASCII, the program
returns exactly characters `s .. s+n-1`. Missing for the full property: tags delimited by
multi-byte characters (`C28_multibyte_violated`) and tags that reach the end of the text
(`C28_tag_at_end_violated`). -/
theorem C28_rtplus_substring_partial (cs : List Nat) (hcs : ∀ c ∈ cs, c < 0x110000)
    (s n : Nat) (hn : 0 < n) (hlt : s + n < cs.length)
    (hfirst : ∀ c, 0 < s → cs[s - 1]? = some c → c < 0x80)
    (hlast : ∀ c, cs[s + n - 1]? = some c → c < 0x80) :
    substringChars (utf8 cs) s n = utf8 ((cs.drop s).take n) := by
  rw [substringChars_eq cs hcs s n (by omega),
    bytePos_ascii cs hcs s (by omega) hfirst,
    bytePos_ascii cs hcs (s + n) (by omega) (fun c _ h => hlast c h)]
  have h1 : utf8 cs = utf8 (cs.take s) ++ (utf8 ((cs.drop s).take n) ++ utf8 (cs.drop (s + n))) := by
    rw [← utf8_append, ← utf8_append]
    congr 1
    rw [← List.drop_drop, List.take_append_drop, List.take_append_drop]
  have h2 : utf8 (cs.take (s + n)) = utf8 (cs.take s) ++ utf8 ((cs.drop s).take n) := by
    rw [← utf8_append, List.take_add]
  have h3 : 0 < (utf8 (cs.drop (s + n))).length := by
    rw [List.drop_eq_getElem_cons hlt, utf8_cons]
    obtain ⟨lead, conts, he, _⟩ := utf8Encode_shape cs[s + n] (hcs _ (List.getElem_mem hlt))
    rw [he]; simp
  rw [if_pos (by rw [h1, h2]; simp only [List.length_append]; omega), h2, h1, List.drop_left,
    List.length_append, Nat.add_sub_cancel_left, List.take_left]

/-- Every entry of the RDS character table is a Unicode character. -/
theorem codetableG0_range (b : Byte) : codetableG0.getD b.toNat 0 < 0x110000 := by
  have : ∀ k : Fin 256, codetableG0.getD k.val 0 < 0x110000 := by decide +kernel
  exact this ⟨b.toNat, b.isLt⟩

/-- The decoding of RDS-coded bytes is the UTF-8 text of their characters. -/
theorem decode_basic_utf8 (ucs2 : Ucs2Decoder) (bs : List Byte) :
    RDSString.decode ucs2 .basic bs = some (utf8 (bs.map fun b => codetableG0.getD b.toNat 0)) := by
  simp only [RDSString.decode, utf8, List.flatMap_map, Option.some.injEq]
  rfl

/-- C28 applied to a received RadioText: for a text received in order into a buffer with the
RDS character set, the tag text is that of the bytes received for positions `s..s+n-1`. -/
theorem C28_received_text_partial (ucs2 : Ucs2Decoder) (s0 : RDSString) (bs : List Byte)
    (henc : s0.encoding = .basic) (hw : WholeText s0.data.length bs) (s n : Nat) (hn : 0 < n)
    (hlt : s + n < bs.length)
    (hfirst : ∀ b, 0 < s → bs[s - 1]? = some b → codetableG0.getD (display b).toNat 0 < 0x80)
    (hlast : ∀ b, bs[s + n - 1]? = some b → codetableG0.getD (display b).toNat 0 < 0x80) :
    substringChars (s0.ops ucs2 (inOrder 0 bs)).lastCompleteString s n =
      ((bs.drop s).take n).flatMap fun b => getRDSCharString (display b) := by
  have ht := decode_basic_utf8 ucs2 (bs.map display)
  rw [← henc] at ht
  rw [(C25_in_order_text_complete ucs2 s0 bs hw _ ht).2.2.1]
  rw [C28_rtplus_substring_partial _ _ s n hn (by simpa using hlt)]
  · simp [utf8, ← List.map_drop, ← List.map_take, List.flatMap_map, getRDSCharString, Function.comp_def]
  · intro c h0 hc
    simp only [List.map_map, List.getElem?_map, Option.map_eq_some_iff, Function.comp] at hc
    obtain ⟨b, hb, rfl⟩ := hc
    exact hfirst b h0 hb
  · intro c hc
    simp only [List.map_map, List.getElem?_map, Option.map_eq_some_iff, Function.comp] at hc
    obtain ⟨b, hb, rfl⟩ := hc
    exact hlast b hb
  · intro c hc
    simp only [List.map_map, List.mem_map, Function.comp] at hc
    obtain ⟨b, _, rfl⟩ := hc
    exact codetableG0_range _

/-- Non-trivial instance: the artist in the text "Now: Björk - Joga." -/
example : substringChars (utf8 [0x4E, 0x6F, 0x77, 0x3A, 0x20, 0x42, 0x6A, 0xF6, 0x72, 0x6B, 0x20,
    0x2D, 0x20, 0x4A, 0x6F, 0x67, 0x61, 0x2E]) 5 5 = utf8 [0x42, 0x6A, 0xF6, 0x72, 0x6B] := by
  decide

/-- The full C28 is violated when a multi-byte character borders the tag: in "éa b", the tag
for the second character returns the second half of the first character and "a", which is
not even valid UTF-8. -/
theorem C28_multibyte_violated :
    substringChars (utf8 [0xE9, 0x61, 0x20, 0x62]) 1 1 = [0xA9, 0x61] ∧
      utf8 (([0xE9, 0x61, 0x20, 0x62].drop 1).take 1) = [0x61] := by decide

/-- The full C28 is violated for a tag that ends at the end of the text: for every text, a
tag reaching the end of a pure ASCII text gives nothing. -/
theorem C28_tag_at_end_violated (cs : List Nat) (hcs : ∀ c ∈ cs, c < 0x80) (s : Nat)
    (h : s < cs.length) : substringChars (utf8 cs) s (cs.length - s) = [] := by
  have hcs' : ∀ c ∈ cs, c < 0x110000 := fun c hc => by have := hcs c hc; omega
  rw [substringChars_eq cs hcs' s _ (by omega),
    bytePos_ascii cs hcs' (s + (cs.length - s)) (by omega) (by
      intro c _ hc
      exact hcs c (List.mem_of_getElem? hc)), if_neg]
  rw [show s + (cs.length - s) = cs.length by omega, List.take_length]
  exact Nat.lt_irrefl _

end Redsea
