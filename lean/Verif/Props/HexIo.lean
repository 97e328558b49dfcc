import Verif.Lemmas.Input

/-
C38, C39: the hexadecimal group format.
-/

namespace Redsea

/-! ### What is printed -/

/-- The text of one block. -/
def hexBlockText (b : Block) : Str :=
  if b.isReceived then hexPadded 4 b.data.toNat else ascii "----"

theorem hexBlockText_length (b : Block) : (hexBlockText b).length = 4 := by
  unfold hexBlockText
  split
  · exact hexPadded_length 4 _
  · rfl

theorem hexBlockText_mem (b : Block) {c : Byte} (h : c ∈ hexBlockText b) :
    c ≠ 0x20 ∧ c ≠ 0x0A ∧ c ≠ 0x23 := by
  unfold hexBlockText at h
  split at h
  · obtain ⟨d, hd, rfl⟩ := hexPadded_mem h
    exact (hexDigit_facts d hd).2.2
  · have : ∀ c ∈ ascii "----", c ≠ 0x20 ∧ c ≠ 0x0A ∧ c ≠ 0x23 := by decide
    exact this c h

theorem hexBlockText_hex (b : Block) :
    (∀ c ∈ hexBlockText b, IsHexDigit c) ↔ b.isReceived = true := by
  constructor
  · intro h
    unfold hexBlockText at h
    split at h
    · assumption
    · exact absurd h (by decide)
  · intro hb c hc
    unfold hexBlockText at hc
    rw [if_pos hb] at hc
    obtain ⟨d, hd, rfl⟩ := hexPadded_mem hc
    exact (hexDigit_facts d hd).1

theorem hexBlockText_value (b : Block) (h : b.isReceived = true) :
    BitVec.ofNat 16 (hexNumber (hexBlockText b)) = b.data := by
  unfold hexBlockText
  rw [if_pos h, hexNumber_padded 4 _ (by have := b.data.isLt; simpa using this)]
  simp

theorem printHex_eq (g : Group) :
    g.printHex = hexBlockText g.block1 ++ 0x20 :: (hexBlockText g.block2 ++ 0x20 ::
      (hexBlockText g.block3 ++ 0x20 :: hexBlockText g.block4)) := by
  have hb : ascii " " = [0x20] := by decide
  simp only [Group.printHex, hb, hexBlockText, Group.block, List.append_assoc,
    List.cons_append, List.nil_append]
  rfl

theorem nonBlank_printHex (g : Group) :
    nonBlank g.printHex = hexBlockText g.block1 ++ (hexBlockText g.block2 ++
      (hexBlockText g.block3 ++ hexBlockText g.block4)) := by
  have hn : ∀ b, nonBlank (hexBlockText b) = hexBlockText b := fun b =>
    nonBlank_of_forall fun c hc => (hexBlockText_mem b hc).1
  rw [printHex_eq]
  simp only [nonBlank_append, nonBlank_blank, hn]

/-- The characters of a printed group that belong to block `n`. -/
theorem blockChars_printHex (g : Group) (tail : Str) (n : BlockNum) :
    blockChars (g.printHex ++ tail) n = hexBlockText (g.block n) := by
  have hl := hexBlockText_length
  unfold blockChars
  rw [nonBlank_append, nonBlank_printHex]
  have key : ∀ (a b : Str) (k : Nat), a.length = 4 → (a ++ b).drop (4 + k) = b.drop k := by
    intro a b k ha
    rw [← ha, List.drop_length_add_append]
  have key0 : ∀ (a b : Str), a.length = 4 → (a ++ b).take 4 = a := by
    intro a b ha
    rw [← ha, List.take_left']
    rfl
  simp only [List.append_assoc]
  cases n
  · exact key0 _ _ (hl _)
  · rw [show 4 * blockIndex .b2 = 4 + 0 from rfl, key _ _ _ (hl _), List.drop_zero]
    exact key0 _ _ (hl _)
  · rw [show 4 * blockIndex .b3 = 4 + (4 + 0) from rfl, key _ _ _ (hl _), key _ _ _ (hl _),
      List.drop_zero]
    exact key0 _ _ (hl _)
  · rw [show 4 * blockIndex .b4 = 4 + (4 + (4 + 0)) from rfl, key _ _ _ (hl _), key _ _ _ (hl _),
      key _ _ _ (hl _), List.drop_zero]
    exact key0 _ _ (hl _)

theorem printHex_length (g : Group) : g.printHex.length = 19 := by
  rw [printHex_eq]
  simp [hexBlockText_length]

theorem printHex_mem (g : Group) {c : Byte} (h : c ∈ g.printHex) : c ≠ 0x0A ∧ c ≠ 0x23 := by
  rw [printHex_eq] at h
  simp only [List.mem_append, List.mem_cons] at h
  rcases h with h | rfl | h | rfl | h | rfl | h
  all_goals first | exact (hexBlockText_mem _ h).2 | decide

/-- What follows the blocks. -/
def hexTail : Option Str → Str
  | some t => ascii " " ++ t
  | none => []

/-- The line printed for a group, without the line break. -/
def printedLine (g : Group) (timestamp : Option Str) : Str :=
  (if g.dataStream > 0 then ascii "#S" ++ decimal g.dataStream ++ ascii " " else [])
    ++ (g.printHex ++ hexTail timestamp)

theorem printAsHex_eq (g : Group) (ts : Option Str) (h : g.isEmpty = false) :
    printAsHex g ts = printedLine g ts ++ [0x0A] := by
  have hb : ascii "\n" = [0x0A] := by decide
  cases ts <;> simp only [printAsHex, h, printedLine, hexTail, hb, List.append_assoc] <;> rfl

theorem tail_mem {ts : Option Str} (hts : ∀ t ∈ ts, (0x0A : Byte) ∉ t) :
    (0x0A : Byte) ∉ hexTail ts := by
  cases ts with
  | none => simp [hexTail]
  | some t =>
    have h1 : (0x0A : Byte) ∉ ascii " " := by decide
    have h2 := hts t rfl
    simp only [hexTail]
    simp only [List.mem_append, not_or]
    exact ⟨h1, h2⟩

theorem printedLine_facts (g : Group) (ts : Option Str) (hs : g.dataStream ≤ 3)
    (hts : ∀ t ∈ ts, (0x0A : Byte) ∉ t) :
    (0x0A : Byte) ∉ printedLine g ts ∧ 16 ≤ (printedLine g ts).length ∧
      lineStream (printedLine g ts) = g.dataStream ∧
      lineBody (printedLine g ts) =
        g.printHex ++ hexTail ts := by
  have hlen := printHex_length g
  have ht := tail_mem hts
  have hnl : (0x0A : Byte) ∉ g.printHex := fun h => (printHex_mem g h).1 rfl
  unfold printedLine
  generalize hexTail ts = tail at ht ⊢
  by_cases h0 : g.dataStream = 0
  · rw [if_neg (by omega), List.nil_append]
    have hpre : (g.printHex ++ tail).take 4 ∉ [ascii "#S1 ", ascii "#S2 ", ascii "#S3 "] := by
      intro hm
      have hh : (0x23 : Byte) ∈ (g.printHex ++ tail).take 4 := by
        have : ∀ s ∈ [ascii "#S1 ", ascii "#S2 ", ascii "#S3 "], (0x23 : Byte) ∈ s := by decide
        exact this _ hm
      rw [List.take_append_of_le_length (by omega)] at hh
      exact (printHex_mem g (List.mem_of_mem_take hh)).2 rfl
    refine ⟨?_, ?_, ?_, ?_⟩
    · simp only [List.mem_append, not_or]; exact ⟨hnl, ht⟩
    · simp only [List.length_append]; omega
    · rw [lineStream, if_neg (fun h => hpre h.2), h0]
    · rw [lineBody, if_neg (fun h => hpre h.2)]
  · rw [if_pos (by omega)]
    have hcases : ∃ p : Str, ascii "#S" ++ decimal g.dataStream ++ ascii " " = p ∧ p.length = 4 ∧
        (0x0A : Byte) ∉ p ∧ p ∈ [ascii "#S1 ", ascii "#S2 ", ascii "#S3 "] ∧
        (p.getD 2 0).toNat - 0x30 = g.dataStream := by
      refine ⟨_, rfl, ?_⟩
      have : g.dataStream = 1 ∨ g.dataStream = 2 ∨ g.dataStream = 3 := by omega
      rcases this with h | h | h <;> rw [h] <;> decide
    obtain ⟨p, hp, hpl, hpn, hpm, hpv⟩ := hcases
    rw [hp]
    have htake : (p ++ (g.printHex ++ tail)).take 4 = p := by
      rw [← hpl, List.take_left']
      rfl
    have hcond : (p ++ (g.printHex ++ tail)).length ≥ 20 ∧
        (p ++ (g.printHex ++ tail)).take 4 ∈ [ascii "#S1 ", ascii "#S2 ", ascii "#S3 "] := by
      refine ⟨by simp only [List.length_append]; omega, by rw [htake]; exact hpm⟩
    refine ⟨?_, by simp only [List.length_append]; omega, ?_, ?_⟩
    · simp only [List.mem_append, not_or]; exact ⟨hpn, hnl, ht⟩
    · rw [lineStream, if_pos hcond, ← hpv, List.getD_eq_getElem?_getD, List.getD_eq_getElem?_getD,
        List.getElem?_append_left (by omega)]
    · rw [lineBody, if_pos hcond, ← hpl, List.drop_left']
      rfl

/-- The same blocks received, with the same contents, on the same data stream. -/
def SameContents (g g' : Group) : Prop :=
  g'.dataStream = g.dataStream ∧ ∀ n, g'.has n = g.has n ∧ (g.has n = true → g'.get n = g.get n)

/-- Two recordings with the same contents, group by group. -/
inductive SameRecording : List Group → List Group → Prop
  | nil : SameRecording [] []
  | cons {g g' : Group} {gs gs' : List Group} :
    SameContents g g' → SameRecording gs gs' → SameRecording (g :: gs) (g' :: gs')

theorem parse_printedLine (g : Group) (ts : Option Str) (hs : g.dataStream ≤ 3)
    (hts : ∀ t ∈ ts, (0x0A : Byte) ∉ t) :
    SameContents g (parseHexLine (Group.disableOffsets {}) (printedLine g ts)) := by
  obtain ⟨_, _, hst, hbody⟩ := printedLine_facts g ts hs hts
  obtain ⟨h1, h2⟩ := parseHexLine_spec (printedLine g ts)
  refine ⟨by rw [h1, hst], ?_⟩
  intro n
  have hn := h2 n
  rw [hbody, blockChars_printHex] at hn
  unfold Group.has Group.get
  by_cases hr : (g.block n).isReceived = true
  · rw [if_pos ((hexBlockText_hex _).2 hr)] at hn
    rw [hn, hr, hexBlockText_value _ hr]
    exact ⟨rfl, fun _ => rfl⟩
  · rw [if_neg (fun h => hr ((hexBlockText_hex _).1 h))] at hn
    rw [hn]
    refine ⟨?_, fun h => absurd h hr⟩
    simpa using hr

/-- **C38.** A non-empty group printed in hexadecimal form, with or without a time stamp, is
followed by nothing but its line break, and read back it gives the same blocks, the same missing
blocks and the same data stream; the reader stops right behind the line. -/
theorem C38_hex_round_trip (g : Group) (hne : g.isEmpty = false) (hs : g.dataStream ≤ 3)
    (ts : Option Str) (hts : ∀ t ∈ ts, (0x0A : Byte) ∉ t) (rest : Str) (now : Option Int) :
    ∃ g', readHexGroup (printAsHex g ts ++ rest) now = (g', rest, false) ∧ SameContents g g' := by
  obtain ⟨hnl, hl, _, _⟩ := printedLine_facts g ts hs hts
  have hread := readHexLoop_line (printedLine g ts) rest hnl hl
  have hsame := parse_printedLine g ts hs hts
  rw [printAsHex_eq g ts hne, List.append_assoc, List.singleton_append]
  unfold readHexGroup
  rw [hread]
  generalize parseHexLine (Group.disableOffsets {}) (printedLine g ts) = p at hsame
  cases now with
  | none => exact ⟨_, rfl, hsame⟩
  | some t =>
    refine ⟨p.setTime t, rfl, ?_, ?_⟩
    · exact hsame.1
    · intro n
      have hb : ∀ g : Group, (g.setTime t).block n = g.block n := by intro g; cases n <;> rfl
      have := hsame.2 n
      unfold Group.has Group.get at this ⊢
      rw [hb]
      exact this

/-- A whole recording printed in hexadecimal form: the reader delivers its non-empty groups in
order, and after them one group without any block, on stream 0 (from the end of the file). -/
theorem C38_hex_file_round_trip (gs : List (Group × Option Str))
    (hs : ∀ p ∈ gs, p.1.dataStream ≤ 3) (hts : ∀ p ∈ gs, ∀ t ∈ p.2, (0x0A : Byte) ∉ t) :
    ∃ gs' last, hexInputGroups (gs.map fun p => printAsHex p.1 p.2).flatten = gs' ++ [last] ∧
      SameRecording ((gs.map Prod.fst).filter fun g => !g.isEmpty) gs' ∧
      last.isEmpty = true ∧ last.dataStream = 0 := by
  induction gs with
  | nil =>
    refine ⟨[], Group.disableOffsets {}, ?_, .nil, rfl, rfl⟩
    rw [List.map_nil, List.flatten_nil, hexInputGroups]
    split
    rename_i g r e heq
    have h0 : readHexLoop [] = (Group.disableOffsets {}, [], true) := by
      rw [readHexLoop_eq]; rfl
    rw [h0] at heq
    simp only [Prod.mk.injEq] at heq
    obtain ⟨rfl, rfl, rfl⟩ := heq
    rfl
  | cons p gs ih =>
    obtain ⟨gs', last, hrun, hsame, hlast⟩ :=
      ih (fun q hq => hs q (List.mem_cons_of_mem _ hq)) (fun q hq => hts q (List.mem_cons_of_mem _ hq))
    by_cases hne : p.1.isEmpty = true
    · refine ⟨gs', last, ?_, ?_, hlast⟩
      · simp only [List.map_cons, List.flatten_cons]
        rw [show printAsHex p.1 p.2 = [] by simp [printAsHex, hne], List.nil_append]
        exact hrun
      · rw [List.map_cons, List.filter_cons_of_neg (by simp [hne])]
        exact hsame
    · have hne' : p.1.isEmpty = false := by simpa using hne
      obtain ⟨g', hread, hsg⟩ := C38_hex_round_trip p.1 hne' (hs p (List.mem_cons_self ..)) p.2
        (hts p (List.mem_cons_self ..)) (gs.map fun p => printAsHex p.1 p.2).flatten none
      refine ⟨g' :: gs', last, ?_, ?_, hlast⟩
      · simp only [List.map_cons, List.flatten_cons]
        rw [hexInputGroups]
        split
        rename_i g r e heq
        have hread' : readHexLoop (printAsHex p.1 p.2 ++
            (gs.map fun p => printAsHex p.1 p.2).flatten) =
            (g', (gs.map fun p => printAsHex p.1 p.2).flatten, false) := hread
        rw [hread'] at heq
        simp only [Prod.mk.injEq] at heq
        obtain ⟨rfl, rfl, rfl⟩ := heq
        rw [dif_neg (by decide), hrun]
        rfl
      · rw [List.map_cons, List.filter_cons_of_pos (by simp [hne'])]
        exact .cons hsg hsame

/-- Example: a group with a missing block, on stream 2, with a time stamp. -/
example :
    let g : Group := { block1 := { data := 0x1234, isReceived := true }
                       block2 := { data := 0x00AF, isReceived := true }
                       block4 := { data := 0xFFFF, isReceived := true }
                       dataStream := 2 }
    g.isEmpty = false ∧ g.dataStream ≤ 3 ∧
      printAsHex g (some (ascii "12:00")) = ascii "#S2 1234 00AF ---- FFFF 12:00\n" := by
  decide +kernel

/-! ### What is accepted -/

/-- **C39 (partial).** A line of at least 16 characters whose body has at least 16 non-blank
characters: a block is marked as received exactly when the line contains four hexadecimal
digits for it, and then it holds their value. Missing compared to the full claim: shorter
bodies, for which the claim is false (`C39_hex_blocks_violated`). -/
theorem C39_hex_blocks_partial (line rest : Str) (hnl : (0x0A : Byte) ∉ line)
    (hlen : 16 ≤ line.length) (hfull : 16 ≤ (nonBlank (lineBody line)).length) (n : BlockNum) :
    let g := (readHexGroup (line ++ 0x0A :: rest) none).1
    (g.has n = true ↔ TransmitsBlock (lineBody line) n) ∧
    (g.has n = true → (g.get n).toNat = hexNumber (blockChars (lineBody line) n)) := by
  intro g
  have hg : g = parseHexLine (Group.disableOffsets {}) line := by
    show (readHexGroup _ none).1 = _
    unfold readHexGroup
    rw [readHexLoop_line line rest hnl hlen]
  have hb := (parseHexLine_spec line).2 n
  rw [← hg] at hb
  have h4 : (blockChars (lineBody line) n).length = 4 := by
    unfold blockChars
    rw [List.length_take, List.length_drop]
    cases n <;> simp only [blockIndex] <;> omega
  unfold Group.has Group.get
  by_cases hx : ∀ c ∈ blockChars (lineBody line) n, IsHexDigit c
  · rw [if_pos hx] at hb
    rw [hb]
    refine ⟨⟨fun _ => ⟨h4, hx⟩, fun _ => rfl⟩, fun _ => ?_⟩
    show (BitVec.ofNat 16 _).toNat = _
    rw [BitVec.toNat_ofNat, Nat.mod_eq_of_lt]
    have hlt : ∀ s : Str, hexNumber s < 16 ^ s.length := by
      intro s
      induction s with
      | nil => simp [hexNumber]
      | cons c s ih =>
        simp only [hexNumber, List.length_cons, Nat.pow_succ]
        have := hexDigitVal_lt c
        have h2 : hexDigitVal c * 16 ^ s.length ≤ 15 * 16 ^ s.length :=
          Nat.mul_le_mul_right _ (by omega)
        omega
    have := hlt (blockChars (lineBody line) n)
    rw [h4] at this
    exact this
  · rw [if_neg hx] at hb
    rw [hb]
    refine ⟨⟨fun h => by simp at h, fun h => absurd h.2 hx⟩, fun h => by simp at h⟩

/-- Blocks that are damaged by any other character are never accepted, however short the line. -/
theorem C39_hex_damaged_partial (line rest : Str) (hnl : (0x0A : Byte) ∉ line)
    (hlen : 16 ≤ line.length) (n : BlockNum)
    (hbad : ∃ c ∈ blockChars (lineBody line) n, ¬ IsHexDigit c) :
    ((readHexGroup (line ++ 0x0A :: rest) none).1).has n = false := by
  have hb := (parseHexLine_spec line).2 n
  have hx : ¬ ∀ c ∈ blockChars (lineBody line) n, IsHexDigit c := by
    obtain ⟨c, hc, hn⟩ := hbad
    exact fun h => hn (h c hc)
  rw [if_neg hx] at hb
  unfold readHexGroup Group.has
  rw [readHexLoop_line line rest hnl hlen]
  simp only []
  rw [hb]

/-- **C39 is violated**: a line cut off in the last block still delivers that block, with the
wrong value; and a line of blanks delivers four blocks. -/
theorem C39_hex_blocks_violated :
    (∃ (line : Str) (n : BlockNum),
      ((readHexGroup (line ++ ascii "\n") none).1).has n = true ∧
      ¬ TransmitsBlock (lineBody line) n) ∧
    (readHexGroup (ascii "1234 5678 9ABC D\n") none).1.has .b4 = true ∧
    (readHexGroup (ascii "1234 5678 9ABC D\n") none).1.get .b4 = 0x000D ∧
    (∀ n, (readHexGroup (ascii "                \n") none).1.has n = true) := by
  have h2 : readHexGroup (ascii "1234 5678 9ABC D\n") none =
      (parseHexLine (Group.disableOffsets {}) (ascii "1234 5678 9ABC D"), [], false) := by
    unfold readHexGroup
    rw [show ascii "1234 5678 9ABC D\n" = ascii "1234 5678 9ABC D" ++ 0x0A :: [] by decide,
      readHexLoop_line _ _ (by decide) (by decide)]
  have h3 : readHexGroup (ascii "                \n") none =
      (parseHexLine (Group.disableOffsets {}) (ascii "                "), [], false) := by
    unfold readHexGroup
    rw [show ascii "                \n" = ascii "                " ++ 0x0A :: [] by decide,
      readHexLoop_line _ _ (by decide) (by decide)]
  refine ⟨⟨ascii "1234 5678 9ABC D", .b4, ?_, ?_⟩, ?_, ?_, ?_⟩
  · rw [show ascii "1234 5678 9ABC D" ++ ascii "\n" = ascii "1234 5678 9ABC D\n" by decide, h2]
    decide +kernel
  · intro h
    exact absurd h.1 (by decide)
  · rw [h2]; decide +kernel
  · rw [h2]; decide +kernel
  · intro n
    rw [h3]
    cases n <;> decide +kernel

/-- Example for the hypotheses of `C39_hex_blocks_partial`: a full line with a damaged block. -/
example : 16 ≤ (ascii "1234 56G8 9ABC DEF0").length ∧
    16 ≤ (nonBlank (lineBody (ascii "1234 56G8 9ABC DEF0"))).length ∧
    ¬ TransmitsBlock (lineBody (ascii "1234 56G8 9ABC DEF0")) .b2 ∧
    (0x0A : Byte) ∉ ascii "1234 56G8 9ABC DEF0" := by
  refine ⟨by decide, by decide, fun h => ?_, by decide⟩
  exact absurd h.2 (by decide)

end Redsea
