import Mathlib.Data.List.Forall2
import Verif.Props.FeedThrough
import Verif.Props.Channel

/-
C80: a whole session of the TEF6686 tuner, with other lines and lines for the PI code between the groups.
-/

namespace Redsea

/-- A line of the tuner: PI code, group, or something else. -/
inductive TefEntry
  | pi (digits : Str) (h : digits.length = 4 ∧ ∀ c ∈ digits, IsHexDigit c)
  | group (l : TefLine)
  | other (line : Str) (h : (0x0A : Byte) ∉ line) (hf : line.take 1 ≠ ascii "P" ∧ line.take 1 ≠ ascii "R")

/-- The text of the line. -/
def TefEntry.text : TefEntry → Str
  | .pi d _ => 0x50 :: d
  | .group l => l.text
  | .other s _ _ => s

/-- The text of a session. -/
def tefText (es : List TefEntry) : Str := (es.map fun e => e.text ++ [0x0A]).flatten

/-- The groups of a session, each with the PI code that was sent last since the group before it. -/
def tefSent : Option Str → List TefEntry → List (Option Str × TefLine)
  | _, [] => []
  | _, .pi d _ :: es => tefSent (some d) es
  | p, .group l :: es => (p, l) :: tefSent none es
  | p, .other _ _ _ :: es => tefSent p es

/-- The PI code after the last group. -/
def tefPending : Option Str → List TefEntry → Option Str
  | p, [] => p
  | _, .pi d _ :: es => tefPending (some d) es
  | _, .group _ :: es => tefPending none es
  | p, .other _ _ _ :: es => tefPending p es

/-- The first block is the PI code, if there is one. -/
def PiBlock (p : Option Str) (g : Group) : Prop :=
  g.has .b1 = p.isSome ∧ ∀ d, p = some d → (g.get .b1).toNat = hexNumber d

/-- A group as it was sent: the PI code, the digits of the blocks; a block is received if it and those before it have
no errors (not only the block itself, see C40). -/
def TefGroup (x : Option Str × TefLine) (g : Group) : Prop :=
  PiBlock x.1 g ∧ ∀ n, n ≠ .b1 → (g.get n).toNat = hexNumber (x.2.digits n) ∧
    (g.has n = true ↔ ∀ m, blockIndex m ≤ blockIndex n → tefErrorLevel (hexNumber x.2.err) m = 0)

/-- Only the PI code has been read. -/
def TefStart (p : Option Str) (g : Group) : Prop := PiBlock p g ∧ ∀ n, n ≠ .b1 → g.has n = false

theorem tefStart_empty : TefStart none (Group.disableOffsets {}) :=
  ⟨⟨rfl, fun _ h => by cases h⟩, fun n _ => by cases n <;> rfl⟩

theorem tefPLine_start {p : Option Str} {g : Group} (d : Str) (hd : d.length = 4 ∧ ∀ c ∈ d, IsHexDigit c)
    (hg : TefStart p g) : TefStart (some d) (tefPLine g (0x50 :: d)) := by
  have hp : stol16 d = some (hexNumber d : Int) :=
    stol16_digits d hd.2 (by intro h; rw [h] at hd; simp at hd) (by rw [hd.1]; omega)
  have hb : ∀ m, (tefPLine g (0x50 :: d)).block m =
      if m = .b1 then { data := BitVec.ofNat 16 (hexNumber d), isReceived := true } else g.block m := by
    intro m
    unfold tefPLine
    rw [show (0x50 :: d : Str).drop 1 = d from rfl, hp]
    simp only []
    rw [block_setBlock]
    simp
  have hlt := hexNumber_lt d
  rw [hd.1] at hlt
  refine ⟨⟨?_, ?_⟩, ?_⟩
  · unfold Group.has
    rw [hb, if_pos rfl]
    rfl
  · intro d' h
    cases h
    unfold Group.get
    rw [hb, if_pos rfl]
    show (BitVec.ofNat 16 _).toNat = _
    rw [BitVec.toNat_ofNat, Nat.mod_eq_of_lt hlt]
  · intro n hn
    have := hg.2 n hn
    unfold Group.has at this ⊢
    rw [hb, if_neg hn]
    exact this

theorem tefRLine_group {p : Option Str} {g : Group} (l : TefLine) (hg : TefStart p g) :
    TefGroup (p, l) (tefRLine g l.text) := by
  constructor
  · have hb := tefRLine_block g l .b1
    rw [if_pos rfl] at hb
    unfold PiBlock Group.has Group.get
    rw [hb]
    exact hg.1
  · intro n hn
    have hb := tefRLine_block g l n
    rw [if_neg hn] at hb
    have hlt : hexNumber (l.digits n) < 2 ^ 16 := by
      have := hexNumber_lt (l.digits n)
      have h4 : (l.digits n).length = 4 := by
        cases n
        · exact absurd rfl hn
        · exact l.hd2.1
        · exact l.hd3.1
        · exact l.hd4.1
      rw [h4] at this
      exact this
    unfold Group.get Group.has
    rw [hb]
    refine ⟨?_, ?_⟩
    · show (BitVec.ofNat 16 _).toNat = _
      rw [BitVec.toNat_ofNat, Nat.mod_eq_of_lt hlt]
    · show tefReceived (hexNumber l.err) n = true ↔ _
      constructor
      · intro h m hm
        cases n <;> cases m <;> first
          | exact absurd rfl hn
          | exact absurd hm (by decide)
          | exact (of_decide_eq_true h).1
          | exact (of_decide_eq_true h).2
          | exact (of_decide_eq_true h).2.1
          | exact (of_decide_eq_true h).2.2
          | exact (of_decide_eq_true h).2.2.1
          | exact (of_decide_eq_true h).2.2.2
      · intro h
        have h1 := h .b1 (by simp [blockIndex])
        cases n
        · exact absurd rfl hn
        · exact decide_eq_true ⟨h1, h .b2 (by decide)⟩
        · exact decide_eq_true ⟨h1, h .b2 (by decide), h .b3 (by decide)⟩
        · exact decide_eq_true ⟨h1, h .b2 (by decide), h .b3 (by decide), h .b4 (by decide)⟩

/-- The groups, when reading goes on with a group. -/
def tefGroupsFrom (g : Group) (input : Str) : List Group :=
  if (readTEFLoop g input).2.2 = true then [(readTEFLoop g input).1]
  else (readTEFLoop g input).1 :: tefInputGroups (readTEFLoop g input).2.1

theorem tefInputGroups_eq (input : Str) : tefInputGroups input = tefGroupsFrom (Group.disableOffsets {}) input := by
  rw [tefInputGroups]
  split
  rename_i g rest eof heq
  unfold tefGroupsFrom
  rw [show readTEFLoop _ input = _ from heq]
  by_cases he : eof = true
  · rw [dif_pos he, if_pos he]
  · rw [dif_neg he, if_neg he]

theorem tefGroupsFrom_skip {g : Group} {line rest : Str} (hn : (0x0A : Byte) ∉ line) (hR : line.take 1 ≠ ascii "R") :
    tefGroupsFrom g (line ++ 0x0A :: rest) =
      tefGroupsFrom (if line.take 1 = ascii "P" then tefPLine g line else g) rest := by
  have e := readTEFLoop_eq g (getLine_line line rest hn)
  rw [if_neg (fun h => hR h.1), if_neg Bool.false_ne_true] at e
  unfold tefGroupsFrom
  rw [e]

theorem tef_session (es : List TefEntry) : ∀ (p : Option Str) (g : Group), TefStart p g →
    ∃ gs last, tefGroupsFrom g (tefText es) = gs ++ [last] ∧ List.Forall₂ TefGroup (tefSent p es) gs ∧
      TefStart (tefPending p es) last := by
  induction es with
  | nil =>
    intro p g hg
    refine ⟨[], g, ?_, .nil, hg⟩
    have e := readTEFLoop_eq (input := []) (line := []) (rest := []) (eof := true) g rfl
    rw [if_neg (by decide), if_pos rfl, if_neg (by decide)] at e
    unfold tefGroupsFrom
    rw [show tefText [] = [] from rfl, e, if_pos rfl]
    rfl
  | cons e es ih =>
    intro p g hg
    have ht : tefText (e :: es) = e.text ++ 0x0A :: tefText es := by
      unfold tefText
      simp
    rw [ht]
    cases e with
    | pi d hd =>
      rw [show (TefEntry.pi d hd).text = 0x50 :: d from rfl, tefGroupsFrom_skip (by
          simp only [List.mem_cons, not_or]
          exact ⟨by decide, noNewline_digits hd.2⟩) (by
          show ([0x50] : Str) ≠ ascii "R"
          decide), if_pos (by show ([0x50] : Str) = ascii "P"; decide)]
      exact ih (some d) _ (tefPLine_start d hd hg)
    | group l =>
      obtain ⟨gs, last, h1, h2, h3⟩ := ih none _ tefStart_empty
      refine ⟨tefRLine g l.text :: gs, last, ?_, .cons (tefRLine_group l hg) h2, h3⟩
      unfold tefGroupsFrom
      rw [show (TefEntry.group l).text = l.text from rfl, readTEFLoop_R, if_neg Bool.false_ne_true]
      show _ :: tefInputGroups (tefText es) = _
      rw [tefInputGroups_eq, h1]
      rfl
    | other s hs hf =>
      rw [show (TefEntry.other s hs hf).text = s from rfl, tefGroupsFrom_skip hs hf.2, if_neg hf.1]
      exact ih p g hg

/-- **C80**: from a session of the tuner, exactly the groups that were sent are decoded, in order, each with the PI
code of the lines since the group before; and one more group at the end with no other blocks. -/
theorem C80_session (es : List TefEntry) : ∃ gs last, tefInputGroups (tefText es) = gs ++ [last] ∧
    List.Forall₂ TefGroup (tefSent none es) gs ∧ PiBlock (tefPending none es) last ∧
    ∀ n, n ≠ .b1 → last.has n = false := by
  rw [tefInputGroups_eq]
  obtain ⟨gs, last, h1, h2, h3⟩ := tef_session es none _ tefStart_empty
  exact ⟨gs, last, h1, h2, h3.1, h3.2⟩

/-- **C80**: whatever text is read, the program for this tuner never fails. -/
theorem C80_never_fails (env : Env) (hk : env.tmc.KeysOk) (delay now : Nat → Int) (o : Options) (input : Str) :
    ∃ c tr, processTEFInput env delay now o input = some (c, tr) := by
  refine C60_never_fails env hk delay o 0 _ ?_
  intro e he
  obtain ⟨q, -, rfl⟩ := List.mem_map.mp he
  exact trivial

/-- A group without errors. -/
def demoTefLine : TefLine where
  d2 := ascii "0549"
  d3 := ascii "1234"
  d4 := ascii "5678"
  err := ascii "00"
  extra := []
  hd2 := by decide
  hd3 := by decide
  hd4 := by decide
  herr := by decide
  hextra := by decide

/-- PI code, another line, a group; a group without PI code. -/
def demoTef : List TefEntry :=
  [.pi (ascii "6204") (by decide), .other (ascii "Ss12.3") (by decide) (by decide), .group demoTefLine,
   .group tefBadBlock2]

example : tefText demoTef = ascii "P6204\nSs12.3\nR05491234567800\nR05491234567810\n" ∧
    tefSent none demoTef = [(some (ascii "6204"), demoTefLine), (none, tefBadBlock2)] := ⟨by decide +kernel, rfl⟩

end Redsea
