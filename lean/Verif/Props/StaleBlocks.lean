import Verif.Props.MissingBlocks
import Verif.Lemmas.JsonPath

/-! # C49: outputs that depend on blocks that were not received

Concrete violations; what holds is in `Verif.Props.MissingBlocks`. -/

namespace Redsea

/-! ### Violations -/

/-- What a new station with PI 0x6204 prints at a place of the JSON object (as text), if it receives
the groups `gs` and then `g`. -/
def printedText (gs : List Group) (path : List String) (g : Group) : Option Str :=
  match (Station.receive demoEnv (Station.withPI {} 0 0x6204) gs).bind
      fun r => r.1.updateAndPrint demoEnv g with
  | some (_, some (.json j)) => match j.at? path with
    | some (.str t) => some t
    | _ => none
  | _ => none

theorem same_but_block3 (g : Group) (x : Word) (h1 : g.block3.isReceived = false)
    (h2 : g.block3.offset = .invalid) (h3 : g.block3.hadErrors = false) :
    g.SameReceived { g with block3 := { data := x } } where
  type := rfl
  hasType := rfl
  time := rfl
  bler := rfl
  dataStream := rfl
  hasCPrime := rfl
  noOffsets := rfl
  block1 := ⟨rfl, rfl, rfl, fun _ => rfl⟩
  block2 := ⟨rfl, rfl, rfl, fun _ => rfl⟩
  block3 := ⟨h1, h2, h3, fun h => absurd (h1.symm.trans h) (by decide)⟩
  block4 := ⟨rfl, rfl, rfl, fun _ => rfl⟩

/-- The same for a flag. -/
def printedFlag (gs : List Group) (path : List String) (g : Group) : Option Bool :=
  match (Station.receive demoEnv (Station.withPI {} 0 0x6204) gs).bind
      fun r => r.1.updateAndPrint demoEnv g with
  | some (_, some (.json j)) => match j.at? path with
    | some (.bool t) => some t
    | _ => none
  | _ => none

/-- A type 5A group in a hex file; block 3 was not received. -/
def staleHex : Group := parseHexLine (Group.disableOffsets {}) (ascii "6204 5400 ---- 4344")

/-- **C49, violated**: a type 5A group, read from a hex file, whose third block was not received. The
printed data depends on the contents of the missing block; zeros are printed as if received. -/
theorem C49_transparent_data_violated :
    ∃ g g' : Group, hexInputGroups (ascii "6204 5400 ---- 4344") = [g] ∧
      g.SameReceived g' ∧ g.has .b3 = false ∧
      printedText [] ["transparent_data", "raw"] g = some (ascii "00 00 43 44") ∧
      printedText [] ["transparent_data", "raw"] g' = some (ascii "41 42 43 44") := by
  refine ⟨staleHex, { staleHex with block3 := { data := 0x4142 } }, ?_, ?_, ?_, ?_, ?_⟩
  · have e : readHexLoop (ascii "6204 5400 ---- 4344") = (staleHex, [], true) := by
      rw [readHexLoop_eq, getLine_end _ (by decide)]
      rfl
    rw [hexInputGroups]
    split
    rename_i heq
    rw [e] at heq
    simp only [Prod.mk.injEq] at heq
    rw [dif_pos heq.2.2.symm, heq.1]
  · exact same_but_block3 staleHex 0x4142 (by decide +kernel) (by decide +kernel) (by decide +kernel)
  · decide +kernel
  · decide +kernel
  · decide +kernel

/-- A group whose third block was not received; `x` is what happens to be stored for it. -/
def stale3 (b2 x b4 : Word) : Group :=
  { demoGroup 0x6204 b2 0 b4 with block3 := { data := x } }

theorem stale3_same (b2 x y b4 : Word) : (stale3 b2 x b4).SameReceived (stale3 b2 y b4) where
  type := rfl
  hasType := rfl
  time := rfl
  bler := rfl
  dataStream := rfl
  hasCPrime := rfl
  noOffsets := rfl
  block1 := ⟨rfl, rfl, rfl, fun _ => rfl⟩
  block2 := ⟨rfl, rfl, rfl, fun _ => rfl⟩
  block3 := ⟨rfl, rfl, rfl, fun h => Bool.noConfusion h⟩
  block4 := ⟨rfl, rfl, rfl, fun _ => rfl⟩

/-- **C49, violated**: enhanced RadioText takes two characters from block 3 also if it was not
received. The first group assigns enhanced RadioText to type 8A. -/
theorem C49_enhanced_radiotext_violated :
    ∃ (gs : List Group) (g g' : Group), g.SameReceived g' ∧ g.has .b3 = false ∧
      printedText gs ["enhanced_radiotext"] g = some (ascii "ABCDX") ∧
      printedText gs ["enhanced_radiotext"] g' = none := by
  refine ⟨[demoGroup 0x6204 0x3410 0x0001 0x6552, demoGroup 0x6204 0x8400 0x4142 0x4344],
    stale3 0x8401 0x580D 0x4546, stale3 0x8401 0x0000 0x4546, stale3_same _ _ _ _, rfl, ?_, ?_⟩
  · decide +kernel
  · decide +kernel

/-- **C49, violated**: the DAB frequency is taken from block 3 also if it was not received. The first
group assigns DAB cross-referencing to type 8A. -/
theorem C49_dab_violated :
    ∃ (gs : List Group) (g g' : Group), g.SameReceived g' ∧ g.has .b3 = false ∧
      printedText gs ["dab", "channel"] g = some (ascii "12C") ∧
      printedText gs ["dab", "channel"] g' = none := by
  refine ⟨[demoGroup 0x6204 0x3410 0x0000 0x0093],
    stale3 0x8400 0x3782 0x4546, stale3 0x8400 0x0000 0x4546, stale3_same _ _ _ _, rfl, ?_, ?_⟩
  · decide +kernel
  · decide +kernel

/-- TEF6686 input, with errors in all blocks but the first. -/
def staleTef : Group :=
  tefRLine (tefPLine (Group.disableOffsets {}) (ascii "P6204")) (ascii "R041041424344FF")

/-- **C49, violated**: a group read from TEF6686 input, of which no block was received after the first.
The flags are those of the damaged block 2, and so is the type of the group. -/
theorem C49_tef_type_violated :
    ∃ g g' : Group, (readTEFGroup (ascii "P6204\nR041041424344FF\n")).1 = g ∧ g.SameReceived g' ∧
      g.has .b2 = false ∧
      printedFlag [] ["ta"] g = some true ∧ printedFlag [] ["ta"] g' = some false := by
  refine ⟨staleTef, { staleTef with block2 := { data := 0 } }, ?_, ?_, ?_, ?_, ?_⟩
  · unfold readTEFGroup
    rw [readTEFLoop]
    split
    rename_i line r e heq
    rw [show ascii "P6204\nR041041424344FF\n" =
      ascii "P6204" ++ 0x0A :: (ascii "R041041424344FF" ++ [0x0A]) by decide,
      getLine_line _ _ (by decide)] at heq
    simp only [Prod.mk.injEq] at heq
    obtain ⟨rfl, rfl, rfl⟩ := heq
    rw [if_neg (by decide), dif_neg (by decide), readTEFLoop]
    split
    rename_i line r e heq
    rw [getLine_line _ _ (by decide)] at heq
    simp only [Prod.mk.injEq] at heq
    obtain ⟨rfl, rfl, rfl⟩ := heq
    rw [if_pos (by decide)]
    dsimp only
    rw [if_pos (by decide)]
    rfl
  · have h1 : staleTef.block2.isReceived = false := by decide +kernel
    exact {
      type := rfl, hasType := rfl, time := rfl, bler := rfl, dataStream := rfl, hasCPrime := rfl,
      noOffsets := rfl, block1 := ⟨rfl, rfl, rfl, fun _ => rfl⟩
      block2 := ⟨h1, (by decide +kernel), (by decide +kernel),
        fun h => absurd (h1.symm.trans h) (by decide)⟩
      block3 := ⟨rfl, rfl, rfl, fun _ => rfl⟩
      block4 := ⟨rfl, rfl, rfl, fun _ => rfl⟩ }
  · decide +kernel
  · decide +kernel
  · decide +kernel

/-! ### Cases that meet the hypotheses -/

/-- A type 2A group without its third block: the text depends on the received block 4 only. -/
example : (stale3 0x2400 0x5858 0x4344).SameReceived (stale3 0x2400 0 0x4344) ∧
    (stale3 0x2400 0x5858 0x4344).hasType = true ∧ (stale3 0x2400 0x5858 0x4344).has .b2 = true ∧
    uncheckedBlocks (Station.withPI {} 0 0x6204) (stale3 0x2400 0x5858 0x4344) = [] ∧
    (stale3 0x2400 0x5858 0x4344).get .b3 ≠ (stale3 0x2400 0 0x4344).get .b3 :=
  ⟨stale3_same _ _ _ _, by decide +kernel, by decide +kernel, by decide +kernel, by decide +kernel⟩

/-- Groups in hex input, one of them with a type. -/
example : staleHex.hasType = true ∧ staleHex.has .b3 = false := by decide +kernel

end Redsea
