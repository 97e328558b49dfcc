import Verif.Lemmas.Utf8Station
import Verif.Lemmas.Utf8Check
import Verif.Props.StationRadiotext
import Verif.Props.TmcBuiltin

/-
C71: the output is valid UTF-8.
-/

namespace Redsea

open _root_.Redsea.Spec

/-- **C71**, the check of the JSON library, `validUtf8`, accepts exactly the UTF-8 encodings of Unicode texts. -/
theorem C71_utf8_check (s : Str) : validUtf8 s = true ↔ ∃ t : String, s = unicodeBytes t := validUtf8_iff s

example : unicodeBytes "Björk – 日本 😀" =
    ([0x42, 0x6A, 0xC3, 0xB6, 0x72, 0x6B, 0x20, 0xE2, 0x80, 0x93, 0x20, 0xE6, 0x97, 0xA5, 0xE6, 0x9C, 0xAC, 0x20,
      0xF0, 0x9F, 0x98, 0x80] : Str) := by
  rw [unicodeBytes_eq]
  decide +kernel

example : validUtf8 [0xC0, 0x80] = false ∧ validUtf8 [0xED, 0xA0, 0x80] = false ∧ validUtf8 [0xA9, 0x61] = false := by
  decide

mutual
theorem strings_of_utf8 : ∀ j : J, j.utf8 = true → ∀ s ∈ j.strings, ∃ t : String, s = unicodeBytes t
  | .str s, h, x, hx => by
    rw [J.strings, List.mem_singleton] at hx
    exact hx ▸ (validUtf8_iff s).mp h
  | .arr l, h, x, hx => stringsList_of_utf8 l h x hx
  | .obj l, h, x, hx => stringsMembers_of_utf8 l h x hx
  | .null, _, x, hx => by simp [J.strings] at hx
  | .bool _, _, x, hx => by simp [J.strings] at hx
  | .int _, _, x, hx => by simp [J.strings] at hx
  | .float _, _, x, hx => by simp [J.strings] at hx
theorem stringsList_of_utf8 : ∀ l : List J, J.utf8List l = true → ∀ s ∈ J.stringsList l, ∃ t : String, s = unicodeBytes t
  | [], _, x, hx => by simp [J.stringsList] at hx
  | j :: l, h, x, hx => by
    rw [J.utf8List, Bool.and_eq_true] at h
    rw [J.stringsList, List.mem_append] at hx
    exact hx.elim (strings_of_utf8 j h.1 x) (stringsList_of_utf8 l h.2 x)
theorem stringsMembers_of_utf8 : ∀ l : List (String × J), J.utf8Members l = true →
    ∀ s ∈ J.stringsMembers l, ∃ t : String, s = unicodeBytes t
  | [], _, x, hx => by simp [J.stringsMembers] at hx
  | m :: l, h, x, hx => by
    rw [J.utf8Members, Bool.and_eq_true] at h
    rw [J.stringsMembers, List.mem_append] at hx
    exact hx.elim (strings_of_utf8 m.2 h.1 x) (stringsMembers_of_utf8 l h.2 x)
end

theorem valid_of_utf8 {env : Env} (he : env.Utf8) : env.Valid :=
  ⟨fun t => (validUtf8_iff _).mpr (he.formatTime t), (validUtf8_iff _).mpr he.what⟩

theorem tmc_valid_of_utf8 {env : TmcEnv} (he : env.Utf8) : env.Valid where
  description c e h := by
    obtain ⟨s, t, h1, -⟩ := he.events c e h
    exact (validUtf8_iff _).mpr ⟨s, h1⟩
  withQuantifier c e h := by
    obtain ⟨s, t, -, h1⟩ := he.events c e h
    exact (validUtf8_iff _).mpr ⟨t, h1⟩
  supplementary c s h := (validUtf8_iff _).mpr (he.supplementary c s h)
  point t lcd p h := by
    obtain ⟨a, b, h1, h2⟩ := he.points t lcd p h
    exact ⟨(validUtf8_iff _).mpr ⟨a, h1⟩, (validUtf8_iff _).mpr ⟨b, h2⟩⟩
  road t lcd p h := by
    obtain ⟨a, b, h1, h2⟩ := he.roads t lcd p h
    exact ⟨(validUtf8_iff _).mpr ⟨a, h1⟩, (validUtf8_iff _).mpr ⟨b, h2⟩⟩

/-- The texts of a station stay clean. -/
theorem receive_clean {env : Env} (hk : env.tmc.KeysOk) (he : env.Valid) {o : Options} {w : Nat} {p : Word}
    {gs : List Group} {st : Station} {ls : List (Option Line)}
    (h : Station.receive env (Station.withPI o w p) gs = some (st, ls)) : st.Clean :=
  (receive_induction hk (fun _ st => st.Clean) (clean_withPI o w p)
    (fun _ _ g _ _ hg hc hu => (update_sound he hc g (hk := hk) hg hu).1) gs st ls h).1

/-- **C71.** Every line that is printed is a JSON object, and all strings in it are UTF-8 encodings of Unicode
texts, whatever was received: `gs` are the groups so far and `g` the next one. This holds for groups that do not
carry a text in another character set or refer to parts of a text (`plainGroup`); if a traffic message may be
carried, for tables of events and places in UTF-8. What is missing for the full property: 15A groups, RadioText
Plus, enhanced RadioText and enhanced RadioText Plus. For these it is violated, see
`C71_radiotext_plus_violated` and `C71_long_ps_violated`. -/
theorem C71_valid_output_partial (env : Env) (hk : env.tmc.KeysOk) (he : env.Utf8) (o : Options) (w : Nat) (p : Word)
    (gs : List Group) (st : Station) (ls : List (Option Line))
    (h : Station.receive env (Station.withPI o w p) gs = some (st, ls)) (g : Group) (st' : Station) (l : Line)
    (hu : st.updateAndPrint env g = some (st', some l))
    (hg : g.hasType = true → plainGroup (assignedApp (decodedGroups gs ls) g.type) g.type = true)
    (ht : trafficGroup (assignedApp (decodedGroups gs ls) g.type) g.type = true → env.tmc.Utf8) :
    ∃ j, l = .json j ∧ ∀ s ∈ j.strings, ∃ t : String, s = unicodeBytes t := by
  have hv := valid_of_utf8 he
  obtain ⟨-, hgood⟩ := receive_facts hk h
  have hoda := C47_latest_assignment env hk o w p gs st ls h g.type
  obtain ⟨j, hj, hs⟩ := (update_sound hv (receive_clean hk hv h) g (hk := hk) hgood hu).2 (by
    intro hty hC hfix
    have hp := hg hty
    rw [← hoda] at hp ht
    simp only [plainGroup, Bool.or_eq_true, decide_eq_true_eq, or_assoc] at hp
    rcases hp with hp | hp | hp
    · exact absurd hp hC
    · exact absurd hp hfix
    constructor
    · intro app ha
      rw [ha] at hp ht
      simp only [List.mem_cons, List.not_mem_nil, or_false, not_or, decide_eq_true_eq] at hp
      refine ⟨hp.1, hp.2.1, hp.2.2, fun happ => tmc_valid_of_utf8 (ht ?_)⟩
      rw [trafficGroup, decide_eq_true hfix, Bool.true_and]
      rcases happ with rfl | rfl <;> rfl
    · intro ha
      rw [ha] at hp ht
      refine ⟨by simpa using hp, fun h8 => tmc_valid_of_utf8 (ht ?_)⟩
      rw [h8]
      decide) l rfl
  exact ⟨j, hj, strings_of_utf8 j hs⟩

/-- The kind of each line. -/
def demoKinds (gs : List Group) : Option (List Nat) :=
  (Station.receive demoEnv (Station.withPI {} 0 0x6204) gs).map fun r => r.2.map fun l => match l with
    | none => 0
    | some (.json _) => 1
    | some .error => 2
    | some (.hex _) => 3

/-- A text with characters that take two and three bytes, "Ærø € é", in 2A groups. -/
def demoUnicode : List Group :=
  [demoGroup 0x6204 0x2000 0xE272 0xF720, demoGroup 0x6204 0x2001 0xA920 0x820D]

example : demoKinds demoUnicode = some [1, 1] ∧
    demoMember (demoUnicode.take 1) (demoGroup 0x6204 0x2001 0xA920 0x820D) ["radiotext"] =
      some [0xC3, 0x86, 0x72, 0xC3, 0xB8, 0x20, 0xE2, 0x82, 0xAC, 0x20, 0xC3, 0xA9] := by decide +kernel

example : plainGroup none ⟨2, .A⟩ = true ∧ plainGroup (some 0xCD46) ⟨8, .A⟩ = true ∧
    trafficGroup (some 0xCD46) ⟨8, .A⟩ = true ∧ plainGroup (some 0x4BD7) ⟨11, .A⟩ = false ∧
    plainGroup none ⟨15, .A⟩ = false ∧ plainGroup (some 0x0093) ⟨12, .A⟩ = true := by decide

theorem demoEnv_utf8 : demoEnv.Utf8 := by
  have hn : ([] : Str) = unicodeBytes "" := by rw [unicodeBytes_eq]; rfl
  exact ⟨fun _ => ⟨"", hn⟩, ⟨"", hn⟩⟩

/-- The full C71 is violated by RadioText Plus: the RadioText is "éa b", and a tag of one character after the first
one is printed as the second byte of "é" and "a". Instead of the line, `{"debug": …}` is printed. -/
theorem C71_radiotext_plus_violated : demoEnv.Utf8 ∧
    demoKinds [demoGroup 0x6204 0x3016 0x0000 0x4BD7, demoGroup 0x6204 0x2000 0x8261 0x2062,
      demoGroup 0x6204 0x2001 0x0D20 0x2020, demoGroup 0x6204 0xB000 0x2080 0x0000] = some [1, 1, 1, 2] ∧
    demoMember [demoGroup 0x6204 0x3016 0x0000 0x4BD7, demoGroup 0x6204 0x2000 0x8261 0x2062]
      (demoGroup 0x6204 0x2001 0x0D20 0x2020) ["radiotext"] = some (unicodeBytes "éa b") := by
  refine ⟨demoEnv_utf8, by decide +kernel, ?_⟩
  rw [unicodeBytes_eq]
  decide +kernel

/-- The full C71 is violated by 15A groups: received bytes are printed as they are. Instead of the line,
`{"debug": …}` is printed. -/
theorem C71_long_ps_violated : demoEnv.Utf8 ∧
    demoKinds [demoGroup 0x6204 0xF000 0xC341 0x4242, demoGroup 0x6204 0xF001 0x0D20 0x2020] = some [1, 2] :=
  ⟨demoEnv_utf8, by decide +kernel⟩

/-! ### The tables in the program -/

/-- The line is ASCII. -/
def asciiLine (l : Str) : Bool := l.all fun b => decide (b.toNat < 0x80)

theorem ascii_lines0 : eventLines0.all asciiLine = true := by decide +kernel
theorem ascii_lines1 : eventLines1.all asciiLine = true := by decide +kernel
theorem ascii_lines2 : eventLines2.all asciiLine = true := by decide +kernel
theorem ascii_lines3 : eventLines3.all asciiLine = true := by decide +kernel
theorem ascii_lines4 : eventLines4.all asciiLine = true := by decide +kernel
theorem ascii_lines5 : eventLines5.all asciiLine = true := by decide +kernel
theorem ascii_lines6 : eventLines6.all asciiLine = true := by decide +kernel
theorem ascii_lines7 : eventLines7.all asciiLine = true := by decide +kernel
theorem ascii_lines8 : eventLines8.all asciiLine = true := by decide +kernel
theorem ascii_lines9 : eventLines9.all asciiLine = true := by decide +kernel
theorem ascii_lines10 : eventLines10.all asciiLine = true := by decide +kernel
theorem ascii_lines11 : eventLines11.all asciiLine = true := by decide +kernel
theorem ascii_lines12 : eventLines12.all asciiLine = true := by decide +kernel
theorem ascii_lines13 : eventLines13.all asciiLine = true := by decide +kernel
theorem ascii_lines14 : eventLines14.all asciiLine = true := by decide +kernel
theorem ascii_lines15 : eventLines15.all asciiLine = true := by decide +kernel
theorem ascii_supplementary0 : supplementaryLines0.all asciiLine = true := by decide +kernel
theorem ascii_supplementary1 : supplementaryLines1.all asciiLine = true := by decide +kernel

theorem ascii_events (line : Str) (h : line ∈ eventLines) : ∀ b ∈ line, b.toNat < 0x80 := by
  have : eventLines.all asciiLine = true := by
    unfold eventLines
    simp only [List.all_append, ascii_lines0, ascii_lines1, ascii_lines2, ascii_lines3, ascii_lines4, ascii_lines5,
      ascii_lines6, ascii_lines7, ascii_lines8, ascii_lines9, ascii_lines10, ascii_lines11, ascii_lines12,
      ascii_lines13, ascii_lines14, ascii_lines15, Bool.and_self]
  have := List.all_eq_true.mp this line h
  exact fun b hb => of_decide_eq_true (List.all_eq_true.mp this b hb)

theorem ascii_suppl (line : Str) (h : line ∈ tmcDataSuppl) : ∀ b ∈ line, b.toNat < 0x80 := by
  have : tmcDataSuppl.all asciiLine = true := by
    unfold tmcDataSuppl
    simp only [List.all_append, ascii_supplementary0, ascii_supplementary1, Bool.and_self]
  have := List.all_eq_true.mp this line h
  exact fun b hb => of_decide_eq_true (List.all_eq_true.mp this b hb)

theorem cell_in_line {d : Byte} {cells : List Str} {x : Str} (hx : x ∈ cells) {b : Byte} (hb : b ∈ x) :
    b ∈ joinCells d cells := by
  unfold joinCells
  induction cells with
  | nil => cases hx
  | cons c cells ih =>
    cases cells with
    | nil =>
      rw [List.mem_singleton] at hx
      rw [List.intercalate_singleton, ← hx]
      exact hb
    | cons c' cells =>
      rw [List.intercalate_cons_cons, List.mem_append, List.mem_append]
      rcases List.mem_cons.mp hx with rfl | hx
      · exact .inl (.inl hb)
      · exact .inr (ih hx)

/-- **C71**, the tables of events and supplementary information in the program are UTF-8. -/
theorem C71_builtin_tables : ∃ events supplementary, loadEvents tmcDataEvents = some events ∧
    loadSupplementary tmcDataSuppl = some supplementary ∧
    (∀ c e, events.lookup c = some e → ∃ s t : String,
      e.description = unicodeBytes s ∧ e.descriptionWithQuantifier = unicodeBytes t) ∧
    ∀ c s, supplementary.lookup c = some s → ∃ t : String, s = unicodeBytes t := by
  obtain ⟨events, h1, -, h3⟩ := C67_builtin_events
  obtain ⟨supplementary, k1, -, k3⟩ := C67_builtin_supplementary
  refine ⟨events, supplementary, h1, k1, ?_, ?_⟩
  · intro c e hl
    obtain ⟨r, hm, -, hd⟩ := h3 c e hl
    have ha := ascii_events _ hm
    have hsub : ∀ x ∈ r.cells, Utf8 x := fun x hx => utf8_bytes fun b hb => ha b (cell_in_line hx hb)
    obtain ⟨s, hs⟩ := (validUtf8_iff _).mp (hsub r.text (by simp [EventRow.cells])).valid
    obtain ⟨t, ht⟩ := (validUtf8_iff _).mp (hsub r.textWithQ (by simp [EventRow.cells])).valid
    exact ⟨s, t, hd.description.trans hs, hd.descriptionWithQuantifier.trans ht⟩
  · intro c s hl
    have ha := ascii_suppl _ (k3 c s hl)
    exact (validUtf8_iff _).mp (utf8_bytes fun b hb => ha b (List.mem_append_right _ hb)).valid

end Redsea
