import Verif.Spec.Texts
import Verif.Lemmas.StationSlots
import Verif.Props.GroupFields
import Verif.Lemmas.RadioText

/-
The texts of a station after a history, and the members of a printed group.
-/

namespace Redsea

open _root_.Redsea.Spec

theorem historyFrom_snoc {α : Type} (f : List Group → Group → List α) (before gs : List Group) (g : Group) :
    historyFrom f before (gs ++ [g]) = historyFrom f before gs ++ f (before ++ gs) g := by
  induction gs generalizing before with
  | nil => simp [historyFrom]
  | cons a gs ih =>
    simp only [List.cons_append, historyFrom, ih, List.append_assoc, List.nil_append]

theorem history_snoc {α : Type} (f : List Group → Group → List α) (gs : List Group) (g : Group) :
    history f (gs ++ [g]) = history f gs ++ f gs g := by
  unfold history
  rw [historyFrom_snoc, List.nil_append]

/-- A fact about the texts that holds at first and is kept by every group holds after every
history. -/
theorem slots_induction {env : Env} (hk : env.tmc.KeysOk) {o : Options} {w : Nat} {p : Word}
    (P : List Group → Slots → Prop) (h0 : P [] (Station.withPI o w p).slots)
    (hno : ∀ ds s g, g.hasType = false → P ds s → P (ds ++ [g]) s)
    (hstep : ∀ ds s g, g.hasType = true → P ds s →
      P (ds ++ [g]) (slotsNext env o (assignedApp ds g.type) s g))
    (gs : List Group) (st : Station) (ls : List (Option Line))
    (h : Station.receive env (Station.withPI o w p) gs = some (st, ls)) :
    P (decodedGroups gs ls) st.slots := by
  induction gs using snocInduction generalizing st ls with
  | nil => cases h; exact h0
  | snoc gs g ih =>
    rw [receive_snoc, Option.bind_eq_some_iff] at h
    obtain ⟨⟨st1, ls1⟩, h1, h⟩ := h
    obtain ⟨q, hu, he⟩ := Option.map_eq_some_iff.1 h
    cases he
    have ih := ih st1 ls1 h1
    have ha := C47_latest_assignment env hk o w p gs st1 ls1 h1
    obtain ⟨⟨ho, -⟩, hgood⟩ := receive_facts hk h1
    rw [decodedGroups_snoc _ _ _ _ (receive_length h1)]
    obtain ⟨b, hnone, hsome⟩ := update_step hk hgood hu
    cases hl : q.2 with
    | none =>
      simp only [Option.isSome_none, Bool.false_eq_true, if_false, List.append_nil]
      rcases hnone hl with h | h <;> rw [h] <;> exact ih
    | some l1 =>
      obtain ⟨basics, body, j, -, -, hd, -, -, frame⟩ := hsome l1 hl
      simp only [Option.isSome_some, if_true]
      by_cases ht : g.hasType = true
      · rw [if_pos ht] at hd
        rw [dispatch_slots hd]
        dsimp only
        rw [ha, ho]
        exact hstep _ _ g ht ih
      · rw [if_neg ht] at hd
        rw [show q.1 = _ from (congrArg Prod.fst (Option.some.inj hd)).symm]
        exact hno _ _ g (by simpa using ht) ih

/-! ### The single fields -/

theorem ite_ind {α : Type} {P : α → Prop} {c : Prop} [Decidable c] {a b : α} (ha : P a) (hb : P b) :
    P (if c then a else b) := by split <;> assumption

theorem slotsNext_ps (env : Env) (o : Options) (app : Option Word) (s : Slots) (g : Group) :
    (slotsNext env o app s g).ps =
      if (g.type = ⟨0, .A⟩ ∨ g.type = ⟨0, .B⟩) ∧ g.has .b3 = true ∧ g.has .b4 = true then
        s.ps.set2 env.ucs2 (getBits 2 (g.get .b2) 0 * 2) (getUint8 (g.get .b4) 8) (getUint8 (g.get .b4) 0)
      else s.ps := by
  unfold slotsNext appSlots
  by_cases h0 : g.type.version ≠ .C ∧ g.type.number = 0
  · have ht : g.type = ⟨0, .A⟩ ∨ g.type = ⟨0, .B⟩ := by
      rw [type_cases, type_cases]
      cases hv : g.type.version
      · exact .inl ⟨h0.2, rfl⟩
      · exact .inr ⟨h0.2, rfl⟩
      · exact absurd hv h0.1
    rw [if_neg h0.1, if_pos h0.2]
    cases g.has .b3 <;> cases g.has .b4 <;> simp [ht]
  · have ht : ¬ (g.type = ⟨0, .A⟩ ∨ g.type = ⟨0, .B⟩) := by
      rw [type_cases, type_cases]
      rintro (⟨h1, h2⟩ | ⟨h1, h2⟩)
      · exact h0 ⟨by rw [h2]; decide, h1⟩
      · exact h0 ⟨by rw [h2]; decide, h1⟩
    rw [if_neg (c := (g.type = ⟨0, .A⟩ ∨ g.type = ⟨0, .B⟩) ∧ _) (fun hx => ht hx.1)]
    by_cases hC : g.type.version = .C
    · rw [if_pos hC]
    rw [if_neg hC, if_neg (fun hx => h0 ⟨hC, hx⟩)]
    cases app <;> repeat' (first | refine ite_ind (P := fun x : Slots => x.ps = s.ps) ?_ ?_ | rfl)

theorem slotsNext_ptyname (env : Env) (o : Options) (app : Option Word) (s : Slots) (g : Group) :
    (slotsNext env o app s g).ptyname =
      if g.type = ⟨10, .A⟩ ∧ g.has .b3 = true ∧ g.has .b4 = true then
          { text := ((if s.ptyname.ab != getBool (g.get .b2) 4 then s.ptyname.text.clear
                else s.ptyname.text).set2 env.ucs2 (getBits 1 (g.get .b2) 0 * 4) (getUint8 (g.get .b3) 8)
                (getUint8 (g.get .b3) 0)).set2 env.ucs2 (getBits 1 (g.get .b2) 0 * 4 + 2)
                (getUint8 (g.get .b4) 8) (getUint8 (g.get .b4) 0)
            ab := getBool (g.get .b2) 4 }
      else s.ptyname := by
  unfold slotsNext appSlots
  by_cases ht : g.type = ⟨10, .A⟩
  · rw [ht]
    cases g.has .b3 <;> cases g.has .b4 <;> simp
  · rw [if_neg (c := g.type = ⟨10, .A⟩ ∧ _) (fun hx => ht hx.1), if_neg ht]
    cases app <;> repeat' (first | refine ite_ind (P := fun x : Slots => x.ptyname = s.ptyname) ?_ ?_ | rfl)

theorem slotsNext_longPs (env : Env) (o : Options) (app : Option Word) (s : Slots) (g : Group) :
    (slotsNext env o app s g).longPs =
      if g.type = ⟨15, .A⟩ ∧ app = none then
            let text := if g.has .b3 then s.longPs.set2 env.ucs2 (getBits 3 (g.get .b2) 0 * 4)
                (getUint8 (g.get .b3) 8) (getUint8 (g.get .b3) 0) else s.longPs
            if g.has .b4 then text.set2 env.ucs2 (getBits 3 (g.get .b2) 0 * 4 + 2)
              (getUint8 (g.get .b4) 8) (getUint8 (g.get .b4) 0) else text
      else s.longPs := by
  unfold slotsNext appSlots
  by_cases ht : g.type = ⟨15, .A⟩
  · rw [ht]
    cases app with
    | none => simp
    | some a =>
      simp only [reduceCtorEq, and_false, if_false]
      repeat' (first | refine ite_ind (P := fun x : Slots => x.longPs = s.longPs) ?_ ?_ | rfl)
  · rw [if_neg (c := g.type = ⟨15, .A⟩ ∧ _) (fun hx => ht hx.1), if_neg ht]
    cases app <;> repeat' (first | refine ite_ind (P := fun x : Slots => x.longPs = s.longPs) ?_ ?_ | rfl)

theorem fixed_iff (t : GroupType) (hC : t.version ≠ .C) : t ∈ fixedTypes ↔ t.number = 0 ∨ t.number = 1 ∨
    t.number = 2 ∨ t = ⟨3, .A⟩ ∨ t = ⟨4, .A⟩ ∨ t = ⟨10, .A⟩ ∨ t.number = 14 ∨ t = ⟨15, .B⟩ := by
  obtain ⟨n, v⟩ := t
  cases v
  · simp only [fixedTypes, List.mem_cons, GroupType.mk.injEq, List.not_mem_nil]
    simp
  · simp only [fixedTypes, List.mem_cons, GroupType.mk.injEq, List.not_mem_nil]
    simp
  · exact absurd rfl hC

theorem slotsNext_radiotext (env : Env) (o : Options) (app : Option Word) (s : Slots) (g : Group) :
    (slotsNext env o app s g).radiotext =
      if g.type = ⟨2, .A⟩ ∨ g.type = ⟨2, .B⟩ then (decodeType2 env.ucs2 o.showPartial s.radiotext g).1
      else if g.type.version ≠ .C ∧ g.type ∉ fixedTypes ∧ app = some 0x4BD7 then plusNext s.radiotext g
      else s.radiotext := by
  unfold slotsNext appSlots
  by_cases hC : g.type.version = .C
  · have ht : ¬ (g.type = ⟨2, .A⟩ ∨ g.type = ⟨2, .B⟩) := by
      rintro (h | h) <;> rw [h] at hC <;> cases hC
    rw [if_pos hC, if_neg ht, if_neg (c := g.type.version ≠ .C ∧ _) (fun hx => hx.1 hC)]
  rw [if_neg hC]
  by_cases h2 : g.type.number = 2
  · have ht : g.type = ⟨2, .A⟩ ∨ g.type = ⟨2, .B⟩ := by
      rw [type_cases, type_cases]
      cases hv : g.type.version
      · exact .inl ⟨h2, rfl⟩
      · exact .inr ⟨h2, rfl⟩
      · exact absurd hv hC
    rw [if_neg (by omega), if_neg (by omega), if_pos h2, if_pos ht]
  have ht : ¬ (g.type = ⟨2, .A⟩ ∨ g.type = ⟨2, .B⟩) := by
    rintro (h | h) <;> rw [h] at h2 <;> exact h2 rfl
  rw [if_neg ht, if_neg h2]
  by_cases hf : g.type ∈ fixedTypes
  · rw [if_neg (c := g.type.version ≠ .C ∧ _) (fun hx => hx.2.1 hf)]
    have := (fixed_iff g.type hC).mp hf
    rcases this with h | h | h | h | h | h | h | h
    · rw [if_pos h]
      refine ite_ind (P := fun x : Slots => x.radiotext = s.radiotext) rfl rfl
    · rw [if_neg (by omega), if_pos h]
    · exact absurd h h2
    · rw [if_neg (by rw [h]; decide), if_neg (by rw [h]; decide), if_pos h]
      repeat' (first | refine ite_ind (P := fun x : Slots => x.radiotext = s.radiotext) ?_ ?_ | rfl)
    · rw [h]; rfl
    · rw [if_neg (by rw [h]; decide), if_neg (by rw [h]; decide), if_neg (by rw [h]; decide),
        if_neg (by rw [h]; decide), if_pos h]
      repeat' (first | refine ite_ind (P := fun x : Slots => x.radiotext = s.radiotext) ?_ ?_ | rfl)
    · rw [if_neg (by omega), if_neg (by omega), if_neg (fun hx => by rw [hx] at h; cases h),
        if_neg (fun hx => by rw [hx] at h; cases h), if_neg (fun hx => by rw [hx] at h; cases h), if_pos h]
    · rw [h]; rfl
  · have := mt (fixed_iff g.type hC).mpr hf
    simp only [not_or] at this
    obtain ⟨h0, h1, -, h3, h4, h10, h14, h15⟩ := this
    rw [if_neg h0, if_neg h1, if_neg h3, if_neg h4, if_neg h10, if_neg h14, if_neg h15]
    cases app with
    | none =>
      rw [if_neg (c := g.type.version ≠ .C ∧ _) (fun hx => by cases hx.2.2)]
      repeat' (first | refine ite_ind (P := fun x : Slots => x.radiotext = s.radiotext) ?_ ?_ | rfl)
    | some a =>
      dsimp only
      by_cases ha : a = 0x4BD7
      · rw [if_pos ha, if_pos (c := g.type.version ≠ .C ∧ _) ⟨hC, hf, by rw [ha]⟩]
      · rw [if_neg ha, if_neg (c := g.type.version ≠ .C ∧ _) (fun hx => ha (Option.some.inj hx.2.2))]
        repeat' (first | refine ite_ind (P := fun x : Slots => x.radiotext = s.radiotext) ?_ ?_ | rfl)

theorem slotsNext_ert (env : Env) (o : Options) (app : Option Word) (s : Slots) (g : Group) :
    (slotsNext env o app s g).ert =
      if g.type = ⟨3, .A⟩ ∧ g.has .b3 = true ∧ g.has .b4 = true ∧ g.get .b4 = 0x6552 then
        { s.ert with text := s.ert.text.setEncoding (if getBool (g.get .b3) 0 then .utf8 else .ucs2) }
      else if g.type.version ≠ .C ∧ g.type ∉ fixedTypes ∧ app = some 0x6552 then
        (Station.parseEnhancedRT env s.ert g).1
      else if g.type.version ≠ .C ∧ g.type ∉ fixedTypes ∧ app = some 0x4BD8 then plusNext s.ert g
      else s.ert := by
  unfold slotsNext appSlots
  by_cases hC : g.type.version = .C
  · have ht : ¬ g.type = ⟨3, .A⟩ := by
      intro h; rw [h] at hC; cases hC
    rw [if_pos hC, if_neg (c := g.type = ⟨3, .A⟩ ∧ _) (fun hx => ht hx.1),
      if_neg (c := g.type.version ≠ .C ∧ _) (fun hx => hx.1 hC),
      if_neg (c := g.type.version ≠ .C ∧ _) (fun hx => hx.1 hC)]
  rw [if_neg hC]
  by_cases hf : g.type ∈ fixedTypes
  · have e1 : (if g.type.version ≠ .C ∧ g.type ∉ fixedTypes ∧ app = some 0x6552 then
        (Station.parseEnhancedRT env s.ert g).1
      else if g.type.version ≠ .C ∧ g.type ∉ fixedTypes ∧ app = some 0x4BD8 then plusNext s.ert g
      else s.ert) = s.ert := by
      rw [if_neg (c := g.type.version ≠ .C ∧ _) (fun hx => hx.2.1 hf),
        if_neg (c := g.type.version ≠ .C ∧ _) (fun hx => hx.2.1 hf)]
    rw [e1]
    have := (fixed_iff g.type hC).mp hf
    by_cases ht : g.type = ⟨3, .A⟩
    · rw [if_neg (by rw [ht]; decide), if_neg (by rw [ht]; decide), if_neg (by rw [ht]; decide), if_pos ht]
      by_cases hb : (g.has .b3 && g.has .b4) = true
      · rw [if_pos hb]
        obtain ⟨h3, h4⟩ := Bool.and_eq_true_iff.mp hb
        by_cases h6 : g.get .b4 = 0x6552
        · rw [if_pos h6, if_pos (c := g.type = ⟨3, .A⟩ ∧ _) ⟨ht, h3, h4, h6⟩]
        · rw [if_neg h6, if_neg (c := g.type = ⟨3, .A⟩ ∧ _) (fun hx => h6 hx.2.2.2)]
      · rw [if_neg hb, if_neg (c := g.type = ⟨3, .A⟩ ∧ _)
          (fun hx => hb (Bool.and_eq_true_iff.mpr ⟨hx.2.1, hx.2.2.1⟩))]
    rw [if_neg (c := g.type = ⟨3, .A⟩ ∧ _) (fun hx => ht hx.1)]
    rcases this with h | h | h | h | h | h | h | h
    · rw [if_pos h]
      refine ite_ind (P := fun x : Slots => x.ert = s.ert) rfl rfl
    · rw [if_neg (by omega), if_pos h]
    · rw [if_neg (by omega), if_neg (by omega), if_pos h]
    · exact absurd h ht
    · rw [h]; rfl
    · rw [if_neg (by rw [h]; decide), if_neg (by rw [h]; decide), if_neg (by rw [h]; decide),
        if_neg (by rw [h]; decide), if_neg (by rw [h]; decide), if_pos h]
      repeat' (first | refine ite_ind (P := fun x : Slots => x.ert = s.ert) ?_ ?_ | rfl)
    · rw [if_neg (by omega), if_neg (by omega), if_neg (by omega), if_neg (fun hx => by rw [hx] at h; cases h),
        if_neg (fun hx => by rw [hx] at h; cases h), if_neg (fun hx => by rw [hx] at h; cases h), if_pos h]
    · rw [h]; rfl
  · have := mt (fixed_iff g.type hC).mpr hf
    simp only [not_or] at this
    obtain ⟨h0, h1, h2, h3, h4, h10, h14, h15⟩ := this
    rw [if_neg h0, if_neg h1, if_neg h2, if_neg h3, if_neg h4, if_neg h10, if_neg h14, if_neg h15,
      if_neg (c := g.type = ⟨3, .A⟩ ∧ _) (fun hx => h3 hx.1)]
    cases app with
    | none =>
      rw [if_neg (c := g.type.version ≠ .C ∧ _) (fun hx => by cases hx.2.2),
        if_neg (c := g.type.version ≠ .C ∧ _) (fun hx => by cases hx.2.2)]
      repeat' (first | refine ite_ind (P := fun x : Slots => x.ert = s.ert) ?_ ?_ | rfl)
    | some a =>
      dsimp only
      by_cases h6 : a = 0x6552
      · rw [if_neg (by rw [h6]; decide), if_neg (by rw [h6]; decide), if_pos h6,
          if_pos (c := g.type.version ≠ .C ∧ _) ⟨hC, hf, by rw [h6]⟩]
      rw [if_neg (c := g.type.version ≠ .C ∧ _) (fun hx => h6 (Option.some.inj hx.2.2))]
      by_cases h8 : a = 0x4BD8
      · rw [if_neg (by rw [h8]; decide), if_pos h8,
          if_pos (c := g.type.version ≠ .C ∧ _) ⟨hC, hf, by rw [h8]⟩]
      rw [if_neg h8, if_neg (c := g.type.version ≠ .C ∧ _) (fun hx => h8 (Option.some.inj hx.2.2)), if_neg h6]
      exact ite_ind (P := fun x : Slots => x.ert = s.ert) rfl rfl

theorem decodeC_keys (st : Station) (g : Group) :
    KeysOf ["open_data_app", "rft", "debug"] (st.decodeC g) := by
  unfold Station.decodeC
  refine keysOf_ite (fun _ => keysOf_some keys_nil) fun _ => ?_
  simp only [Option.bind_eq_bind, Option.pure_def]
  refine keysOf_bind fun files _ => keysOf_ite (fun _ => keysOf_some (by keys_ok)) fun _ =>
    keysOf_ite (fun _ => keysOf_some ?_) fun _ => keysOf_ite (fun _ => keysOf_some (by keys_ok)) fun _ =>
    keysOf_ite (fun _ => keysOf_ite (fun _ => keysOf_some ?_) fun _ => keysOf_some (by keys_ok)) fun _ =>
    keysOf_some (by keys_ok)
  · refine keys_append (keys_append (keys_toList fun a => on_set _ _ ⟨_, rfl, by simp⟩) (by keys_ok))
      (keys_toList fun a => on_set _ _ ⟨_, rfl, by simp⟩)
  · refine keys_append (by keys_ok) (keys_ite ?_ (by keys_ok))
    unfold Station.rftInfoOps
    dsimp only
    refine keys_ite (by keys_ok) (keys_ite (keys_ite (by keys_ok) (keys_ite (by keys_ok) (by keys_ok)))
      (keys_ite (by keys_ok) (by keys_ok)))

/-- The members that a group can have besides the common ones. -/
def ownMembers (g : Group) (app : Option Word) : List String :=
  if !g.hasType then []
  else if g.type.version = .C then ["open_data_app", "rft", "debug"]
  else if g.type ∈ fixedTypes then fixedMembers g.type
  else match app with
    | some a => appMembers a
    | none => primaryMembers g.type

/-- A printed group: its operations, and the texts before and after. -/
theorem text_parts {env : Env} (hk : env.tmc.KeysOk) {o : Options} {w : Nat} {p : Word} {gs : List Group}
    {st : Station} {ls : List (Option Line)}
    (h : Station.receive env (Station.withPI o w p) gs = some (st, ls)) {g : Group} {st' : Station} {j : J}
    (hu : st.updateAndPrint env g = some (st', some (.json j))) :
    ∃ hd body, J.build (hd ++ body) .null = some j ∧ KeysIn commonMembers hd ∧
      KeysIn (ownMembers g (assignedApp (decodedGroups gs ls) g.type)) body ∧
      Station.receive env (Station.withPI o w p) (gs ++ [g]) = some (st', ls ++ [some (.json j)]) ∧
      decodedGroups (gs ++ [g]) (ls ++ [some (.json j)]) = decodedGroups gs ls ++ [g] ∧
      (g.hasType = true → ∃ b, Station.dispatch env { st with lastGroupHadPi := b } g = some (st', body)) ∧
      st.options = o ∧ (∀ t, st.odaForGroup t = assignedApp (decodedGroups gs ls) t) := by
  obtain ⟨⟨ho, -⟩, hgood⟩ := receive_facts hk h
  have hoda := C47_latest_assignment env hk o w p gs st ls h
  obtain ⟨b, -, hsome⟩ := update_step hk hgood hu
  obtain ⟨basics, body, j1, hb, hl, hd, hkb, -, -⟩ := hsome _ rfl
  have := printJson_inj hl
  subst this
  refine ⟨st.headerOps env g ++ basics, body, hb,
    keys_append (header_keys env st g) (keys_mono hkb (by simp [commonMembers])), ?_, ?_, ?_, ?_, ho, hoda⟩
  · unfold ownMembers
    by_cases ht : g.hasType = true
    · rw [if_pos ht] at hd
      simp only [ht, Bool.not_true, Bool.false_eq_true, if_false]
      by_cases hC : g.type.version = .C
      · rw [if_pos hC]
        unfold Station.dispatch at hd
        dsimp only at hd
        rw [if_pos hC] at hd
        exact decodeC_keys _ g _ hd
      · rw [if_neg hC, ← hoda]
        exact dispatch_keys env { st with lastGroupHadPi := b } g hC _ hd
    · rw [if_neg ht] at hd
      have := some_snd hd
      rw [this]
      exact keys_nil
  · rw [receive_snoc, h]
    simp only [Option.bind_some]
    rw [hu]
    rfl
  · rw [decodedGroups_snoc _ _ _ _ (receive_length h)]
    rfl
  · intro ht
    rw [if_pos ht] at hd
    exact ⟨b, hd⟩

/-- A member that the group does not have. -/
theorem member_none {hd body : List JOp} {j : J} (hb : J.build (hd ++ body) .null = some j)
    (hkd : KeysIn commonMembers hd) {k : String} (hn : k ∉ commonMembers)
    (ha : ∀ op ∈ body, op.Away [k]) : j.at? [k] = none := by
  rw [at_build_other [k] _ .null j (by
    intro op hop
    rcases List.mem_append.mp hop with hop | hop
    · exact keysIn_away hkd k [] hn op hop
    · exact ha op hop) hb]
  rfl

/-- A member that the group sets. -/
theorem member_set {hd pre post : List JOp} {j : J} {k : String} {v : J}
    (hb : J.build (hd ++ (pre ++ JOp.set [k] v :: post)) .null = some j)
    (ha : ∀ op ∈ post, op.Away [k]) : j.at? [k] = some v := by
  rw [← List.append_assoc] at hb
  exact at_build_set [k] v _ post .null j ha hb

end Redsea
