import Verif.Lemmas.StationHistory
import Verif.Spec.Station

/-
The parts of a station that are built up over many groups, and which groups change them.
-/

namespace Redsea

/-- Texts and lists of a station. -/
structure Slots where
  ps : RDSString
  altFreq : AltFreqList
  longPs : RDSString
  radiotext : RadioText
  ert : RadioText
  ptyname : PTYName
  fullTdc : RDSString

def Station.slots (st : Station) : Slots :=
  ⟨st.ps, st.altFreq, st.longPs, st.radiotext, st.ert, st.ptyname, st.fullTdc⟩

/-- Radiotext after the flags of RadioText Plus. -/
def plusNext (rt : RadioText) (g : Group) : RadioText :=
  if getBool (g.get .b2) 4 != rt.plus.toggle || getBool (g.get .b2) 3 != rt.plus.itemRunning then
    { rt with text := rt.text.clear
              plus := { toggle := getBool (g.get .b2) 4, itemRunning := getBool (g.get .b2) 3 } }
  else rt

/-- The slots after a group of an application. -/
def appSlots (env : Env) (a : Word) (s : Slots) (g : Group) : Slots :=
  if a = 0x4BD7 then { s with radiotext := plusNext s.radiotext g }
  else if a = 0x4BD8 then { s with ert := plusNext s.ert g }
  else if a = 0x6552 then { s with ert := (Station.parseEnhancedRT env s.ert g).1 }
  else s

/-- The slots after a group with a type, if `app` is assigned to the type. -/
def slotsNext (env : Env) (o : Options) (app : Option Word) (s : Slots) (g : Group) : Slots :=
  if g.type.version = .C then s
  else if g.type.number = 0 then
    if !g.has .b3 then { s with altFreq := (afMissing s.altFreq).getD s.altFreq }
    else
      { s with
        altFreq := if g.type.version = .A then
            ((afReceive o.showPartial s.altFreq (g.get .b3)).map Prod.fst).getD s.altFreq else s.altFreq
        ps := if g.has .b4 then s.ps.set2 env.ucs2 (getBits 2 (g.get .b2) 0 * 2) (getUint8 (g.get .b4) 8)
          (getUint8 (g.get .b4) 0) else s.ps }
  else if g.type.number = 1 then s
  else if g.type.number = 2 then
    { s with radiotext := (decodeType2 env.ucs2 o.showPartial s.radiotext g).1 }
  else if g.type = ⟨3, .A⟩ then
    if g.has .b3 && g.has .b4 then
      if g.get .b4 = 0x6552 then
        { s with ert := { s.ert with
            text := s.ert.text.setEncoding (if getBool (g.get .b3) 0 then .utf8 else .ucs2) } }
      else s
    else s
  else if g.type = ⟨4, .A⟩ then s
  else if g.type = ⟨10, .A⟩ then
    if g.has .b3 && g.has .b4 then
      { s with ptyname :=
          { text := ((if s.ptyname.ab != getBool (g.get .b2) 4 then s.ptyname.text.clear
                else s.ptyname.text).set2 env.ucs2 (getBits 1 (g.get .b2) 0 * 4) (getUint8 (g.get .b3) 8)
                (getUint8 (g.get .b3) 0)).set2 env.ucs2 (getBits 1 (g.get .b2) 0 * 4 + 2)
                (getUint8 (g.get .b4) 8) (getUint8 (g.get .b4) 0)
            ab := getBool (g.get .b2) 4 } }
    else s
  else if g.type.number = 14 then s
  else if g.type = ⟨15, .B⟩ then s
  else match app with
    | some a => appSlots env a s g
    | none =>
      if g.type = ⟨5, .A⟩ then
        { s with
          fullTdc := (s.fullTdc.set2 env.ucs2 (getBits 5 (g.get .b2) 0 * 4) (getUint8 (g.get .b3) 8)
            (getUint8 (g.get .b3) 0)).set2 env.ucs2 (getBits 5 (g.get .b2) 0 * 4 + 2)
            (getUint8 (g.get .b4) 8) (getUint8 (g.get .b4) 0) }
      else if g.type = ⟨15, .A⟩ then
        { s with
          longPs :=
            let text := if g.has .b3 then s.longPs.set2 env.ucs2 (getBits 3 (g.get .b2) 0 * 4)
                (getUint8 (g.get .b3) 8) (getUint8 (g.get .b3) 0) else s.longPs
            if g.has .b4 then text.set2 env.ucs2 (getBits 3 (g.get .b2) 0 * 4 + 2)
              (getUint8 (g.get .b4) 8) (getUint8 (g.get .b4) 0) else text }
      else s

theorem decodeC_slots {st st' : Station} {g : Group} {ops : List JOp}
    (h : st.decodeC g = some (st', ops)) : st'.slots = st.slots := by
  unfold Station.decodeC at h
  dsimp only at h
  split at h
  · cases h; rfl
  · obtain ⟨f, -, h⟩ := Option.bind_eq_some_iff.mp h
    split at h
    · cases h; rfl
    split at h
    · cases h; rfl
    split at h
    · cases h; rfl
    split at h
    · split at h
      · cases h; rfl
      · cases h; rfl
    · cases h; rfl

theorem decodeTmc_slots {env : Env} {st st' : Station} {g : Group} {ops : List JOp}
    (h : st.decodeTmc env g = some (st', ops)) : st'.slots = st.slots := by
  unfold Station.decodeTmc at h
  split at h
  · obtain ⟨f, -, h⟩ := Option.bind_eq_some_iff.mp h
    cases h; rfl
  · cases h; rfl

theorem decodePs_slots (env : Env) (st : Station) (g : Group) :
    (st.decodePs env g).1.slots = { st.slots with
      ps := if g.has .b4 then st.ps.set2 env.ucs2 (getBits 2 (g.get .b2) 0 * 2) (getUint8 (g.get .b4) 8)
        (getUint8 (g.get .b4) 0) else st.ps } := by
  unfold Station.decodePs
  cases g.has .b4 <;> rfl

theorem decodeType14_slots {env : Env} {st st' : Station} {g : Group} {ops : List JOp}
    (h : st.decodeType14 env g = some (st', ops)) : st'.slots = st.slots := by
  unfold Station.decodeType14 at h
  dsimp only at h
  split at h
  · cases h; rfl
  split at h
  · cases h; rfl
  split at h
  · cases h; rfl
  obtain ⟨r, hr, h⟩ := Option.bind_eq_some_iff.mp h
  cases h
  unfold Station.eonVariant at hr
  dsimp only at hr
  split at hr
  · cases hr; rfl
  split at hr
  · obtain ⟨l1, h1, hr⟩ := Option.bind_eq_some_iff.1 hr
    obtain ⟨l2, h2, hr⟩ := Option.bind_eq_some_iff.1 hr
    split at hr
    · obtain ⟨raw, -, hr⟩ := Option.bind_eq_some_iff.1 hr
      cases hr; rfl
    · cases hr; rfl
  split at hr
  · cases hr; rfl
  split at hr
  · cases hr; rfl
  split at hr
  · obtain ⟨raw, -, hr⟩ := Option.bind_eq_some_iff.1 hr
    cases hr; rfl
  split at hr
  · cases hr; rfl
  split at hr
  · cases hr; rfl
  · cases hr; rfl

theorem parsePlus_slots {key : String} {rt : RadioText} {g : Group} {r : RadioText × List JOp}
    (h : Station.parseRadioTextPlus key rt g = some r) : r.1 = plusNext rt g := by
  have hp : plusNext rt g = plusNext rt g := rfl
  unfold Station.parseRadioTextPlus at h
  simp only [Option.bind_eq_bind, Option.pure_def] at h
  conv at hp => lhs; unfold plusNext
  rw [hp] at h
  split at h <;> split at h <;>
  · obtain ⟨t1, h1, hr⟩ := Option.bind_eq_some_iff.1 h
    obtain ⟨t2, h2, hr⟩ := Option.bind_eq_some_iff.1 hr
    cases hr
    rfl

theorem decodeODAApp_slots {env : Env} {st st' : Station} {g : Group} {ops : List JOp} {a : Word}
    (h : st.decodeODAApp env g a = some (st', ops)) : st'.slots = appSlots env a st.slots g := by
  unfold appSlots
  unfold Station.decodeODAApp at h
  split at h
  · rename_i ha
    subst ha
    obtain ⟨x, -, h⟩ := Option.map_eq_some_iff.mp h
    cases h; rfl
  split at h
  · rename_i ha
    subst ha
    obtain ⟨x, hx, h⟩ := Option.map_eq_some_iff.mp h
    cases h
    rw [if_pos rfl]
    unfold Station.slots
    dsimp only
    rw [parsePlus_slots hx]
  split at h
  · rename_i ha
    subst ha
    obtain ⟨x, hx, h⟩ := Option.map_eq_some_iff.mp h
    cases h
    rw [if_neg (by decide), if_pos rfl]
    unfold Station.slots
    dsimp only
    rw [parsePlus_slots hx]
  split at h
  · rename_i ha
    subst ha
    cases h
    rfl
  rename_i h1 h2 h3 h4
  rw [if_neg h2, if_neg h3, if_neg h4]
  split at h
  · exact decodeTmc_slots h
  · cases h; rfl

theorem dispatch_slots {env : Env} {st st' : Station} {g : Group} {ops : List JOp}
    (h : st.dispatch env g = some (st', ops)) :
    st'.slots = slotsNext env st.options (st.odaForGroup g.type) st.slots g := by
  unfold Station.dispatch at h
  dsimp only at h
  by_cases hC : g.type.version = .C
  · rw [if_pos hC] at h
    unfold slotsNext
    rw [decodeC_slots h, if_pos hC]
  rw [if_neg hC] at h
  unfold slotsNext
  rw [if_neg hC]
  by_cases h0 : g.type.number = 0
  · rw [if_pos h0] at h ⊢
    unfold Station.decodeType0 at h
    obtain ⟨key, -, h⟩ := Option.bind_eq_some_iff.mp h
    dsimp only at h
    split at h
    · rename_i h3
      rw [if_pos h3]
      obtain ⟨af, haf, h⟩ := Option.bind_eq_some_iff.mp h
      cases h
      rw [show st.slots.altFreq = st.altFreq from rfl, haf]
      rfl
    rename_i h3
    rw [if_neg h3]
    split at h
    · rename_i hA
      obtain ⟨r, hr, h⟩ := Option.bind_eq_some_iff.mp h
      cases h
      rw [decodePs_slots, if_pos hA, show st.slots.altFreq = st.altFreq from rfl, hr]
      rfl
    · rename_i hA
      cases h
      rw [decodePs_slots, if_neg hA]
      rfl
  rw [if_neg h0] at h ⊢
  by_cases h1 : g.type.number = 1
  · rw [if_pos h1] at h ⊢
    obtain ⟨x, -, h⟩ := Option.map_eq_some_iff.mp h
    cases h; rfl
  rw [if_neg h1] at h ⊢
  by_cases h2 : g.type.number = 2
  · rw [if_pos h2] at h ⊢
    cases h; rfl
  rw [if_neg h2] at h ⊢
  by_cases h3 : g.type.number = 3 ∧ g.type.version = .A
  · rw [if_pos h3] at h
    rw [if_pos ((type_cases _ _ _).mpr h3)]
    unfold Station.decodeType3A at h
    split at h
    · rename_i hb
      cases h
      rw [if_neg (by rcases (by simpa using hb : _ ∨ _) with h | h <;> simp [h])]
    rename_i hb
    rw [if_pos (by simpa using hb)]
    rw [if_neg (fun hx => hx h3.2)] at h
    dsimp only at h
    split at h
    · rename_i ha
      cases h
      rw [ha, if_neg (by decide)]
      rfl
    split at h
    · rename_i ha
      cases h
      rw [ha, if_neg (by decide)]
      rfl
    split at h
    · rename_i ha
      cases h
      rw [ha, if_neg (by decide)]
      rfl
    split at h
    · rename_i ha
      cases h
      rw [if_pos ha]
      rfl
    rename_i ha
    rw [if_neg ha]
    split at h
    · obtain ⟨x, -, h⟩ := Option.bind_eq_some_iff.mp h
      cases h; rfl
    · cases h; rfl
  rw [if_neg h3] at h
  rw [if_neg (fun hx => h3 ((type_cases _ _ _).mp hx))]
  by_cases h4 : g.type.number = 4 ∧ g.type.version = .A
  · rw [if_pos h4] at h
    rw [if_pos ((type_cases _ _ _).mpr h4)]
    cases h; rfl
  rw [if_neg h4] at h
  rw [if_neg (fun hx => h4 ((type_cases _ _ _).mp hx))]
  by_cases h10 : g.type.number = 10 ∧ g.type.version = .A
  · rw [if_pos h10] at h
    rw [if_pos ((type_cases _ _ _).mpr h10)]
    have h := (congrArg Prod.fst (Option.some.inj h)).symm
    rw [show st' = _ from h]
    unfold Station.decodeType10A
    cases g.has .b3 <;> cases g.has .b4 <;> rfl
  rw [if_neg h10] at h
  rw [if_neg (fun hx => h10 ((type_cases _ _ _).mp hx))]
  by_cases h14 : g.type.number = 14
  · rw [if_pos h14] at h ⊢
    exact decodeType14_slots h
  rw [if_neg h14] at h ⊢
  by_cases h15 : g.type.number = 15 ∧ g.type.version = .B
  · rw [if_pos h15] at h
    rw [if_pos ((type_cases _ _ _).mpr h15)]
    obtain ⟨x, -, h⟩ := Option.map_eq_some_iff.mp h
    cases h; rfl
  rw [if_neg h15] at h
  rw [if_neg (fun hx => h15 ((type_cases _ _ _).mp hx))]
  cases ho : st.odaForGroup g.type with
  | some a =>
    rw [ho] at h
    simp only [Option.isSome_some, if_true] at h
    unfold Station.decodeODAGroup at h
    rw [ho] at h
    exact decodeODAApp_slots h
  | none =>
    rw [ho] at h
    simp only [Option.isSome_none, Bool.false_eq_true, if_false] at h
    dsimp only
    by_cases h5 : g.type.number = 5
    · rw [if_pos h5] at h
      unfold Station.decodeType5 at h
      dsimp only at h
      by_cases hA : g.type.version = .A
      · rw [if_pos hA] at h
        rw [if_pos ((type_cases _ _ _).mpr ⟨h5, hA⟩)]
        simp only [Option.bind_eq_bind, Option.pure_def] at h
        split at h
        · obtain ⟨x, -, h⟩ := Option.bind_eq_some_iff.mp h
          obtain ⟨y, -, h⟩ := Option.bind_eq_some_iff.mp h
          rw [show st' = _ from (congrArg Prod.fst (Option.some.inj h)).symm]
          rfl
        · obtain ⟨x, -, h⟩ := Option.bind_eq_some_iff.mp h
          obtain ⟨y, -, h⟩ := Option.bind_eq_some_iff.mp h
          rw [show st' = _ from (congrArg Prod.fst (Option.some.inj h)).symm]
          rfl
      · rw [if_neg hA] at h
        rw [if_neg (fun hx => hA ((type_cases _ _ _).mp hx).2), if_neg (fun hx => by
          have := ((type_cases _ _ _).mp hx).1
          omega)]
        obtain ⟨y, -, h⟩ := Option.bind_eq_some_iff.mp h
        rw [show st' = _ from (congrArg Prod.fst (Option.some.inj h)).symm]
    rw [if_neg h5] at h
    rw [if_neg (fun hx => h5 ((type_cases _ _ _).mp hx).1)]
    by_cases h15A : g.type.number = 15 ∧ g.type.version = .A
    · rw [if_neg (by omega), if_neg (by omega), if_neg (by omega), if_neg (by omega), if_pos h15A] at h
      rw [if_pos ((type_cases _ _ _).mpr h15A)]
      rw [show st' = _ from (congrArg Prod.fst (Option.some.inj h)).symm]
      rfl
    rw [if_neg h15A] at h
    rw [if_neg (fun hx => h15A ((type_cases _ _ _).mp hx))]
    have hoda : ∀ {st'' : Station} {ops' : List JOp}, st.decodeODAGroup env g = some (st'', ops') →
        st''.slots = st.slots := by
      intro st'' ops' h
      unfold Station.decodeODAGroup at h
      rw [ho] at h
      cases h; rfl
    split at h
    · cases h; rfl
    split at h
    · cases h; rfl
    split at h
    · exact decodeTmc_slots h
    split at h
    · cases h; rfl
    · exact hoda h

end Redsea
