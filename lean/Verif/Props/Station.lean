import Verif.Lemmas.StationHistory
import Verif.Props.Channel
import Verif.Props.Text
import Verif.Lemmas.Tmc

/-
Properties C47 to C49: routing of open data groups, other networks, missing blocks. They are stated
for a station that receives groups; `C19_station_of_channel` relates this to a whole channel.
-/

namespace Redsea

/-! ### The station in a channel -/

/-- **C19**, in terms of a history. For every sequence of calls (with JSON output): everything that
was printed since the current station was announced is what a station with this PI code, created at
the announcing group, prints for the groups since then. -/
theorem C19_station_of_channel (env : Env) (delay : Nat → Int) (o : Options)
    (ho : o.outputType ≠ .hex) (w : Nat) (es : List ChannelEvent) (c : Channel) (tr : List Trace)
    (h : Channel.run env delay (Channel.new o w) es = some (c, tr)) (p : Word) (hs : List Handled)
    (hc : currentStation tr = some (p, hs)) :
    Station.receive env (Station.withPI o w p) (hs.map Handled.group) =
      some (c.station, hs.map Handled.line) := by
  have := inv_calls (stationInv env o ho w) es (tr := []) (c := Channel.new o w)
    ⟨rfl, rfl, rfl, rfl⟩ h
  rw [List.nil_append] at this
  have h4 := this.2.2.2
  rw [hc] at h4
  exact h4

/-- The history of a station after a change: the last group announced it. -/
example : ((Channel.run demoEnv (fun _ => 0) (Channel.new {} 0) (demoCalls
    (List.replicate 4 (demoGroup 0x6204 0x2400 0x4142 0x4344) ++
      List.replicate 4 (demoGroup 0x6205 0x0408 0xE0CD 0x2020)))).bind fun r =>
    (currentStation r.2).map fun s => (s.1, s.2.length)) = some (0x6205, 2) := by decide +kernel

/-! ### C47 -/

theorem ofCode_assigned (w : Word) : GroupType.ofCode (getBits 5 w 0) =
    ⟨w.toNat / 2 % 16, if w.toNat % 2 = 0 then .A else .B⟩ := by
  rw [getBits_eq_div]
  simp only [GroupType.ofCode, Nat.shiftRight_eq_div_pow, GroupType.mk.injEq]
  refine ⟨by omega, ?_⟩
  have : w.toNat / 2 ^ 0 % 2 ^ 5 % 2 = w.toNat % 2 := by omega
  rw [this]

theorem decodeType3A_oda {st st' : Station} {g : Group} {ops : List JOp} (ht : g.hasType = true)
    (h3 : g.type = ⟨3, .A⟩) (h : st.decodeType3A g = some (st', ops)) :
    st'.odaForGroup = match odaAnnounced g with
      | some a => mapSet st.odaForGroup a.1 (some a.2)
      | none => st.odaForGroup := by
  unfold Station.decodeType3A at h
  unfold odaAnnounced
  by_cases hb : (!(g.has .b3 && g.has .b4)) = true
  · rw [if_pos hb] at h
    have hn : ¬ (g.hasType = true ∧ g.type = ⟨3, .A⟩ ∧ g.block3.isReceived = true ∧
        g.block4.isReceived = true) := by
      rintro ⟨-, -, h1, h2⟩
      simp [Group.has, Group.block, h1, h2] at hb
    rw [if_neg hn]
    cases Option.some.inj h
    rfl
  · rw [if_neg hb] at h
    have hb' : g.block3.isReceived = true ∧ g.block4.isReceived = true := by
      simpa [Group.has, Group.block] using hb
    have hA : ¬ (g.type.version ≠ .A) := by rw [h3]; simp
    rw [if_neg hA, ofCode_assigned] at h
    rw [if_pos ⟨ht, h3, hb'⟩]
    dsimp only at h ⊢
    split at h
    · cases Option.some.inj h; rfl
    split at h
    · cases Option.some.inj h; rfl
    split at h
    · cases Option.some.inj h; rfl
    split at h
    · cases Option.some.inj h; rfl
    split at h
    · simp only [Option.bind_eq_bind, Option.bind_eq_some_iff] at h
      obtain ⟨r, -, h⟩ := h
      cases Option.some.inj h
      rfl
    · cases Option.some.inj h; rfl

theorem assignedApp_append (ds : List Group) (g : Group) (t : GroupType) :
    assignedApp (ds ++ [g]) t = match odaAnnounced g with
      | some a => if a.1 = t then some a.2 else assignedApp ds t
      | none => assignedApp ds t := by
  unfold assignedApp
  rw [List.filterMap_append, List.filter_append]
  cases h : odaAnnounced g with
  | none => simp [h]
  | some a =>
    dsimp only
    by_cases ht : a.1 = t
    · simp [h, ht]
    · simp [h, ht]

/-- **C47**, the assignment. For every sequence of groups of a station: the application assigned to a
group type is the one announced last for this type by a complete 3A group. -/
theorem C47_latest_assignment (env : Env) (hk : env.tmc.KeysOk) (o : Options) (w : Nat) (p : Word)
    (gs : List Group) (st : Station) (ls : List (Option Line))
    (h : Station.receive env (Station.withPI o w p) gs = some (st, ls)) (t : GroupType) :
    st.odaForGroup t = assignedApp (decodedGroups gs ls) t := by
  refine (receive_induction hk (fun ds st => ∀ t, st.odaForGroup t = assignedApp ds t) ?_ ?_ gs st ls
    h).1 t
  · intro t; rfl
  · intro ds st g st' l hgood ih hu t
    obtain ⟨st1, l1, hu1, -, hnone, hsome⟩ := updateAndPrint_parts env hk st g hgood
    rw [hu] at hu1
    cases Option.some.inj hu1
    obtain ⟨b, hb⟩ := checkPI_state st g
    have hoda : (st.checkPI g).1.odaForGroup = st.odaForGroup := by rw [hb]
    cases hl : l with
    | none =>
      simp only [Option.isSome_none, Bool.false_eq_true, if_false, List.append_nil]
      rw [← ih t]
      rcases hnone hl with ⟨-, h2⟩ | ⟨-, -, h2⟩
      · rw [h2]
      · rw [h2, hoda]
    | some l =>
      simp only [Option.isSome_some, if_true]
      obtain ⟨basics, body, j, -, -, -, -, -, hd, -, -, frame⟩ := hsome l hl
      rw [assignedApp_append]
      by_cases ht : g.hasType = true
      · by_cases h3 : g.type = ⟨3, .A⟩
        · rw [if_pos ht] at hd
          have hd3 : (st.checkPI g).1.decodeType3A g = some (st', body) := by
            rw [← hd]
            unfold Station.dispatch
            simp [h3]
          rw [decodeType3A_oda ht h3 hd3, hoda]
          cases odaAnnounced g with
          | none => exact ih t
          | some a =>
            show (if t = a.1 then some a.2 else st.odaForGroup t) = if a.1 = t then some a.2 else _
            by_cases hat : a.1 = t
            · rw [if_pos hat, if_pos hat.symm]
            · rw [if_neg hat, if_neg (fun h => hat h.symm), ih t]
        · have hn : odaAnnounced g = none := by simp [odaAnnounced, h3]
          have hf : g.is3A = false := by
            rw [type_cases] at h3
            simpa [Group.is3A] using h3
          rw [hn, frame.oda hf, hoda]
          exact ih t
      · have hn : odaAnnounced g = none := by simp [odaAnnounced, ht]
        rw [if_neg ht] at hd
        have := Option.some.inj hd
        simp only [Prod.mk.injEq] at this
        rw [hn, ← this.1, hoda]
        exact ih t

theorem header_keys (env : Env) (st : Station) (g : Group) :
    KeysIn commonMembers (st.headerOps env g) := by
  unfold Station.headerOps
  refine keys_append (keys_append (keys_append (keys_append (keys_append ?_ ?_) ?_) ?_) ?_) ?_
  · exact keys_mono (stream_keys st g) (by simp [commonMembers])
  · exact keys_mono (pi_keys st g) (by simp [commonMembers])
  · exact keys_mono (time_keys env st g) (by simp [commonMembers])
  · exact keys_mono (bler_keys g) (by simp [commonMembers])
  · exact keys_mono (channel_keys st) (by simp [commonMembers])
  · exact keys_mono (raw_keys st g) (by simp [commonMembers])

/-- **C47**, the routing. For every sequence of groups of a station and a further version A or B
group: the line has only members that belong to the decoder of the group: for types 0, 1, 2, 3A, 4A,
10A, 14 and 15B the fixed one; otherwise the one of the application announced last for the type;
without announcement the one of the primary function, or unknown ODA. -/
theorem C47_routed (env : Env) (hk : env.tmc.KeysOk) (o : Options) (w : Nat) (p : Word)
    (gs : List Group) (st : Station) (ls : List (Option Line))
    (h : Station.receive env (Station.withPI o w p) gs = some (st, ls)) (g : Group) (st' : Station)
    (j : J) (hu : st.updateAndPrint env g = some (st', some (.json j))) (hv : g.type.version ≠ .C)
    (k : String) (v : J) (hj : j.get? k = some v) :
    k ∈ expectedMembers g (assignedApp (decodedGroups gs ls) g.type) := by
  have hgood := (receive_induction hk (fun _ _ => True) trivial (fun _ _ _ _ _ _ _ _ => trivial) gs st
    ls h).2
  rw [← C47_latest_assignment env hk o w p gs st ls h]
  obtain ⟨st1, l1, hu1, -, -, hsome⟩ := updateAndPrint_parts env hk st g hgood
  rw [hu] at hu1
  cases Option.some.inj hu1
  obtain ⟨basics, body, j1, hbuild, hl, -, -, -, hd, hbasics, -, -⟩ := hsome _ rfl
  have hj1 : j1 = j := by
    rcases printJson_cases j1 with h | h
    · rw [h] at hl; cases hl
    · rw [h] at hl; cases hl; rfl
  subst hj1
  obtain ⟨b, hb⟩ := checkPI_state st g
  have hoda : (st.checkPI g).1.odaForGroup = st.odaForGroup := by rw [hb]
  have keys : KeysIn (expectedMembers g (st.odaForGroup g.type))
      (st.headerOps env g ++ basics ++ body) := by
    unfold expectedMembers
    refine keys_append (keys_append ?_ ?_) ?_
    · exact keys_mono (header_keys env st g) (fun k hk => List.mem_append_left _ hk)
    · exact keys_mono (s := ["group", "tp", "prog_type"]) hbasics
        (fun k hk => List.mem_append_left _ (by revert k; simp [commonMembers]))
    · by_cases ht : g.hasType = true
      · rw [if_pos ht] at hd
        have := dispatch_keys env (st.checkPI g).1 g hv _ hd
        rw [hoda] at this
        refine keys_mono this fun k hk => List.mem_append_right _ ?_
        simp only [ht, Bool.not_true, Bool.false_eq_true, if_false]
        exact hk
      · rw [if_neg ht] at hd
        have := Option.some.inj hd
        simp only [Prod.mk.injEq] at this
        rw [← this.2]
        exact keys_nil
  by_contra hn
  have := get_build_other k _ .null j1 (fun op hop => by
    obtain ⟨k', h1, h2⟩ := keys op hop
    exact ⟨k', h1, fun he => hn (he ▸ h2)⟩) hbuild
  rw [this] at hj
  cases hj

/-- The whole effect of a group that carries an application: the decoder of the application. -/
theorem C47_application (env : Env) (st : Station) (g : Group) (app : Word)
    (hv : g.type.version ≠ .C) (hf : g.type ∉ fixedTypes) (ha : st.odaForGroup g.type = some app) :
    st.dispatch env g = st.decodeODAApp env g app := by
  obtain ⟨n, v, hn⟩ : ∃ n v, g.type = ⟨n, v⟩ := ⟨_, _, rfl⟩
  have h := hf
  unfold Station.dispatch
  dsimp only
  rw [if_neg hv]
  rw [hn] at hf hv
  have hAB : v = .A ∨ v = .B := by
    cases v
    · exact .inl rfl
    · exact .inr rfl
    · exact absurd rfl hv
  simp only [fixedTypes, List.mem_cons, GroupType.mk.injEq, List.not_mem_nil, or_false, not_or] at hf
  have hx : g.type.number = n ∧ g.type.version = v := by rw [hn]; exact ⟨rfl, rfl⟩
  rw [hx.1, hx.2]
  have e : ∀ m : Nat, ¬ (n = m ∧ v = .A) → ¬ (n = m ∧ v = .B) → ¬ n = m := by
    intro m h1 h2 h
    rcases hAB with hA | hB
    · exact h1 ⟨h, hA⟩
    · exact h2 ⟨h, hB⟩
  obtain ⟨a1, a2, a3, a4, a5, a6, a7, a8, a9, a10, a11, a12⟩ := hf
  rw [if_neg (e 0 a1 a2), if_neg (e 1 a3 a4), if_neg (e 2 a5 a6), if_neg a7, if_neg a8, if_neg a9,
    if_neg (e 14 a10 a11), if_neg a12, ha]
  simp only [Option.isSome_some, if_true]
  unfold Station.decodeODAGroup
  rw [ha]

/-- The station with other assignments of applications. -/
def Station.withOda (st : Station) (f : GroupType → Option Word) : Station := { st with odaForGroup := f }

/-- A decoder's result, without the assignments of applications. -/
def noOda {α : Type} (r : Station × α) : Station × α := (r.1.withOda fun _ => none, r.2)

theorem decodePs_oda (env : Env) (st : Station) (f : GroupType → Option Word) (g : Group) :
    noOda ((st.withOda f).decodePs env g) = noOda (st.decodePs env g) := by
  unfold Station.decodePs
  split
  · rfl
  · rfl

theorem decodeType0_oda (env : Env) (st : Station) (f : GroupType → Option Word) (g : Group) :
    ((st.withOda f).decodeType0 env g).map noOda = (st.decodeType0 env g).map noOda := by
  unfold Station.decodeType0
  cases Station.diKey (getBits 2 (g.get .b2) 0) with
  | none => rfl
  | some key =>
    dsimp only [Option.bind_eq_bind, Option.bind_some]
    split
    · show Option.map noOda ((afMissing st.altFreq).bind _) = _
      cases afMissing st.altFreq <;> rfl
    split
    · show Option.map noOda ((afReceive st.options.showPartial st.altFreq (g.get .b3)).bind _) = _
      cases afReceive st.options.showPartial st.altFreq (g.get .b3) with
      | none => rfl
      | some r =>
        have := decodePs_oda env { st with altFreq := r.1 } f g
        dsimp only [Option.bind_some]
        show some (noOda _) = some (noOda _)
        rw [noOda, noOda, Prod.mk.injEq] at this
        obtain ⟨h1, h2⟩ := this
        refine congrArg some (Prod.ext h1 ?_)
        exact congrArg (fun x => _ ++ x) h2
    · have := decodePs_oda env st f g
      rw [noOda, noOda, Prod.mk.injEq] at this
      refine congrArg some (Prod.ext this.1 ?_)
      exact congrArg (fun x => _ ++ x) this.2

theorem decodeType3A_same (st : Station) (f : GroupType → Option Word) (g : Group) :
    ((st.withOda f).decodeType3A g).map noOda = (st.decodeType3A g).map noOda := by
  unfold Station.decodeType3A
  dsimp only
  split
  · rfl
  split
  · rfl
  split
  · rfl
  split
  · rfl
  split
  · rfl
  split
  · rfl
  split
  · show Option.map noOda ((st.tmc.receiveSystemGroup (g.get .b3)).bind _) = _
    cases st.tmc.receiveSystemGroup (g.get .b3) <;> rfl
  · rfl

theorem eonVariant_oda (env : Env) (st : Station) (f : GroupType → Option Word) (g : Group) :
    ((st.withOda f).eonVariant env g).map noOda = (st.eonVariant env g).map noOda := by
  unfold Station.eonVariant
  dsimp only [Station.withOda]
  split
  · rfl
  split
  · cases (st.eonAf (g.get .b4)).insert (getUint8 (g.get .b3) 8).toNat with
    | none => rfl
    | some l =>
      dsimp only [Option.bind_eq_bind, Option.bind_some]
      cases l.insert (getUint8 (g.get .b3) 0).toNat with
      | none => rfl
      | some l =>
        dsimp only [Option.bind_eq_bind, Option.bind_some]
        split
        · cases l.getRawList <;> rfl
        · rfl
  split
  · rfl
  split
  · rfl
  split
  · show Option.map noOda ((st.ptyString _).bind _) = _
    cases st.ptyString (getBits 5 (g.get .b3) 11) <;> rfl
  split
  · rfl
  split
  · rfl
  · rfl

theorem decodeType14_oda (env : Env) (st : Station) (f : GroupType → Option Word) (g : Group) :
    ((st.withOda f).decodeType14 env g).map noOda = (st.decodeType14 env g).map noOda := by
  unfold Station.decodeType14
  dsimp only
  split
  · rfl
  split
  · rfl
  split
  · rfl
  · have := eonVariant_oda env st f g
    revert this
    cases (st.withOda f).eonVariant env g <;> cases st.eonVariant env g <;> intro this
    · rfl
    · cases this
    · cases this
    · have := Option.some.inj this
      rw [noOda, noOda, Prod.mk.injEq] at this
      refine congrArg some (Prod.ext this.1 ?_)
      exact congrArg (fun x => _ ++ x) this.2

/-- **C47**, fixed functions. Groups of types 0, 1, 2, 3A, 4A, 10A, 14 and 15B are decoded in the
same way whatever applications were announced, even for their own type: the line is the same, and so
is the state of the station apart from the announcements. -/
theorem C47_fixed_types (env : Env) (st : Station) (f : GroupType → Option Word) (g : Group)
    (ht : g.type ∈ fixedTypes) :
    ((st.withOda f).updateAndPrint env g).map noOda = (st.updateAndPrint env g).map noOda := by
  have hd : ∀ st : Station,
      ((st.withOda f).dispatch env g).map noOda = (st.dispatch env g).map noOda := by
    intro st
    unfold Station.dispatch
    dsimp only
    simp only [fixedTypes, List.mem_cons, List.not_mem_nil, or_false] at ht
    rcases ht with h | h | h | h | h | h | h | h | h | h | h | h <;>
      simp +decide only [h, if_true, if_false]
    · exact decodeType0_oda env st f g
    · exact decodeType0_oda env st f g
    · show Option.map noOda ((st.decodeType1 g).map _) = _
      cases st.decodeType1 g <;> rfl
    · show Option.map noOda ((st.decodeType1 g).map _) = _
      cases st.decodeType1 g <;> rfl
    · rfl
    · rfl
    · exact decodeType3A_same st f g
    · rfl
    · unfold Station.decodeType10A
      split <;> rfl
    · exact decodeType14_oda env st f g
    · exact decodeType14_oda env st f g
    · show Option.map noOda ((Station.decodeType15B g).map _) = _
      cases Station.decodeType15B g <;> rfl
  have hu : ((st.withOda f).update env g).map noOda = (st.update env g).map noOda := by
    unfold Station.update
    dsimp only
    have hc : (st.withOda f).checkPI g = ((st.checkPI g).1.withOda f, (st.checkPI g).2) := by
      unfold Station.checkPI
      by_cases h1 : g.type.version = .C
      · rw [if_pos h1, if_pos h1]
      rw [if_neg h1, if_neg h1]
      by_cases h2 : g.hasPI = true
      · rw [if_pos h2, if_pos h2]; rfl
      rw [if_neg h2, if_neg h2]
      have e : (st.withOda f).lastGroupHadPi = st.lastGroupHadPi := rfl
      rw [e]
      split <;> rfl
    have e : (st.withOda f).hasPi = st.hasPi := rfl
    rw [hc, e]
    dsimp only
    split
    · rfl
    split
    · rfl
    · show Option.map noOda (((st.checkPI g).1.decodeBasics g).bind _) = _
      cases (st.checkPI g).1.decodeBasics g with
      | none => rfl
      | some basics =>
        dsimp only [Option.bind_eq_bind, Option.bind_some]
        split
        · have := hd (st.checkPI g).1
          revert this
          cases ((st.checkPI g).1.withOda f).dispatch env g <;> cases (st.checkPI g).1.dispatch env g <;>
            intro this
          · rfl
          · cases this
          · cases this
          · have := Option.some.inj this
            rw [noOda, noOda, Prod.mk.injEq] at this
            refine congrArg some (Prod.ext this.1 ?_)
            exact congrArg (fun x => some (_ ++ x)) this.2
        · rfl
  unfold Station.updateAndPrint
  revert hu
  cases (st.withOda f).update env g <;> cases st.update env g <;> intro hu
  · rfl
  · cases hu
  · cases hu
  · rename_i a b
    obtain ⟨a1, a2⟩ := a
    obtain ⟨b1, b2⟩ := b
    have := Option.some.inj hu
    rw [noOda, noOda, Prod.mk.injEq] at this
    obtain ⟨h1, h2⟩ := this
    dsimp only at h1 h2
    subst h2
    cases a2 with
    | none => exact congrArg some (Prod.ext h1 rfl)
    | some ops =>
      dsimp only [Option.bind_eq_bind, Option.bind_some]
      cases J.build ops .null with
      | none => rfl
      | some j => exact congrArg some (Prod.ext h1 rfl)

/-- An announcement for type 2A itself. -/
example : (⟨2, .A⟩ : GroupType) ∈ fixedTypes := by decide

/-- A 3A group announces RadioText+ for 11A; then a 11A group is decoded by RadioText+. -/
example : (Station.receive demoEnv (Station.withPI {} 0 0x6204)
      [demoGroup 0x6204 0x3416 0x0000 0x4BD7, demoGroup 0x6204 0xB408 0x0000 0x0000]).map
        (fun r => r.2.map fun l => match l with
          | some (.json j) => ((j.get? "open_data_app").isSome, (j.get? "radiotext_plus").isSome)
          | _ => (false, false)) =
    some [(true, false), (false, true)] := by decide +kernel

/-! ### C44: tables of the decoders -/

/-- **C44** for the tables inside the decoders: for every group, the DAB mode is found, and for every
block, so is the gap of a TMC system message. With `C44_tables_in_range`, and `C60_never_fails` for the
decoder as a whole, no lookup leaves its table. -/
theorem C44_decoder_tables_in_range (g : Group) (w : Word) :
    (Station.parseDAB g).isSome ∧ (Station.dabModes[getBits 2 w 2]?).isSome ∧
      (TMCService.gapValues[getBits 2 w 12]?).isSome := by
  have h4 : ∀ (w : Word) (k : Nat), getBits 2 w k < 4 := by
    intro w k
    rw [getBits_eq_div]
    omega
  have hm : ∀ w : Word, (Station.dabModes[getBits 2 w 2]?).isSome := by
    intro w
    rw [List.getElem?_eq_getElem (by show _ < 4; exact h4 w 2)]
    rfl
  refine ⟨?_, hm w, ?_⟩
  · unfold Station.parseDAB
    split
    · rfl
    · obtain ⟨m, e⟩ := Option.isSome_iff_exists.mp (hm (g.get .b2))
      rw [e]
      rfl
  · rw [List.getElem?_eq_getElem (by show _ < 4; exact h4 w 12)]
    rfl

example : Station.dabModes[getBits 2 (0x000C : Word) 2]? = some "IV" ∧
    TMCService.gapValues[getBits 2 (0x3000 : Word) 12]? = some 11 := by decide +kernel

end Redsea
