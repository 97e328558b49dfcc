import Verif.Lemmas.Channel

/-
The identity of the station, and what is printed, in terms of the history of a channel.
-/

namespace Redsea

theorem piEvents_append (a b : List Trace) : piEvents (a ++ b) = piEvents a ++ piEvents b := by
  simp [piEvents]

theorem groupsOf_append (a b : List Trace) : groupsOf (a ++ b) = groupsOf a ++ groupsOf b := by
  simp [groupsOf]

theorem lastAnnounced_append (a b : List PIEvent) (c : CachedPI) (l : Option Word) :
    lastAnnounced (a ++ b) c l = lastAnnounced b (a.foldl CachedPI.event c) (lastAnnounced a c l) := by
  induction a generalizing c l with
  | nil => rfl
  | cons e a ih =>
    cases e with
    | reset => simp only [List.cons_append, lastAnnounced, List.foldl_cons, CachedPI.event, ih]
    | recv p => simp only [List.cons_append, lastAnnounced, List.foldl_cons, CachedPI.event, ih]

theorem announcedPI_append (tr : List Trace) (b : Trace) :
    announcedPI (tr ++ [b]) = lastAnnounced b.piEvents (piAfter (piEvents tr)) (announcedPI tr) := by
  rw [announcedPI, piEvents_append, lastAnnounced_append]
  simp only [piEvents, List.flatMap_cons, List.flatMap_nil, List.append_nil]
  rfl

theorem piAfter_append (a b : List PIEvent) :
    piAfter (a ++ b) = b.foldl CachedPI.event (piAfter a) := by
  simp [piAfter]

theorem groupPI_eq (g : Group) : groupPI g = if g.hasPI then some g.getPI else none := by
  unfold groupPI Group.hasPI Group.getPI Group.isAB
  cases (g.type.version != .C) <;> cases g.block1.isReceived <;>
    cases (g.block3.isReceived && g.block3.offset == .Cprime) <;> simp

theorem confirmed_update (c : CachedPI) (p : Word) (h : (c.update p).2 = .changeConfirmed) :
    (c.update p).1.confirmed = p := by
  revert h
  obtain ⟨conf, a, b, hp⟩ := c
  simp only [CachedPI.update, CachedPI.confirm]
  split
  · intro _
    simp [CachedPI.dropIfNoisy]
  · intro h; simp at h

theorem lastGroupHadPI_handled (tr : List Trace) (h : Handled) :
    lastGroupHadPI (tr ++ [.handled h]) =
      if h.group.isAB then (groupPI h.group).isSome else lastGroupHadPI tr := by
  rw [lastGroupHadPI, groupsOf_append]
  simp only [groupsOf, List.filterMap_cons, List.filterMap_nil, Trace.group?, List.filter_append]
  cases hab : h.group.isAB
  · simp [hab, lastGroupHadPI, groupsOf]
  · simp [hab]

theorem lastGroupHadPI_reset (tr : List Trace) :
    lastGroupHadPI (tr ++ [.reset]) = lastGroupHadPI tr := by
  rw [lastGroupHadPI, groupsOf_append,
    show groupsOf [Trace.reset] = [] from rfl, List.append_nil, lastGroupHadPI]

/-- Facts that hold at every handled group. -/
theorem inv_facts {env : Env} {P : List Trace → Channel → Prop} (I : ChannelInv env P)
    (F : List Trace → Handled → Prop)
    (hF : ∀ tr c g s c' h, P tr c → c.handleGroup env g s = some (c', h) → F tr h) :
    ChannelInv env fun tr c => P tr c ∧ ∀ pre h post, tr = pre ++ .handled h :: post → F pre h := by
  refine ⟨fun tr c c' h q => ⟨I.quiet tr c c' h.1 q, h.2⟩, ?_, ?_⟩
  · intro tr c g s c' h hp he
    refine ⟨I.handle tr c g s c' h hp.1 he, ?_⟩
    intro pre h' post htr
    rcases List.eq_nil_or_concat post with rfl | ⟨post', x, rfl⟩
    · have := List.append_inj' htr rfl
      rw [← this.1]
      have h2 := this.2
      simp only [List.cons.injEq, Trace.handled.injEq, and_true] at h2
      rw [← h2]
      exact hF tr c g s c' h hp.1 he
    · rw [List.concat_eq_append, ← List.cons_append, ← List.append_assoc] at htr
      exact hp.2 pre h' post' (List.append_inj' htr rfl).1
  · intro tr c hp
    refine ⟨I.reset tr c hp.1, ?_⟩
    intro pre h' post htr
    rcases List.eq_nil_or_concat post with rfl | ⟨post', x, rfl⟩
    · have := (List.append_inj' htr rfl).2
      simp at this
    · rw [List.concat_eq_append, ← List.cons_append, ← List.append_assoc] at htr
      exact hp.2 pre h' post' (List.append_inj' htr rfl).1

/-- The state of a channel and its history. -/
structure IdInv (o : Options) (w : Nat) (tr : List Trace) (c : Channel) : Prop where
  good : c.Good
  options : c.options = o
  which : c.whichChannel = w
  cache : c.cachedPi = piAfter (piEvents tr)
  hasPi : c.station.hasPi = (announcedPI tr).isSome
  pi : ∀ p, announcedPI tr = some p → c.station.pi = p
  last : o.outputType ≠ .hex → c.station.hasPi = true →
    c.station.lastGroupHadPi = lastGroupHadPI tr
  stOptions : c.station.options = o
  stWhich : c.station.whichChannel = w

theorem markStream_isAB (g : Group) (s : Nat) (b : Option Nat) :
    (Channel.markStream { g with bler := b } s) = { Channel.markStream g s with bler := b } := by
  unfold Channel.markStream
  split <;> rfl

/-- The group given to the station. -/
theorem addBler_group (c : Channel) (g : Group) (c1 : Channel) (g1 : Group)
    (h : c.addBler g = some (c1, g1)) :
    ∃ b r, g1 = { g with bler := b } ∧ c1 = { c with blerAverage := r } := by
  unfold Channel.addBler at h
  split at h
  · simp only [Option.bind_eq_bind, Option.bind_eq_some_iff] at h
    obtain ⟨r, -, h⟩ := h
    have := Option.some.inj h
    simp only [Prod.mk.injEq] at this
    exact ⟨some r.sum.toNat, r, this.2.symm, this.1.symm⟩
  · have := Option.some.inj h
    simp only [Prod.mk.injEq] at this
    exact ⟨g.bler, c.blerAverage, this.2.symm, this.1.symm⟩

/-- The identity of the station after a group was seen. -/
theorem updatePI_inv {o : Options} {w : Nat} {tr : List Trace} {c : Channel} (i : IdInv o w tr c)
    (h : Handled) :
    let c2 := c.updatePI h.group
    let tr' := tr ++ [.handled h]
    c2.Good ∧ c2.options = o ∧ c2.whichChannel = w ∧ c2.cachedPi = piAfter (piEvents tr') ∧
    c2.station.hasPi = (announcedPI tr').isSome ∧ (∀ p, announcedPI tr' = some p → c2.station.pi = p) ∧
    c2.station.options = o ∧ c2.station.whichChannel = w ∧
    (o.outputType ≠ .hex → c2.station.hasPi = true → (groupPI h.group).isSome = true ∨
      c2.station.lastGroupHadPi = lastGroupHadPI tr) := by
  dsimp only
  have hgood := updatePI_good c h.group i.good
  have hev : piEvents (tr ++ [.handled h]) = piEvents tr ++
      ((groupPI h.group).map PIEvent.recv).toList := by
    rw [piEvents_append]; simp [piEvents, Trace.piEvents]
  refine ⟨hgood, ?_⟩
  rw [hev, piAfter_append, announcedPI_append, Trace.piEvents, groupPI_eq]
  unfold Channel.updatePI
  by_cases hp : h.group.hasPI = true
  · rw [if_pos hp, if_pos hp]
    simp only [Option.map_some, Option.toList_some, List.foldl_cons, List.foldl_nil, lastAnnounced,
      CachedPI.event]
    rw [← i.cache]
    by_cases hc : (c.cachedPi.update h.group.getPI).2 = .changeConfirmed
    · rw [if_pos hc, if_pos hc]
      refine ⟨i.options, i.which, rfl, rfl, ?_, i.options, i.which, ?_⟩
      · intro p hpp
        have := Option.some.inj hpp
        rw [← this]
        exact confirmed_update _ _ hc
      · intro _ _; exact .inl rfl
    · rw [if_neg hc, if_neg hc]
      refine ⟨i.options, i.which, rfl, i.hasPi, i.pi, i.stOptions, i.stWhich, ?_⟩
      intro _ _; exact .inl rfl
  · rw [if_neg hp, if_neg hp]
    refine ⟨i.options, i.which, i.cache, i.hasPi, i.pi, i.stOptions, i.stWhich, ?_⟩
    intro ho hh; exact .inr (i.last ho hh)

theorem checkPI_keeps (st : Station) (g : Group) :
    (st.checkPI g).1 = { st with lastGroupHadPi := (st.checkPI g).1.lastGroupHadPi } ∧
    (st.checkPI g).1.lastGroupHadPi = (if g.isAB then g.hasPI else st.lastGroupHadPi) ∧
    ((st.checkPI g).2 = true ↔
      (g.isAB = true → g.isEmpty = false ∧ (g.hasPI = true ∨ st.lastGroupHadPi = true))) := by
  unfold Station.checkPI Group.isAB
  by_cases hv : g.type.version = .C
  · rw [if_pos hv]
    have : (g.type.version != .C) = false := by simp [hv]
    simp [this]
  · have : (g.type.version != .C) = true := by simp [hv]
    rw [if_neg hv, this]
    have eta : ∀ b, st.lastGroupHadPi = b → st = { st with lastGroupHadPi := b } := by
      intro b hb; rw [← hb]
    cases g.hasPI <;> cases hl : st.lastGroupHadPi <;> cases g.isEmpty <;> simp [hl] <;> exact eta _ hl

theorem isEmpty_eq (g : Group) : g.isEmpty = g.hasNothing := by
  unfold Group.isEmpty Group.hasNothing Group.has Group.block
  cases g.block1.isReceived <;> cases g.block2.isReceived <;> cases g.block3.isReceived <;>
    cases g.block4.isReceived <;> rfl

/-- What is said about a line. -/
structure LineFacts (o : Options) (tr : List Trace) (h : Handled) : Prop where
  /-- when a line is printed -/
  printed : h.line.isSome = true ↔ (announcedPI (tr ++ [.handled h])).isSome = true ∧
    (h.group.isAB = true → h.group.hasNothing = false ∧
      ((groupPI h.group).isSome = true ∨ lastGroupHadPI tr = true))
  /-- what is in it -/
  json : ∀ l, h.line = some l → l = .error ∨ ∃ j, l = .json j ∧
    (h.group.isAB = true → ∃ p, announcedPI (tr ++ [.handled h]) = some p ∧
      j.get? "pi" = some (.str (prefixedHex4 p.toNat))) ∧
    j.get? "bler" = (h.group.bler.map fun q => J.nat (Station.blerPercent q)) ∧
    j.get? "stream" = (if o.streams then some (.nat h.group.dataStream) else none) ∧
    (∃ f : Int → Str, j.get? "rx_time" =
      (if o.timestamp then some (.str (f (h.group.time.getD 0))) else none)) ∧
    j.get? "raw_data" = (if o.showRaw then some (.str h.group.printHex) else none)

theorem printJson_cases (j : J) : printJson j = .error ∨ printJson j = .json j := by
  unfold printJson
  split
  · exact .inr rfl
  · exact .inl rfl

/-- All operations are on members from a list. -/
def KeysIn (s : List String) (ops : List JOp) : Prop :=
  ∀ op ∈ ops, ∃ k, op.key = some k ∧ k ∈ s

theorem keysIn_append {s t : List String} {a b : List JOp} (ha : KeysIn s a) (hb : KeysIn t b) :
    KeysIn (s ++ t) (a ++ b) := by
  intro op hop
  rcases List.mem_append.1 hop with h | h
  · obtain ⟨k, h1, h2⟩ := ha op h
    exact ⟨k, h1, List.mem_append_left _ h2⟩
  · obtain ⟨k, h1, h2⟩ := hb op h
    exact ⟨k, h1, List.mem_append_right _ h2⟩

theorem keysIn_ite {s : List String} {c : Prop} [Decidable c] {a : List JOp} (ha : KeysIn s a) :
    KeysIn s (if c then a else []) := by
  split
  · exact ha
  · intro op hop; simp at hop

theorem keysIn_one (k : String) (v : J) : KeysIn [k] [.set [k] v] := by
  intro op hop
  rw [List.mem_singleton] at hop
  subst hop
  exact ⟨k, rfl, by simp⟩

theorem stream_keys (st : Station) (g : Group) : KeysIn ["stream"] (st.streamOps g) :=
  keysIn_ite (keysIn_one _ _)

theorem time_keys (env : Env) (st : Station) (g : Group) :
    KeysIn ["rx_time"] (Station.timeOps env st g) := keysIn_ite (keysIn_one _ _)

theorem channel_keys (st : Station) : KeysIn ["channel"] st.channelOps := keysIn_ite (keysIn_one _ _)

theorem raw_keys (st : Station) (g : Group) : KeysIn ["raw_data"] (st.rawOps g) :=
  keysIn_ite (keysIn_one _ _)

theorem bler_keys (g : Group) : KeysIn ["bler"] (Station.blerOps g) := by
  unfold Station.blerOps
  cases g.bler with
  | none => intro op hop; simp at hop
  | some q => exact keysIn_one _ _

/-- "callsign" and "callsign_uncertain". -/
def callsignOps (st : Station) : List JOp :=
  if st.options.rbds ∧ getCallsignFromPI st.pi ≠ [] then
    [.set [if st.pi &&& 0xF000 = 0x1000 then "callsign_uncertain" else "callsign"]
      (.str (getCallsignFromPI st.pi))]
  else []

theorem callsign_keys (st : Station) : KeysIn ["callsign_uncertain", "callsign"] (callsignOps st) := by
  unfold callsignOps
  split
  · intro op hop
    rw [List.mem_singleton] at hop
    subst hop
    refine ⟨_, rfl, ?_⟩
    split <;> simp
  · intro op hop; simp at hop

theorem pi_keys (st : Station) (g : Group) :
    KeysIn (["pi"] ++ ["callsign_uncertain", "callsign"]) (st.piOps g) := by
  unfold Station.piOps
  split
  · intro op hop; simp at hop
  · exact keysIn_append (keysIn_one _ _) (callsign_keys st)

theorem keysIn_ne {s : List String} {ops : List JOp} (h : KeysIn s ops) {k : String} (hk : k ∉ s) :
    ∀ op ∈ ops, ∃ k', op.key = some k' ∧ k ≠ k' := by
  intro op hop
  obtain ⟨k', h1, h2⟩ := h op hop
  exact ⟨k', h1, fun he => hk (he ▸ h2)⟩

/-- The value of a member that is set at most once. -/
theorem get_build_mid (k : String) (v : Option J) (a b : List JOp) (j : J)
    (ha : ∀ op ∈ a, ∃ k', op.key = some k' ∧ k ≠ k') (hb : ∀ op ∈ b, ∃ k', op.key = some k' ∧ k ≠ k')
    (h : J.build (a ++ ((v.map fun x => JOp.set [k] x).toList ++ b)) .null = some j) :
    j.get? k = v := by
  cases v with
  | none =>
    have hab : ∀ op ∈ a ++ b, ∃ k', op.key = some k' ∧ k ≠ k' := by
      intro op hop
      rcases List.mem_append.1 hop with h | h
      · exact ha op h
      · exact hb op h
    have := get_build_other k _ .null j hab h
    rw [this]
    rfl
  | some x => exact get_build_set k x a b .null j hb h

/-- The members made before a group is decoded. -/
theorem header_members (env : Env) (st : Station) (g : Group) (basics body : List JOp) (j : J)
    (hb : KeysIn ["group", "tp", "prog_type"] basics) (hok : OpsOk body)
    (h : J.build (st.headerOps env g ++ basics ++ body) .null = some j) :
    (g.isAB = true → j.get? "pi" = some (.str (prefixedHex4 st.pi.toNat))) ∧
    j.get? "bler" = (g.bler.map fun q => J.nat (Station.blerPercent q)) ∧
    j.get? "stream" = (if st.options.streams then some (.nat g.dataStream) else none) ∧
    j.get? "rx_time" =
      (if st.options.timestamp then some (.str (env.formatTime (g.time.getD 0))) else none) ∧
    j.get? "raw_data" = (if st.options.showRaw then some (.str g.printHex) else none) := by
  have tail : ∀ k ∈ reservedKeys, k ∉ ["group", "tp", "prog_type"] → ∀ op ∈ basics ++ body,
      ∃ k', op.key = some k' ∧ k ≠ k' := by
    intro k hk hk2 op hop
    rcases List.mem_append.1 hop with h | h
    · exact keysIn_ne hb hk2 op h
    · exact free_key (hok op h).2 hk
  have cat : ∀ (k : String) (a b : List JOp), (∀ op ∈ a, ∃ k', op.key = some k' ∧ k ≠ k') →
      (∀ op ∈ b, ∃ k', op.key = some k' ∧ k ≠ k') → ∀ op ∈ a ++ b, ∃ k', op.key = some k' ∧ k ≠ k' := by
    intro k a b ha hb op hop
    rcases List.mem_append.1 hop with h | h
    · exact ha op h
    · exact hb op h
  have ite_eq : ∀ (c : Bool) (k : String) (x : J), (if c = true then [JOp.set [k] x] else []) =
      ((if c = true then some x else none).map fun x => JOp.set [k] x).toList := by
    intro c k x; cases c <;> rfl
  unfold Station.headerOps at h
  refine ⟨?_, ?_, ?_, ?_, ?_⟩
  · intro hab
    have hv : g.type.version ≠ .C := by simpa [Group.isAB] using hab
    refine get_build_mid "pi" (some _) (st.streamOps g) (callsignOps st ++ (Station.timeOps env st g ++
      (Station.blerOps g ++ (st.channelOps ++ (st.rawOps g ++ (basics ++ body)))))) j
      (keysIn_ne (stream_keys st g) (by decide)) ?_ ?_
    · exact cat _ _ _ (keysIn_ne (callsign_keys st) (by decide)) (cat _ _ _
        (keysIn_ne (time_keys env st g) (by decide)) (cat _ _ _ (keysIn_ne (bler_keys g) (by decide))
        (cat _ _ _ (keysIn_ne (channel_keys st) (by decide)) (cat _ _ _
        (keysIn_ne (raw_keys st g) (by decide)) (tail "pi" (by decide) (by decide))))))
    · rw [← h]
      simp only [Station.piOps, hv, if_false, callsignOps, List.append_assoc, Option.map_some,
        Option.toList_some, List.cons_append, List.nil_append]
  · refine get_build_mid "bler" (g.bler.map fun q => J.nat (Station.blerPercent q))
      (st.streamOps g ++ (st.piOps g ++ Station.timeOps env st g))
      (st.channelOps ++ (st.rawOps g ++ (basics ++ body))) j ?_ ?_ ?_
    · exact cat _ _ _ (keysIn_ne (stream_keys st g) (by decide)) (cat _ _ _
        (keysIn_ne (pi_keys st g) (by decide)) (keysIn_ne (time_keys env st g) (by decide)))
    · exact cat _ _ _ (keysIn_ne (channel_keys st) (by decide)) (cat _ _ _
        (keysIn_ne (raw_keys st g) (by decide)) (tail "bler" (by decide) (by decide)))
    · rw [← h]
      simp only [Station.blerOps, List.append_assoc, Option.map_map]
      rfl
  · refine get_build_mid "stream" _ [] (st.piOps g ++ (Station.timeOps env st g ++ (Station.blerOps g ++
      (st.channelOps ++ (st.rawOps g ++ (basics ++ body)))))) j (by simp) ?_ ?_
    · exact cat _ _ _ (keysIn_ne (pi_keys st g) (by decide)) (cat _ _ _
        (keysIn_ne (time_keys env st g) (by decide)) (cat _ _ _ (keysIn_ne (bler_keys g) (by decide))
        (cat _ _ _ (keysIn_ne (channel_keys st) (by decide)) (cat _ _ _
        (keysIn_ne (raw_keys st g) (by decide)) (tail "stream" (by decide) (by decide))))))
    · rw [← h, ← ite_eq]
      simp only [Station.streamOps, List.append_assoc, List.nil_append]
  · refine get_build_mid "rx_time" _ (st.streamOps g ++ st.piOps g) (Station.blerOps g ++
      (st.channelOps ++ (st.rawOps g ++ (basics ++ body)))) j ?_ ?_ ?_
    · exact cat _ _ _ (keysIn_ne (stream_keys st g) (by decide)) (keysIn_ne (pi_keys st g) (by decide))
    · exact cat _ _ _ (keysIn_ne (bler_keys g) (by decide))
        (cat _ _ _ (keysIn_ne (channel_keys st) (by decide)) (cat _ _ _
        (keysIn_ne (raw_keys st g) (by decide)) (tail "rx_time" (by decide) (by decide))))
    · rw [← h, ← ite_eq]
      simp only [Station.timeOps, List.append_assoc]
  · refine get_build_mid "raw_data" _ (st.streamOps g ++ (st.piOps g ++ (Station.timeOps env st g ++
      (Station.blerOps g ++ st.channelOps)))) (basics ++ body) j ?_ ?_ ?_
    · exact cat _ _ _ (keysIn_ne (stream_keys st g) (by decide)) (cat _ _ _
        (keysIn_ne (pi_keys st g) (by decide)) (cat _ _ _
        (keysIn_ne (time_keys env st g) (by decide)) (cat _ _ _ (keysIn_ne (bler_keys g) (by decide))
        (keysIn_ne (channel_keys st) (by decide)))))
    · exact tail "raw_data" (by decide) (by decide)
    · rw [← h, ← ite_eq]
      simp only [Station.rawOps, List.append_assoc]

theorem handleGroup_parts {env : Env} {c c' : Channel} {g : Group} {s : Nat} {h : Handled}
    (he : c.handleGroup env g s = some (c', h)) :
    ∃ c1 g1, c.addBler g = some (c1, g1) ∧ h.group = Channel.markStream g1 s ∧
      (c1.updatePI h.group).output env h.group = some (c', h.line) := by
  unfold Channel.handleGroup at he
  simp only [Option.bind_eq_bind, Option.bind_eq_some_iff] at he
  obtain ⟨⟨c1, g1⟩, h1, ⟨c2, l⟩, h2, he⟩ := he
  have := Option.some.inj he
  simp only [Prod.mk.injEq] at this
  obtain ⟨rfl, rfl⟩ := this
  exact ⟨c1, g1, h1, rfl, h2⟩

/-- The identity of the station is kept, and a line is as described. -/
theorem handle_facts {env : Env} (hk : env.tmc.KeysOk) {o : Options} {w : Nat} {tr : List Trace}
    {c c' : Channel} {g : Group} {s : Nat} {h : Handled} (i : IdInv o w tr c)
    (he : c.handleGroup env g s = some (c', h)) :
    IdInv o w (tr ++ [.handled h]) c' ∧ (o.outputType ≠ .hex → LineFacts o tr h) := by
  obtain ⟨c1, g1, h1, hg, hout⟩ := handleGroup_parts he
  have hgood1 : c1.Good := by
    obtain ⟨ca, ga, h1', hg'⟩ := addBler_good c g i.good
    rw [h1] at h1'
    have := Option.some.inj h1'
    simp only [Prod.mk.injEq] at this
    rw [this.1]; exact hg'
  obtain ⟨b, r, -, rfl⟩ := addBler_group c g c1 g1 h1
  have i1 : IdInv o w tr { c with blerAverage := r } :=
    ⟨hgood1, i.options, i.which, i.cache, i.hasPi, i.pi, i.last, i.stOptions, i.stWhich⟩
  obtain ⟨u1, u2, u3, u4, u5, u6, u7, u8, u9⟩ := updatePI_inv i1 h
  generalize Channel.updatePI { c with blerAverage := r } h.group = c2 at *
  unfold Channel.output at hout
  rw [u2] at hout
  by_cases ho : o.outputType = .hex
  · rw [if_pos ho] at hout
    have := Option.some.inj hout
    simp only [Prod.mk.injEq] at this
    obtain ⟨rfl, -⟩ := this
    exact ⟨⟨u1, u2, u3, u4, u5, u6, fun hn => absurd ho hn, u7, u8⟩, fun hn => absurd ho hn⟩
  · rw [if_neg ho] at hout
    obtain ⟨st', line, hu, hgs, hnone, hsome⟩ := updateAndPrint_parts env hk c2.station h.group u1.station
    rw [hu] at hout
    simp only [Option.bind_eq_bind, Option.bind_some] at hout
    have := Option.some.inj hout
    simp only [Prod.mk.injEq] at this
    obtain ⟨rfl, hline⟩ := this
    obtain ⟨k1, k2, k3⟩ := checkPI_keeps c2.station h.group
    have hpiSome : (groupPI h.group).isSome = h.group.hasPI := by
      rw [groupPI_eq]; cases h.group.hasPI <;> rfl
    have hnext : (c2.station.hasPi = true →
        (c2.station.checkPI h.group).1.lastGroupHadPi = lastGroupHadPI (tr ++ [.handled h])) := by
      intro hh
      rw [k2, lastGroupHadPI_handled, hpiSome]
      cases hab : h.group.isAB
      · rcases u9 ho hh with hx | hx
        · rw [groupPI] at hx
          simp [hab] at hx
        · simpa using hx
      · rfl
    -- the station after the group
    have hst : st'.pi = c2.station.pi ∧ st'.hasPi = c2.station.hasPi ∧
        st'.options = c2.station.options ∧ st'.whichChannel = c2.station.whichChannel ∧
        (st'.hasPi = true → st'.lastGroupHadPi = lastGroupHadPI (tr ++ [.handled h])) := by
      cases line with
      | none =>
        rcases hnone rfl with ⟨hf, rfl⟩ | ⟨ht, -, rfl⟩
        · exact ⟨rfl, rfl, rfl, rfl, fun hh => by rw [hf] at hh; cases hh⟩
        · have hx := hnext ht
          rw [k1] at hx ⊢
          exact ⟨rfl, rfl, rfl, rfl, fun _ => hx⟩
      | some l =>
        obtain ⟨basics, body, j, -, -, ht, -, -, -, -, -, hfr⟩ := hsome l rfl
        have hx := hnext ht
        refine ⟨?_, ?_, ?_, ?_, fun _ => by rw [hfr.lastGroupHadPi]; exact hx⟩
        · rw [hfr.pi, k1]
        · rw [hfr.hasPi, k1]
        · rw [hfr.options, k1]
        · rw [hfr.whichChannel, k1]
    obtain ⟨s1, s2, s3, s4, s5⟩ := hst
    refine ⟨⟨⟨hgs, u1.streams, u1.bler⟩, rfl, u3, u4, ?_, ?_, fun _ hh => s5 hh, ?_, ?_⟩, fun _ => ?_⟩
    · rw [← u5]; exact s2
    · intro p hp
      rw [← u6 p hp]; exact s1
    · rw [← u7]; exact s3
    · rw [← u8]; exact s4
    · have hchk : c2.station.hasPi = true → ((c2.station.checkPI h.group).2 = true ↔
          (h.group.isAB = true → h.group.hasNothing = false ∧
            ((groupPI h.group).isSome = true ∨ lastGroupHadPI tr = true))) := by
        intro hh
        rw [k3, hpiSome, isEmpty_eq]
        rcases u9 ho hh with hx | hx
        · rw [hpiSome] at hx; simp [hx]
        · rw [hx]
      refine ⟨?_, ?_⟩
      · rw [← hline, ← u5]
        cases line with
        | none =>
          refine ⟨fun hh => by simp at hh, fun hh => ?_⟩
          rcases hnone rfl with ⟨hf, -⟩ | ⟨ht, hf, -⟩
          · rw [hf] at hh; simp at hh
          · have := (hchk ht).2 hh.2
            rw [hf] at this; cases this
        | some l =>
          obtain ⟨basics, body, j, -, -, ht, hc, -, -, -, -, hfr⟩ := hsome l rfl
          exact ⟨fun _ => ⟨ht, (hchk ht).1 hc⟩, fun _ => rfl⟩
      · intro l hl
        rw [← hline] at hl
        obtain ⟨basics, body, j, hj, rfl, ht, -, -, -, hbk, hok, -⟩ := hsome l hl
        obtain ⟨m1, m2, m3, m4, m5⟩ := header_members env c2.station h.group basics body j hbk hok hj
        rcases printJson_cases j with hp | hp
        · exact .inl hp
        · refine .inr ⟨j, hp, ?_, m2, ?_, ⟨env.formatTime, ?_⟩, ?_⟩
          · intro hab
            rw [u5] at ht
            obtain ⟨p, hp⟩ := Option.isSome_iff_exists.1 ht
            refine ⟨p, hp, ?_⟩
            rw [m1 hab, u6 p hp]
          · rw [m3, u7]
          · rw [m4, u7]
          · rw [m5, u7]

/-- The identity invariant holds throughout. -/
theorem idInv {env : Env} (hk : env.tmc.KeysOk) (o : Options) (w : Nat) :
    ChannelInv env (IdInv o w) := by
  refine ⟨?_, ?_, ?_⟩
  · intro tr c c' i q
    obtain ⟨q, hl⟩ := q
    rw [q]
    exact ⟨⟨i.good.station, by rw [← i.good.streams]; exact hl, i.good.bler⟩, i.options, i.which,
      i.cache, i.hasPi, i.pi, i.last, i.stOptions, i.stWhich⟩
  · intro tr c g s c' h i he
    exact (handle_facts hk i he).1
  · intro tr c i
    refine ⟨⟨i.good.station, i.good.streams, i.good.bler⟩, i.options, i.which, ?_, ?_, ?_, ?_,
      i.stOptions, i.stWhich⟩
    · rw [piEvents_append, piAfter_append, ← i.cache]; rfl
    · rw [announcedPI_append]; exact i.hasPi
    · rw [announcedPI_append]; exact i.pi
    · rw [lastGroupHadPI_reset]; exact i.last

end Redsea
