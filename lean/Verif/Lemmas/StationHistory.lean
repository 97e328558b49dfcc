import Verif.Lemmas.StationKeys

/-
Histories of a station, alone and in a channel.
-/

namespace Redsea

theorem receive_snoc (env : Env) (st : Station) (gs : List Group) (g : Group) :
    Station.receive env st (gs ++ [g]) =
      (Station.receive env st gs).bind fun r =>
        (r.1.updateAndPrint env g).map fun q => (q.1, r.2 ++ [q.2]) := by
  induction gs generalizing st with
  | nil =>
    simp only [List.nil_append, Station.receive, Option.bind_some]
    cases st.updateAndPrint env g with
    | none => rfl
    | some q => rfl
  | cons a gs ih =>
    simp only [List.cons_append, Station.receive]
    cases st.updateAndPrint env a with
    | none => rfl
    | some q =>
      simp only [Option.bind_some, ih]
      cases Station.receive env q.1 gs with
      | none => rfl
      | some r =>
        simp only [Option.bind_some, Option.map_some]
        cases r.1.updateAndPrint env g with
        | none => rfl
        | some x => rfl

theorem receive_length {env : Env} {st st' : Station} {gs : List Group} {ls : List (Option Line)}
    (h : Station.receive env st gs = some (st', ls)) : ls.length = gs.length := by
  induction gs generalizing st ls with
  | nil => cases h; rfl
  | cons g gs ih =>
    simp only [Station.receive, Option.bind_eq_some_iff, Option.map_eq_some_iff] at h
    obtain ⟨r, -, q, hq, he⟩ := h
    cases he
    simp only [List.length_cons]
    rw [ih hq]

theorem decodedGroups_snoc (gs : List Group) (ls : List (Option Line)) (g : Group) (l : Option Line)
    (h : ls.length = gs.length) :
    decodedGroups (gs ++ [g]) (ls ++ [l]) = decodedGroups gs ls ++ (if l.isSome then [g] else []) := by
  induction gs generalizing ls with
  | nil =>
    have : ls = [] := List.length_eq_zero_iff.1 h
    subst this
    cases l <;> rfl
  | cons a gs ih =>
    cases ls with
    | nil => simp at h
    | cons b ls =>
      have := ih ls (by simpa using h)
      cases b with
      | none => simpa [decodedGroups] using this
      | some b => simpa [decodedGroups] using this

/-- An induction principle: a fact that holds for a new station and is kept by every group holds
after every history. -/
theorem receive_induction {env : Env} (hk : env.tmc.KeysOk) {o : Options} {w : Nat} {p : Word}
    (P : List Group → Station → Prop)
    (h0 : P [] (Station.withPI o w p))
    (hstep : ∀ ds st g st' l, st.Good → P ds st → st.updateAndPrint env g = some (st', l) →
      P (ds ++ if l.isSome then [g] else []) st')
    (gs : List Group) (st : Station) (ls : List (Option Line))
    (h : Station.receive env (Station.withPI o w p) gs = some (st, ls)) :
    P (decodedGroups gs ls) st ∧ st.Good := by
  induction gs using snocInduction generalizing st ls with
  | nil => cases h; exact ⟨h0, good_withPI o w p⟩
  | snoc gs g ih =>
    rw [receive_snoc, Option.bind_eq_some_iff] at h
    obtain ⟨⟨st1, ls1⟩, h1, h⟩ := h
    obtain ⟨q, hq, he⟩ := Option.map_eq_some_iff.1 h
    cases he
    obtain ⟨i1, i2⟩ := ih st1 ls1 h1
    rw [decodedGroups_snoc _ _ _ _ (receive_length h1)]
    refine ⟨hstep _ _ _ _ _ i2 i1 hq, ?_⟩
    obtain ⟨st', l, hu, hg, -⟩ := updateAndPrint_parts env hk st1 g i2
    rw [hq] at hu
    cases Option.some.inj hu
    exact hg

theorem checkPI_state (st : Station) (g : Group) :
    ∃ b, (st.checkPI g).1 = { st with lastGroupHadPi := b } := by
  unfold Station.checkPI
  split
  · exact ⟨_, rfl⟩
  split
  · exact ⟨_, rfl⟩
  split
  · exact ⟨_, rfl⟩
  · exact ⟨_, rfl⟩

/-- What happens for one group: nothing is printed and nothing but `last_group_had_pi_` changes; or
the group is decoded and its line is printed. -/
theorem update_step {env : Env} (hk : env.tmc.KeysOk) {st st' : Station} {g : Group}
    {l : Option Line} (h : st.Good) (hu : st.updateAndPrint env g = some (st', l)) :
    ∃ b, (l = none → st' = st ∨ st' = { st with lastGroupHadPi := b }) ∧
      ∀ l', l = some l' → ∃ basics body j,
        J.build (st.headerOps env g ++ basics ++ body) .null = some j ∧ l' = printJson j ∧
        (if g.hasType then Station.dispatch env { st with lastGroupHadPi := b } g
          else some ({ st with lastGroupHadPi := b }, [])) = some (st', body) ∧
        KeysIn ["group", "tp", "prog_type"] basics ∧ OpsOk body ∧
        Frame g.is3A g.is14 { st with lastGroupHadPi := b } st' := by
  obtain ⟨st1, l1, hu1, -, hnone, hsome⟩ := updateAndPrint_parts env hk st g h
  rw [hu] at hu1
  cases Option.some.inj hu1
  obtain ⟨b, hb⟩ := checkPI_state st g
  rw [hb] at hnone hsome
  refine ⟨b, fun hl => ?_, fun l' hl => ?_⟩
  · rcases hnone hl with ⟨-, h2⟩ | ⟨-, -, h2⟩
    · exact .inl h2
    · exact .inr h2
  · obtain ⟨basics, body, j, h1, h2, -, -, -, h3, h4, h5, h6⟩ := hsome l' hl
    exact ⟨basics, body, j, h1, h2, h3, h4, h5, h6⟩

/-- The object in a printed line. -/
theorem printJson_inj {i j : J} (h : Line.json i = printJson j) : i = j := by
  rcases printJson_cases j with h1 | h1
  · rw [h1] at h; cases h
  · rw [h1] at h; cases h; rfl

/-! ### The station of a channel -/

/-- A channel and the history of its station agree. -/
def StationInv (env : Env) (o : Options) (w : Nat) (tr : List Trace) (c : Channel) : Prop :=
  c.options = o ∧ c.whichChannel = w ∧ c.cachedPi = (tr.foldl stationStep ({}, none)).1 ∧
    match currentStation tr with
    | none => c.station = Station.unknown o w
    | some (p, hs) => Station.receive env (Station.withPI o w p) (hs.map Handled.group) =
        some (c.station, hs.map Handled.line)

theorem station_handle {env : Env} {o : Options} (ho : o.outputType ≠ .hex) {w : Nat}
    {tr : List Trace} {c c' : Channel} {g : Group} {s : Nat} {h : Handled}
    (i : StationInv env o w tr c) (he : c.handleGroup env g s = some (c', h)) :
    StationInv env o w (tr ++ [.handled h]) c' := by
  obtain ⟨c1, g1, h1, hg, hout⟩ := handleGroup_parts he
  obtain ⟨b, r, -, rfl⟩ := addBler_group c g c1 g1 h1
  obtain ⟨i1, i2, i3, i4⟩ := i
  unfold StationInv currentStation at *
  rw [List.foldl_append, List.foldl_cons, List.foldl_nil]
  generalize tr.foldl stationStep ({}, none) = s0 at *
  obtain ⟨cache, cur⟩ := s0
  dsimp only at i3 i4
  -- the channel after the update of the PI cache
  have key : ∃ c2 : Channel, Channel.updatePI { c with blerAverage := r } h.group = c2 ∧
      c2.options = o ∧ c2.whichChannel = w ∧
      c2.cachedPi = (stationStep (cache, cur) (.handled h)).1 ∧
      (∃ st0 hs, (∀ l, match (stationStep (cache, cur) (.handled ⟨h.group, l⟩)).2 with
          | none => st0 = none
          | some (p, hs') => st0 = some p ∧ hs' = hs ++ [⟨h.group, l⟩]) ∧
        match st0 with
        | none => c2.station = Station.unknown o w
        | some p => Station.receive env (Station.withPI o w p) (hs.map Handled.group) =
            some (c2.station, hs.map Handled.line)) := by
    refine ⟨_, rfl, ?_⟩
    unfold Channel.updatePI
    have hpi := groupPI_eq h.group
    by_cases hp : h.group.hasPI = true
    · rw [if_pos hp] at hpi
      rw [if_pos hp]
      dsimp only [stationStep]
      rw [hpi]
      dsimp only
      rw [i3]
      by_cases hc : (cache.update h.group.getPI).2 = .changeConfirmed
      · rw [if_pos hc]
        refine ⟨i1, i2, rfl, some h.group.getPI, [], ?_, ?_⟩
        · intro l; rw [if_pos hc]; exact ⟨rfl, rfl⟩
        · dsimp only
          rw [CachedPI.get, confirmed_update _ _ hc, i1, i2]
          rfl
      · rw [if_neg hc]
        refine ⟨i1, i2, rfl, ?_⟩
        cases cur with
        | none => exact ⟨none, [], by intro l; simp [if_neg hc], i4⟩
        | some a => exact ⟨some a.1, a.2, by intro l; simp [if_neg hc], i4⟩
    · rw [if_neg hp] at hpi
      rw [if_neg hp]
      dsimp only [stationStep]
      rw [hpi]
      dsimp only
      refine ⟨i1, i2, i3, ?_⟩
      cases cur with
      | none => exact ⟨none, [], by intro l; simp, i4⟩
      | some a => exact ⟨some a.1, a.2, by intro l; simp, i4⟩
  obtain ⟨c2, hc2, k1, k2, k3, st0, hs, k4, k5⟩ := key
  rw [hc2] at hout
  unfold Channel.output at hout
  rw [k1, if_neg ho] at hout
  simp only [Option.bind_eq_bind, Option.bind_eq_some_iff] at hout
  obtain ⟨q, hq, hout⟩ := hout
  have := Option.some.inj hout
  simp only [Prod.mk.injEq] at this
  obtain ⟨rfl, hline⟩ := this
  refine ⟨rfl, k2, k3, ?_⟩
  have k4' := k4 h.line
  have eta : (⟨h.group, h.line⟩ : Handled) = h := rfl
  rw [eta] at k4'
  cases hcur : (stationStep (cache, cur) (.handled h)).2 with
  | none =>
    rw [hcur] at k4'
    subst k4'
    dsimp only at k5 ⊢
    rw [k5] at hq
    have : q = (Station.unknown o w, none) := by
      have h0 : (Station.unknown o w).updateAndPrint env h.group = some (Station.unknown o w, none) := rfl
      rw [h0] at hq
      exact (Option.some.inj hq).symm
    rw [this]
  | some a =>
    obtain ⟨p, hs'⟩ := a
    rw [hcur] at k4'
    obtain ⟨rfl, rfl⟩ := k4'
    dsimp only at k5 ⊢
    rw [List.map_append, List.map_append, List.map_cons, List.map_nil, List.map_cons, List.map_nil,
      receive_snoc, k5]
    simp only [Option.bind_some]
    rw [hq, ← hline]
    rfl

theorem stationInv (env : Env) (o : Options) (ho : o.outputType ≠ .hex) (w : Nat) :
    ChannelInv env (StationInv env o w) where
  quiet := by
    intro tr c c' i h
    rw [h.1]
    exact i
  handle := fun _ _ _ _ _ _ i he => station_handle ho i he
  reset := by
    intro tr c i
    obtain ⟨i1, i2, i3, i4⟩ := i
    unfold StationInv currentStation at *
    rw [List.foldl_append, List.foldl_cons, List.foldl_nil]
    generalize tr.foldl stationStep ({}, none) = s0 at *
    refine ⟨i1, i2, ?_, i4⟩
    show c.cachedPi.reset = _
    rw [i3]
    rfl

end Redsea
