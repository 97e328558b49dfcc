import Verif.Lemmas.JsonPath
import Verif.Props.Station

/-
Property C48: data about other networks are kept apart.
-/

namespace Redsea

open _root_.Redsea.Spec

theorem some_fst {α β : Type} {a c : α} {b d : β} (h : some (a, b) = some (c, d)) : a = c := by
  cases h; rfl

/-- The frequency codes in what was told about a network. -/
def eonAfCodes (cs : List (Nat × Word)) : List Nat :=
  cs.flatMap fun c => if c.1 = 4 then [c.2.toNat / 256, c.2.toNat % 256] else []

/-- Name and frequency list of a single network, one step further. -/
def eonNext (u : Ucs2Decoder) (s : Option RDSString × AltFreqList) (c : Nat × Word) :
    Option RDSString × AltFreqList :=
  if c.1 ≤ 3 then
    (some (((s.1.getD (RDSString.new 8)).set u (2 * c.1) (getUint8 c.2 8)).set u (2 * c.1 + 1)
      (getUint8 c.2 0)), s.2)
  else if c.1 = 4 then
    (s.1, (((s.2.insert (getUint8 c.2 8).toNat).bind fun l => l.insert (getUint8 c.2 0).toNat).map
      fun l => if l.isComplete then l.clear else l).getD s.2)
  else s

/-- Name and frequency list of a single network, after all that was told about it. -/
def eonState (u : Ucs2Decoder) (cs : List (Nat × Word)) : Option RDSString × AltFreqList :=
  cs.foldl (eonNext u) (none, {})

theorem eonVariant_state {env : Env} {st st' : Station} {g : Group} {ops : List JOp}
    (h : st.eonVariant env g = some (st', ops)) (n : Word) :
    (st'.eonPs n, st'.eonAf n) =
      if g.get .b4 = n then
        eonNext env.ucs2 (st.eonPs n, st.eonAf n) (getBits 4 (g.get .b2) 0, g.get .b3)
      else (st.eonPs n, st.eonAf n) := by
  have hset : ∀ {β : Type} (m : Word → β) (b : β),
      mapSet m (g.get .b4) b n = if g.get .b4 = n then b else m n := by
    intro β m b
    show (if n = g.get .b4 then b else m n) = _
    by_cases hn : g.get .b4 = n
    · rw [if_pos hn, if_pos hn.symm]
    · rw [if_neg hn, if_neg fun h => hn h.symm]
  unfold Station.eonVariant at h
  unfold eonNext
  dsimp only at h ⊢
  split at h
  · rename_i hv
    have := Option.some.inj h
    rw [Prod.mk.injEq] at this
    rw [← this.1, if_pos hv]
    dsimp only
    rw [hset]
    by_cases hn : g.get .b4 = n
    · rw [if_pos hn, if_pos hn, hn]
    · rw [if_neg hn, if_neg hn]
  rename_i hv
  rw [if_neg hv]
  split at h
  · rename_i h4
    rw [if_pos h4]
    obtain ⟨l1, h1, h⟩ := Option.bind_eq_some_iff.1 h
    obtain ⟨l2, h2, h⟩ := Option.bind_eq_some_iff.1 h
    have key : st'.eonPs n = st.eonPs n ∧
        st'.eonAf n = if g.get .b4 = n then (if l2.isComplete then l2.clear else l2)
          else st.eonAf n := by
      split at h
      · rename_i hc
        obtain ⟨raw, -, h⟩ := Option.bind_eq_some_iff.1 h
        have := Option.some.inj h
        rw [Prod.mk.injEq] at this
        rw [← this.1, if_pos hc]
        exact ⟨rfl, hset _ _⟩
      · rename_i hc
        have := Option.some.inj h
        rw [Prod.mk.injEq] at this
        rw [← this.1, if_neg hc]
        exact ⟨rfl, hset _ _⟩
    rw [key.1, key.2]
    by_cases hn : g.get .b4 = n
    · rw [hn] at h1
      rw [if_pos hn, if_pos hn, h1, Option.bind_some, h2]
      rfl
    · rw [if_neg hn, if_neg hn]
  rename_i h4
  rw [if_neg h4]
  have same : st' = st := by
    split at h
    · exact (some_fst h).symm
    split at h
    · exact (some_fst h).symm
    split at h
    · obtain ⟨p, -, h⟩ := Option.bind_eq_some_iff.1 h
      exact (some_fst h).symm
    split at h
    · exact (some_fst h).symm
    split at h
    · exact (some_fst h).symm
    · exact (some_fst h).symm
  rw [same]
  split <;> rfl

theorem eonAbout_snoc (n : Word) (gs : List Group) (g : Group) :
    eonAbout n (gs ++ [g]) = eonAbout n gs ++ match eonContent g with
      | some c => if c.1 = n then [c.2] else []
      | none => [] := by
  unfold eonAbout
  rw [List.filterMap_append, List.filterMap_append]
  congr 1
  cases h : eonContent g with
  | none => simp [h]
  | some c =>
    by_cases hc : c.1 = n
    · simp [h, hc]
    · simp [h, hc]

theorem getBits4 (w : Word) : getBits 4 w 0 = w.toNat % 16 := by
  rw [getBits_eq_div]; simp

/-- A decoded group, seen from one other network. -/
theorem decoded_eon {env : Env} {st st' : Station} {g : Group} {body : List JOp}
    (ht : g.hasType = true) (h14 : g.type = ⟨14, .A⟩)
    (h : st.dispatch env g = some (st', body)) (n : Word) :
    (st'.eonPs n, st'.eonAf n) = match eonContent g with
      | some c => if c.1 = n then eonNext env.ucs2 (st.eonPs n, st.eonAf n) c.2
          else (st.eonPs n, st.eonAf n)
      | none => (st.eonPs n, st.eonAf n) := by
  have hd : st.decodeType14 env g = some (st', body) := by
    rw [← h]
    unfold Station.dispatch
    simp +decide only [h14, if_true, if_false]
  unfold Station.decodeType14 at hd
  dsimp only at hd
  by_cases h4 : g.has .b4 = true
  · rw [h4] at hd
    simp only [Bool.not_true, Bool.false_eq_true, if_false, h14, reduceCtorEq] at hd
    by_cases h3 : g.has .b3 = true
    · rw [h3] at hd
      simp only [Bool.not_true, Bool.false_eq_true, if_false] at hd
      obtain ⟨r, hr, he⟩ := Option.bind_eq_some_iff.1 hd
      have := Option.some.inj he
      rw [Prod.mk.injEq] at this
      have hv := eonVariant_state (st' := r.1) (ops := r.2) hr n
      rw [this.1, getBits4] at hv
      have hc : eonContent g = some (g.block4.data, g.block2.data.toNat % 16, g.block3.data) := by
        unfold eonContent
        rw [if_pos ⟨ht, h14, h3, h4⟩]
      rw [hc]
      exact hv
    · rw [Bool.not_eq_true] at h3
      rw [h3] at hd
      simp only [Bool.not_false, if_true] at hd
      have hc : eonContent g = none := by
        unfold eonContent
        rw [if_neg]
        rintro ⟨-, -, h, -⟩
        exact absurd (h3.symm.trans h) (by decide)
      rw [hc, ← some_fst hd]
  · rw [Bool.not_eq_true] at h4
    rw [h4] at hd
    simp only [Bool.not_false, if_true] at hd
    have hc : eonContent g = none := by
      unfold eonContent
      rw [if_neg]
      rintro ⟨-, -, -, h⟩
      exact absurd (h4.symm.trans h) (by decide)
    rw [hc, ← some_fst hd]

/-- **C48**, the state. For every sequence of groups of a station: what the station knows about
another network is what a receiver for this network alone would know, which has heard only the groups
about this network. -/
theorem C48_state_of_one_network (env : Env) (hk : env.tmc.KeysOk) (o : Options) (w : Nat) (p : Word)
    (gs : List Group) (st : Station) (ls : List (Option Line))
    (h : Station.receive env (Station.withPI o w p) gs = some (st, ls)) (n : Word) :
    (st.eonPs n, st.eonAf n) = eonState env.ucs2 (eonAbout n (decodedGroups gs ls)) := by
  refine (receive_induction hk
    (fun ds st => (st.eonPs n, st.eonAf n) = eonState env.ucs2 (eonAbout n ds)) ?_ ?_ gs st ls h).1
  · rfl
  · intro ds st g st' l hgood ih hu
    obtain ⟨b, hnone, hsome⟩ := update_step hk hgood hu
    cases hl : l with
    | none =>
      simp only [Option.isSome_none, Bool.false_eq_true, if_false, List.append_nil]
      rw [← ih]
      rcases hnone hl with h2 | h2 <;> rw [h2]
    | some l =>
      simp only [Option.isSome_some, if_true]
      obtain ⟨basics, body, j, -, -, hd, -, -, frame⟩ := hsome l hl
      rw [eonAbout_snoc]
      by_cases ht : g.hasType = true
      · by_cases h14 : g.type = ⟨14, .A⟩
        · rw [if_pos ht] at hd
          have := decoded_eon ht h14 hd n
          rw [this]
          cases eonContent g with
          | none => rw [List.append_nil]; exact ih
          | some c =>
            dsimp only
            by_cases hc : c.1 = n
            · rw [if_pos hc, if_pos hc, eonState, List.foldl_append]
              have ih' : (st.eonPs n, st.eonAf n) =
                  List.foldl (eonNext env.ucs2) (none, {}) (eonAbout n ds) := ih
              rw [← ih']
              rfl
            · rw [if_neg hc, if_neg hc, List.append_nil]; exact ih
        · have hn : eonContent g = none := by simp [eonContent, h14]
          rw [hn, List.append_nil, ← ih]
          rw [if_pos ht] at hd
          by_cases h14B : g.is14 = true
          · have h14B' : g.type.number = 14 ∧ g.type.version = .B := by
              simp only [Group.is14, Bool.and_eq_true, beq_iff_eq, bne_iff_ne] at h14B
              refine ⟨h14B.1, ?_⟩
              rw [type_cases] at h14
              cases hv : g.type.version
              · exact absurd ⟨h14B.1, hv⟩ h14
              · rfl
              · exact absurd hv h14B.2
            have hd' : Station.decodeType14 env { st with lastGroupHadPi := b } g = some (st', body) := by
              rw [← hd]
              unfold Station.dispatch
              simp +decide only [h14B'.1, h14B'.2, if_true, if_false]
            unfold Station.decodeType14 at hd'
            simp only [h14B'.2, if_true] at hd'
            split at hd'
            · rw [← some_fst hd']
            · rw [← some_fst hd']
          · rw [Bool.not_eq_true] at h14B
            obtain ⟨e1, e2⟩ := frame.eon h14B
            rw [e1, e2]
      · have hn : eonContent g = none := by simp [eonContent, ht]
        rw [if_neg ht] at hd
        have := Option.some.inj hd
        simp only [Prod.mk.injEq] at this
        rw [hn, ← this.1, List.append_nil]
        exact ih

/-! ### What is printed -/

theorem eonVariant_ops (env : Env) (st1 st2 : Station) (g : Group) (ho : st1.options = st2.options)
    (hp : st1.eonPs (g.get .b4) = st2.eonPs (g.get .b4))
    (ha : st1.eonAf (g.get .b4) = st2.eonAf (g.get .b4)) :
    (st1.eonVariant env g).map Prod.snd = (st2.eonVariant env g).map Prod.snd := by
  unfold Station.eonVariant Station.ptyString
  dsimp only
  rw [hp, ha, ho]
  split
  · rfl
  split
  · cases (st2.eonAf (g.get .b4)).insert (getUint8 (g.get .b3) 8).toNat with
    | none => rfl
    | some l =>
      dsimp only [Option.bind_eq_bind, Option.bind_some]
      cases l.insert (getUint8 (g.get .b3) 0).toNat with
      | none => rfl
      | some l =>
        dsimp only [Option.bind_eq_bind, Option.bind_some]
        split
        · cases l.getRawList <;> rfl
        · rfl
  split
  · rfl
  split
  · rfl
  split
  · generalize (if st2.options.rbds = true then getPTYNameStringRBDS (getBits 5 (g.get .b3) 11)
      else getPTYNameString (getBits 5 (g.get .b3) 11)) = o
    cases o <;> rfl
  split
  · rfl
  split
  · rfl
  · rfl

/-- A complete 14A group that is decoded: the operations of its variant. -/
theorem decoded_variant {env : Env} (hk : env.tmc.KeysOk) {st st' : Station} {g : Group} {j : J}
    (hgood : st.Good) (hu : st.updateAndPrint env g = some (st', some (.json j)))
    {n : Word} {c : Nat × Word} (hc : eonContent g = some (n, c)) :
    g.get .b4 = n ∧ (getBits 4 (g.get .b2) 0, g.get .b3) = c ∧
    ∃ b basics ops, Station.eonVariant env { st with lastGroupHadPi := b } g = some (st', ops) ∧
      KeysIn ["group", "tp", "prog_type"] basics ∧
      J.build (st.headerOps env g ++ basics ++
        ([JOp.set ["other_network", "pi"] (.str (prefixedHex4 (g.get .b4).toNat)),
          .set ["other_network", "tp"] (.bool (getBool (g.get .b2) 4))] ++ ops)) .null = some j ∧
      OpsOk ([JOp.set ["other_network", "pi"] (.str (prefixedHex4 (g.get .b4).toNat)),
          .set ["other_network", "tp"] (.bool (getBool (g.get .b2) 4))] ++ ops) := by
  obtain ⟨b, -, hsome⟩ := update_step hk hgood hu
  obtain ⟨basics, body, j1, hb, hl, hd, hkb, hok, -⟩ := hsome _ rfl
  have := printJson_inj hl
  subst this
  unfold eonContent at hc
  split at hc
  · rename_i hx
    obtain ⟨ht, h14, h3, h4⟩ := hx
    cases hc
    refine ⟨rfl, by rw [getBits4]; rfl, b, basics, ?_⟩
    rw [if_pos ht] at hd
    have hd' : Station.decodeType14 env { st with lastGroupHadPi := b } g = some (st', body) := by
      rw [← hd]
      unfold Station.dispatch
      simp +decide only [h14, if_true, if_false]
    unfold Station.decodeType14 at hd'
    have h4' : g.has .b4 = true := h4
    have h3' : g.has .b3 = true := h3
    rw [h4', h3', h14] at hd'
    simp only [Bool.not_true, Bool.false_eq_true, if_false, reduceCtorEq] at hd'
    obtain ⟨r, hr, he⟩ := Option.bind_eq_some_iff.1 hd'
    cases he
    exact ⟨r.2, hr, hkb, hb, hok⟩
  · cases hc

theorem keysIn_away {ks : List String} {ops : List JOp} (h : KeysIn ks ops) (k : String)
    (p : List String) (hn : k ∉ ks) : ∀ op ∈ ops, op.Away (k :: p) := by
  intro op hop
  obtain ⟨k', h1, h2⟩ := h op hop
  rw [JOp.key] at h1
  unfold JOp.Away
  cases hp : op.path with
  | nil => rw [hp] at h1; cases h1
  | cons a q =>
    rw [hp] at h1
    cases h1
    rw [diverge, if_neg (fun he => hn (by rw [he]; exact h2))]

theorem keysIn_get {ks : List String} {ops : List JOp} (h : KeysIn ks ops) {k : String} (hn : k ∉ ks)
    {j j' : J} (hb : J.build ops j = some j') : j'.get? k = j.get? k :=
  get_build_other k ops j j' (fun op hop => by
    obtain ⟨k', h1, h2⟩ := h op hop
    exact ⟨k', h1, fun he => hn (he ▸ h2)⟩) hb

/-- **C48**, what is printed. Two histories (of the same or different stations) in which the same
was told about network `n`, in whatever interleaving with other groups: a further group about `n`
prints the same about it. -/
theorem C48_networks_separate (env : Env) (hk : env.tmc.KeysOk) (o : Options) (w1 w2 : Nat)
    (p1 p2 : Word) (gs1 gs2 : List Group) (st1 st2 : Station) (ls1 ls2 : List (Option Line))
    (h1 : Station.receive env (Station.withPI o w1 p1) gs1 = some (st1, ls1))
    (h2 : Station.receive env (Station.withPI o w2 p2) gs2 = some (st2, ls2)) (n : Word)
    (same : eonAbout n (decodedGroups gs1 ls1) = eonAbout n (decodedGroups gs2 ls2))
    (g : Group) (c : Nat × Word) (hg : eonContent g = some (n, c)) (st1' st2' : Station) (j1 j2 : J)
    (u1 : st1.updateAndPrint env g = some (st1', some (.json j1)))
    (u2 : st2.updateAndPrint env g = some (st2', some (.json j2))) :
    j1.get? "other_network" = j2.get? "other_network" := by
  have i1 := receive_induction hk (fun _ st => st.options = o) rfl (by
    intro ds st g st' l hgood hop hu
    obtain ⟨b, hnone, hsome⟩ := update_step hk hgood hu
    cases hl : l with
    | none => rcases hnone hl with h | h <;> rw [h, ← hop]
    | some l =>
      obtain ⟨_, _, _, -, -, -, -, -, frame⟩ := hsome l hl
      rw [frame.options, ← hop]) gs1 st1 ls1 h1
  have i2 := receive_induction hk (fun _ st => st.options = o) rfl (by
    intro ds st g st' l hgood hop hu
    obtain ⟨b, hnone, hsome⟩ := update_step hk hgood hu
    cases hl : l with
    | none => rcases hnone hl with h | h <;> rw [h, ← hop]
    | some l =>
      obtain ⟨_, _, _, -, -, -, -, -, frame⟩ := hsome l hl
      rw [frame.options, ← hop]) gs2 st2 ls2 h2
  have e1 := C48_state_of_one_network env hk o w1 p1 gs1 st1 ls1 h1 n
  have e2 := C48_state_of_one_network env hk o w2 p2 gs2 st2 ls2 h2 n
  rw [same, ← e2, Prod.mk.injEq] at e1
  obtain ⟨hn, -, b1, basics1, ops1, hv1, hk1, hb1, hok⟩ := decoded_variant hk i1.2 u1 hg
  obtain ⟨-, -, b2, basics2, ops2, hv2, hk2, hb2, -⟩ := decoded_variant hk i2.2 u2 hg
  have hops : ops1 = ops2 := by
    have := eonVariant_ops env { st1 with lastGroupHadPi := b1 } { st2 with lastGroupHadPi := b2 } g
      (i1.1.trans i2.1.symm) (by rw [hn]; exact e1.1) (by rw [hn]; exact e1.2)
    rw [hv1, hv2] at this
    exact Option.some.inj this
  subst hops
  rw [build_append, Option.bind_eq_some_iff] at hb1 hb2
  obtain ⟨a1, ha1, hb1⟩ := hb1
  obtain ⟨a2, ha2, hb2⟩ := hb2
  have no : ∀ (st : Station) (basics : List JOp) (a : J), KeysIn ["group", "tp", "prog_type"] basics →
      J.build (st.headerOps env g ++ basics) .null = some a → a.get? "other_network" = none := by
    intro st basics a hkb hb
    rw [keysIn_get (keys_append (header_keys env st g) (keys_mono hkb
      (by simp [commonMembers]))) (by decide) hb]
    rfl
  refine get_build_congr _ "other_network" a1 j1 a2 j2
    ((no st1 basics1 a1 hk1 ha1).trans (no st2 basics2 a2 hk2 ha2).symm) ?_ hb1 hb2
  intro op hop he
  have := (hok op hop).2
  rw [he] at this
  cases this

theorem byte_hi (w : Word) : getUint8 w 8 = BitVec.ofNat 8 (w.toNat / 256) := by
  apply BitVec.eq_of_toNat_eq
  rw [(getUint8_codes w).1, BitVec.toNat_ofNat]
  have := w.isLt
  omega

theorem byte_lo (w : Word) : getUint8 w 0 = BitVec.ofNat 8 w.toNat := by
  apply BitVec.eq_of_toNat_eq
  rw [(getUint8_codes w).2, BitVec.toNat_ofNat]

/-- The name of a single network, in terms of receptions. -/
theorem eonState_name (u : Ucs2Decoder) (cs : List (Nat × Word)) :
    (eonState u cs).1.getD (RDSString.new 8) = (RDSString.new 8).ops u (eonNameOps cs) := by
  induction cs using snocInduction with
  | nil => rfl
  | snoc cs c ih =>
    rw [eonState, List.foldl_append, List.foldl_cons, List.foldl_nil]
    change (eonNext u (eonState u cs) c).1.getD _ = _
    unfold eonNext
    have happ : eonNameOps (cs ++ [c]) = eonNameOps cs ++ eonNameOps [c] := by
      simp [eonNameOps]
    rw [happ, RDSString.ops_append, ← ih]
    by_cases h3 : c.1 ≤ 3
    · rw [if_pos h3, byte_hi, byte_lo]
      simp [eonNameOps, h3, RDSString.ops, RDSString.op]
    · rw [if_neg h3]
      have : eonNameOps [c] = [] := by simp [eonNameOps, h3]
      rw [this]
      split <;> rfl

/-- The frequencies of a single network, in terms of codes. -/
theorem eonState_af (u : Ucs2Decoder) (cs : List (Nat × Word)) :
    AfOrigin (eonAfCodes cs) (eonState u cs).2 := by
  induction cs using snocInduction with
  | nil => exact ⟨afWF_new, by simp [eonState]⟩
  | snoc cs c ih =>
    rw [eonState, List.foldl_append, List.foldl_cons, List.foldl_nil]
    change AfOrigin _ (eonNext u (eonState u cs) c).2
    have happ : eonAfCodes (cs ++ [c]) = eonAfCodes cs ++ eonAfCodes [c] := by
      simp [eonAfCodes]
    rw [happ]
    unfold eonNext
    by_cases h3 : c.1 ≤ 3
    · rw [if_pos h3]
      have : eonAfCodes [c] = [] := by
        have : c.1 ≠ 4 := by omega
        simp [eonAfCodes, this]
      rw [this, List.append_nil]
      exact ih
    · rw [if_neg h3]
      by_cases h4 : c.1 = 4
      · rw [if_pos h4, (getUint8_codes c.2).1, (getUint8_codes c.2).2]
        obtain ⟨l1, e1, o1⟩ := afOrigin_insert ih (c.2.toNat / 256)
        obtain ⟨l2, e2, o2⟩ := afOrigin_insert o1 (c.2.toNat % 256)
        rw [e1, Option.bind_some, e2]
        have : eonAfCodes [c] = [c.2.toNat / 256] ++ [c.2.toNat % 256] := by simp [eonAfCodes, h4]
        rw [this, ← List.append_assoc]
        simp only [Option.map_some, Option.getD_some]
        split
        · exact afOrigin_clear o2
        · exact o2
      · rw [if_neg h4]
        have : eonAfCodes [c] = [] := by simp [eonAfCodes, h4]
        rw [this, List.append_nil]
        exact ih

/-- Where the operations of a variant go. -/
def variantPaths (v : Nat) : List (List String) :=
  if v ≤ 3 then [["other_network", "ps"]]
  else if v = 4 then [["other_network", "alt_frequencies"]]
  else if v ≤ 9 then [["other_network", "kilohertz"]]
  else if v = 12 then [["other_network", "has_linkage"], ["other_network", "linkage_set"]]
  else if v = 13 then [["other_network", "prog_type"], ["other_network", "ta"]]
  else if v = 14 then
    [["other_network", "prog_item_number"], ["other_network", "prog_item_started", "day"],
     ["other_network", "prog_item_started", "time"]]
  else if v = 15 then [["other_network", "broadcaster_data"]]
  else [["debug"]]

theorem some_snd {α β : Type} {a c : α} {b d : β} (h : some (a, b) = some (c, d)) : d = b := by
  cases h; rfl

theorem eonVariant_paths {env : Env} {st st' : Station} {g : Group} {ops : List JOp}
    (h : st.eonVariant env g = some (st', ops)) :
    ∀ op ∈ ops, op.path ∈ variantPaths (getBits 4 (g.get .b2) 0) := by
  unfold Station.eonVariant at h
  unfold variantPaths
  dsimp only at h
  generalize getBits 4 (g.get .b2) 0 = v at *
  intro op hop
  split at h
  · rename_i hv
    rw [if_pos hv]
    rw [some_snd h] at hop
    split at hop
    · rw [List.mem_singleton.1 hop]; exact List.mem_singleton.2 rfl
    · simp at hop
  rename_i hv
  rw [if_neg hv]
  split at h
  · rename_i hv
    rw [if_pos hv]
    obtain ⟨l1, h1, h⟩ := Option.bind_eq_some_iff.1 h
    obtain ⟨l2, h2, h⟩ := Option.bind_eq_some_iff.1 h
    split at h
    · obtain ⟨raw, -, h⟩ := Option.bind_eq_some_iff.1 h
      rw [some_snd h] at hop
      obtain ⟨f, -, rfl⟩ := List.mem_map.1 hop
      exact List.mem_singleton.2 rfl
    · rw [some_snd h] at hop
      simp at hop
  rename_i hv
  rw [if_neg hv]
  split at h
  · rename_i hv
    rw [if_pos hv]
    rw [some_snd h] at hop
    split at hop
    · rw [List.mem_singleton.1 hop]; exact List.mem_singleton.2 rfl
    · simp at hop
  rename_i hv
  rw [if_neg hv]
  split at h
  · rename_i hv
    rw [if_pos hv]
    rw [some_snd h] at hop
    rcases List.mem_cons.1 hop with rfl | hop
    · exact List.mem_cons_self
    split at hop
    · rw [List.mem_singleton.1 hop]; exact List.mem_cons_of_mem _ (List.mem_singleton.2 rfl)
    · simp at hop
  rename_i hv
  rw [if_neg hv]
  split at h
  · rename_i hv
    rw [if_pos hv]
    obtain ⟨pty, -, h⟩ := Option.bind_eq_some_iff.1 h
    rw [some_snd h] at hop
    simp only [List.mem_cons, List.not_mem_nil, or_false] at hop
    rcases hop with rfl | rfl <;> simp [JOp.path]
  rename_i hv
  rw [if_neg hv]
  split at h
  · rename_i hv
    rw [if_pos hv]
    rw [some_snd h] at hop
    split at hop
    · cases hp : decodePIN (g.get .b3) with
      | none => rw [hp] at hop; simp at hop
      | some x =>
        rw [hp] at hop
        simp only [Option.map_some, Option.getD_some, Station.pinOps, List.mem_cons,
          List.not_mem_nil, or_false] at hop
        rcases hop with rfl | rfl | rfl <;> simp [JOp.path]
    · simp at hop
  rename_i hv
  rw [if_neg hv]
  split at h
  · rename_i hv
    rw [if_pos hv]
    rw [some_snd h] at hop
    rw [List.mem_singleton.1 hop]; exact List.mem_singleton.2 rfl
  · rename_i hv
    rw [if_neg hv]
    rw [some_snd h] at hop
    rw [List.mem_singleton.1 hop]; exact List.mem_singleton.2 rfl

/-- What a complete 14A group does not touch is not printed about the network. -/
theorem eon_quiet {env : Env} {st : Station} {g : Group} {basics ops : List JOp} {j : J} {v : Nat}
    (hkb : KeysIn ["group", "tp", "prog_type"] basics) (hops : ∀ op ∈ ops, op.path ∈ variantPaths v)
    (hb : J.build (st.headerOps env g ++ basics ++
        ([JOp.set ["other_network", "pi"] (.str (prefixedHex4 (g.get .b4).toNat)),
          .set ["other_network", "tp"] (.bool (getBool (g.get .b2) 4))] ++ ops)) .null = some j)
    (q : List String) (hq : diverge ("other_network" :: q) ["other_network", "pi"] = true ∧
      diverge ("other_network" :: q) ["other_network", "tp"] = true)
    (ha : ∀ a ∈ variantPaths v, diverge ("other_network" :: q) a = true) :
    j.at? ("other_network" :: q) = none := by
  rw [at_build_other ("other_network" :: q) _ .null j (by
    intro op hop
    rw [List.mem_append, List.mem_append, List.mem_append] at hop
    rcases hop with (hop | hop) | hop | hop
    · exact keysIn_away (header_keys env st g) "other_network" q (by decide) op hop
    · exact keysIn_away hkb "other_network" q (by decide) op hop
    · simp only [List.mem_cons, List.not_mem_nil, or_false] at hop
      rcases hop with rfl | rfl
      · exact hq.1
      · exact hq.2
    · exact ha _ (hops op hop)) hb]
  rfl

/-- The printed name of another network. -/
theorem eon_name_member {env : Env} (hk : env.tmc.KeysOk) {o : Options} {w : Nat} {p : Word}
    {gs : List Group} {st : Station} {ls : List (Option Line)}
    (h : Station.receive env (Station.withPI o w p) gs = some (st, ls)) {g : Group}
    {st' : Station} {j : J} (hu : st.updateAndPrint env g = some (st', some (.json j))) {n : Word}
    {c : Nat × Word} (hc : eonContent g = some (n, c)) :
    j.at? ["other_network", "ps"] =
      if c.1 ≤ 3 ∧ ((RDSString.new 8).ops env.ucs2
          (eonNameOps (eonAbout n (decodedGroups gs ls) ++ [c]))).isComplete = true then
        some (.str ((RDSString.new 8).ops env.ucs2
          (eonNameOps (eonAbout n (decodedGroups gs ls) ++ [c]))).lastCompleteString)
      else none := by
  have hgood := (receive_induction hk (fun _ _ => True) trivial (fun _ _ _ _ _ _ _ _ => trivial) gs st
    ls h).2
  have hst := C48_state_of_one_network env hk o w p gs st ls h n
  obtain ⟨hn, hcc, b, basics, ops, hv, hkb, hb, -⟩ := decoded_variant hk hgood hu hc
  have hpaths := eonVariant_paths hv
  have happ : eonNameOps (eonAbout n (decodedGroups gs ls) ++ [c]) =
      eonNameOps (eonAbout n (decodedGroups gs ls)) ++ eonNameOps [c] := by simp [eonNameOps]
  have hname : (st.eonPs n).getD (RDSString.new 8) =
      (RDSString.new 8).ops env.ucs2 (eonNameOps (eonAbout n (decodedGroups gs ls))) := by
    rw [← eonState_name, ← hst]
  rw [happ, RDSString.ops_append, ← hname]
  have hc1 : getBits 4 (g.get .b2) 0 = c.1 := by rw [← hcc]
  have hc2 : g.get .b3 = c.2 := by rw [← hcc]
  rw [hc1] at hpaths
  by_cases h3 : c.1 ≤ 3
  · unfold Station.eonVariant at hv
    dsimp only at hv
    rw [hc1, hc2, hn, if_pos h3] at hv
    have htext : ((st.eonPs n).getD (RDSString.new 8)).ops env.ucs2 (eonNameOps [c]) =
        (((st.eonPs n).getD (RDSString.new 8)).set env.ucs2 (2 * c.1) (getUint8 c.2 8)).set env.ucs2
          (2 * c.1 + 1) (getUint8 c.2 0) := by
      rw [byte_hi, byte_lo]
      simp [eonNameOps, h3, RDSString.ops, RDSString.op]
    rw [← htext] at hv
    generalize ((st.eonPs n).getD (RDSString.new 8)).ops env.ucs2 (eonNameOps [c]) = text at *
    have hops := some_snd hv
    by_cases hcomp : text.isComplete = true
    · rw [if_pos ⟨h3, hcomp⟩]
      rw [if_pos hcomp] at hops
      rw [hops, ← List.append_assoc] at hb
      exact at_build_set ["other_network", "ps"] _ _ [] .null j (by simp) hb
    · rw [if_neg (fun h => hcomp h.2)]
      rw [if_neg hcomp] at hops
      exact eon_quiet (v := 4) hkb (by rw [hops]; simp) hb ["ps"] (by decide) (by decide)
  · rw [if_neg (fun h => h3 h.1)]
    refine eon_quiet hkb hpaths hb ["ps"] (by decide) ?_
    have : c.1 < 16 := by rw [← hc1, getBits4]; omega
    generalize c.1 = v at *
    have all : ∀ v < 16, ¬ v ≤ 3 → ∀ a ∈ variantPaths v, diverge ["other_network", "ps"] a = true := by
      decide
    exact all v this h3

/-- **C48**, the name that is printed. The name of another network consists of the bytes latest
received for this network (in groups about this network, whatever was received about others in
between): a whole text, each byte received at or after the latest reception of the first. -/
theorem C48_name (env : Env) (hk : env.tmc.KeysOk) (o : Options) (w : Nat) (p : Word)
    (gs : List Group) (st : Station) (ls : List (Option Line))
    (h : Station.receive env (Station.withPI o w p) gs = some (st, ls)) (g : Group)
    (st' : Station) (j : J) (hu : st.updateAndPrint env g = some (st', some (.json j))) (n : Word)
    (c : Nat × Word) (hc : eonContent g = some (n, c)) (v : J)
    (hj : j.at? ["other_network", "ps"] = some v) :
    ∃ bs t, v = .str t ∧ WholeText 8 bs ∧
      (∀ i b, bs[i]? = some b → LatestByte (eonNameOps (eonAbout n (decodedGroups gs ls) ++ [c])) i b) ∧
      RDSString.decode env.ucs2 .basic (bs.map display) = some t := by
  rw [eon_name_member hk h hu hc] at hj
  split at hj
  · rename_i hx
    obtain ⟨bs, h1, h2, -, h3⟩ := C24_complete_text_latest_bytes env.ucs2 8 (by decide) .basic
      (eonNameOps (eonAbout n (decodedGroups gs ls) ++ [c])) hx.2
    exact ⟨bs, _, (Option.some.inj hj).symm, h1, h2, h3⟩
  · cases hj

/-- **C48**, names are printed. If the groups about network `n` so far end in a whole name in order
(whatever was received about others in between), the name is printed with its last group. -/
theorem C48_name_complete (env : Env) (hk : env.tmc.KeysOk) (o : Options) (w : Nat) (p : Word)
    (gs : List Group) (st : Station) (ls : List (Option Line))
    (h : Station.receive env (Station.withPI o w p) gs = some (st, ls)) (g : Group)
    (st' : Station) (j : J) (hu : st.updateAndPrint env g = some (st', some (.json j))) (n : Word)
    (c : Nat × Word) (hc : eonContent g = some (n, c)) (hv : c.1 ≤ 3) (earlier : List TextOp)
    (bs : List Byte) (hw : WholeText 8 bs)
    (he : eonNameOps (eonAbout n (decodedGroups gs ls) ++ [c]) = earlier ++ inOrder 0 bs)
    (t : Str) (ht : RDSString.decode env.ucs2 .basic (bs.map display) = some t) :
    j.at? ["other_network", "ps"] = some (.str t) := by
  rw [eon_name_member hk h hu hc, he, RDSString.ops_append]
  have inv := textInv env.ucs2 8 (by decide) .basic earlier
  have hlen : ((RDSString.new 8).ops env.ucs2 earlier).data.length = 8 := inv.len
  have henc : ((RDSString.new 8).ops env.ucs2 earlier).encoding = .basic := inv.enc
  obtain ⟨h1, -, h3, -⟩ := C25_in_order_text_complete env.ucs2
    ((RDSString.new 8).ops env.ucs2 earlier) bs (by rw [hlen]; exact hw) t (by rw [henc]; exact ht)
  rw [if_pos ⟨hv, h1⟩, h3]

/-- **C48**, the frequencies that are printed. A list of frequencies of another network consists of
all frequencies sent for this network since its latest announcement of their number. -/
theorem C48_frequencies (env : Env) (hk : env.tmc.KeysOk) (o : Options) (w : Nat) (p : Word)
    (gs : List Group) (st : Station) (ls : List (Option Line))
    (h : Station.receive env (Station.withPI o w p) gs = some (st, ls)) (g : Group)
    (st' : Station) (j : J) (hu : st.updateAndPrint env g = some (st', some (.json j))) (n : Word)
    (c : Nat × Word) (hc : eonContent g = some (n, c)) (v : J)
    (hj : j.at? ["other_network", "alt_frequencies"] = some v) :
    ∃ pre cs fs q, eonAfCodes (eonAbout n (decodedGroups gs ls) ++ [c]) =
        pre ++ (224 + fs.length) :: cs ∧ ListBody cs fs q ∧ v = .arr (fs.map .int) := by
  have hgood := (receive_induction hk (fun _ _ => True) trivial (fun _ _ _ _ _ _ _ _ => trivial) gs st
    ls h).2
  have hst := C48_state_of_one_network env hk o w p gs st ls h n
  obtain ⟨hn, hcc, b, basics, ops, hv, hkb, hb, -⟩ := decoded_variant hk hgood hu hc
  have hpaths := eonVariant_paths hv
  have hc1 : getBits 4 (g.get .b2) 0 = c.1 := by rw [← hcc]
  have hc2 : g.get .b3 = c.2 := by rw [← hcc]
  rw [hc1] at hpaths
  by_cases h4 : c.1 = 4
  · have horigin := eonState_af env.ucs2 (eonAbout n (decodedGroups gs ls))
    rw [← hst] at horigin
    dsimp only at horigin
    unfold Station.eonVariant at hv
    dsimp only at hv
    rw [hc1, hc2, hn, if_neg (by omega), if_pos h4, (getUint8_codes c.2).1, (getUint8_codes c.2).2] at hv
    obtain ⟨l1, e1, o1⟩ := afOrigin_insert horigin (c.2.toNat / 256)
    obtain ⟨l2, e2, o2⟩ := afOrigin_insert o1 (c.2.toNat % 256)
    rw [e1] at hv
    dsimp only [Option.bind_eq_bind, Option.bind_some] at hv
    rw [e2] at hv
    dsimp only [Option.bind_eq_bind, Option.bind_some] at hv
    have hcodes : eonAfCodes (eonAbout n (decodedGroups gs ls) ++ [c]) =
        eonAfCodes (eonAbout n (decodedGroups gs ls)) ++ [c.2.toNat / 256] ++ [c.2.toNat % 256] := by
      simp [eonAfCodes, h4]
    rw [← hcodes] at o2
    split at hv
    · rename_i hcomp
      rw [getRawList_wf o2.wf] at hv
      dsimp only [Option.bind_eq_bind, Option.bind_some] at hv
      have hops := some_snd hv
      have hpos : l2.numReceived = l2.numExpected ∧ 0 < l2.numExpected := by
        simp only [AltFreqList.isComplete, Bool.and_eq_true, beq_iff_eq, decide_eq_true_eq] at hcomp
        omega
      obtain ⟨pre, cs, ho1, ho2⟩ := o2.origin hpos.2
      have hlen : (l2.freqs.take l2.numReceived).length = l2.numExpected := by
        have := o2.wf.len; have := o2.wf.exp_le
        rw [List.length_take]; omega
      refine ⟨pre, cs, l2.freqs.take l2.numReceived, _, by rw [hlen]; exact ho1, ho2, ?_⟩
      rw [hops, ← List.append_assoc, build_append, Option.bind_eq_some_iff] at hb
      obtain ⟨j0, hb0, hb⟩ := hb
      have hj0 : j0.at? ["other_network", "alt_frequencies"] = none :=
        eon_quiet (v := 0) (ops := []) hkb (by simp) (by rw [List.append_nil]; exact hb0)
          ["alt_frequencies"] (by decide) (by decide)
      have := at_build_pushes_new ["other_network", "alt_frequencies"]
        ((l2.freqs.take l2.numReceived).map J.int) (by
          intro he
          have := congrArg List.length he
          simp only [List.length_map, List.length_nil] at this
          omega) j0 j hj0 (by rw [List.map_map]; exact hb)
      rw [this] at hj
      exact (Option.some.inj hj).symm
    · rw [eon_quiet (v := 0) hkb (by rw [some_snd hv]; simp) hb ["alt_frequencies"] (by decide)
        (by decide)] at hj
      cases hj
  · have hlt : c.1 < 16 := by rw [← hc1, getBits4]; omega
    have all : ∀ v < 16, v ≠ 4 → ∀ a ∈ variantPaths v,
        diverge ["other_network", "alt_frequencies"] a = true := by decide
    rw [eon_quiet hkb hpaths hb ["alt_frequencies"] (by decide) (all c.1 hlt h4)] at hj
    cases hj

/-- Names of two networks, interleaved: "ABCDEFGH" for 0x6205 and "12345678" for 0x6206. The last
group completes the second name. -/
example : ((Station.receive demoEnv (Station.withPI {} 0 0x6204)
      [demoGroup 0x6204 0xE400 0x4142 0x6205, demoGroup 0x6204 0xE400 0x3132 0x6206,
       demoGroup 0x6204 0xE401 0x4344 0x6205, demoGroup 0x6204 0xE401 0x3334 0x6206,
       demoGroup 0x6204 0xE402 0x3536 0x6206, demoGroup 0x6204 0xE402 0x4546 0x6205,
       demoGroup 0x6204 0xE403 0x4748 0x6205]).bind fun r =>
      r.1.updateAndPrint demoEnv (demoGroup 0x6204 0xE403 0x3738 0x6206)).map (fun r => match r.2 with
        | some (.json j) => match j.at? ["other_network", "ps"] with
          | some (.str t) => t
          | _ => []
        | _ => []) = some (ascii "12345678") := by decide +kernel

/-- What was told about a network, among others. -/
example : eonAbout 0x6205 [demoGroup 0x6204 0xE400 0x4142 0x6205, demoGroup 0x6204 0xE400 0x3132 0x6206,
    demoGroup 0x6204 0xE404 0xE215 0x6205] = [(0, 0x4142), (4, 0xE215)] := by decide +kernel

end Redsea
