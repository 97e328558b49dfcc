import Verif.Lemmas.TmcStation
import Verif.Props.TmcContent
import Verif.Props.GroupFieldsOther

/-
C75: the Traffic Message Channel among the other groups of a station. C76: its tuning information.
-/

namespace Redsea

open _root_.Redsea.Spec

/-! ### C75: the service -/

/-- **C75**, what is known. For every sequence of groups to a TMC receiver: it is active from the first
system information of variant 0 on; the service is encrypted if the latest variant 0 has no location
table; encryption identifier, location table and country are the latest ones announced. -/
theorem C75_known (env : TmcEnv) (l : List TmcGroup) (s : TMCService)
    (h : TMCService.run env {} l = some s) :
    s.isInitialized = l.any TmcGroup.isVariant0 ∧ s.isEncrypted = encrypted l ∧
    s.hasEncid = (encryptionId l).isSome ∧ s.encid = (encryptionId l).getD 0 ∧
    s.ltn = locationTable l ∧ s.ltcc = tableCountry l :=
  have k := knownAfter env l s h
  ⟨k.initialized, k.encrypted, k.hasEncid, k.encid, k.ltn, k.ltcc⟩

/-- **C75**, the service. For every sequence of groups of a station: the TMC receiver has exactly got the
system information of the complete 3A groups that announce TMC, and the complete groups of the types that
carry TMC at that time, in order; whatever groups came in between. -/
theorem C75_service (env : Env) (hk : env.tmc.KeysOk) (o : Options) (w : Nat) (p : Word)
    (gs : List Group) (st : Station) (ls : List (Option Line))
    (h : Station.receive env (Station.withPI o w p) gs = some (st, ls)) :
    TMCService.run env.tmc {} (history tmcPart (decodedGroups gs ls)) = some st.tmc := by
  induction gs using snocInduction generalizing st ls with
  | nil => cases h; rfl
  | snoc gs g ih =>
    rw [receive_snoc, Option.bind_eq_some_iff] at h
    obtain ⟨⟨st1, ls1⟩, h1, h⟩ := h
    obtain ⟨q, hu, he⟩ := Option.map_eq_some_iff.1 h
    cases he
    have ih := ih st1 ls1 h1
    have ha := C47_latest_assignment env hk o w p gs st1 ls1 h1
    obtain ⟨-, hgood⟩ := receive_facts hk h1
    rw [decodedGroups_snoc _ _ _ _ (receive_length h1)]
    obtain ⟨b, hnone, hsome⟩ := update_step hk hgood hu
    cases hl : q.2 with
    | none =>
      simp only [Option.isSome_none, Bool.false_eq_true, if_false, List.append_nil]
      rcases hnone hl with h | h <;> rw [h] <;> exact ih
    | some l1 =>
      obtain ⟨basics, body, j, -, -, hd, -, -, -⟩ := hsome l1 hl
      simp only [Option.isSome_some, if_true]
      rw [history_snoc, tmcRun_append, ih, Option.bind_some]
      by_cases ht : g.hasType = true
      · rw [if_pos ht] at hd
        have ha' := ha g.type
        generalize decodedGroups gs ls1 = ds at ha' ⊢
        have hdone := dispatch_done (st := { st1 with lastGroupHadPi := b }) (before := ds) ht ha' hd
        unfold TmcDone at hdone
        rcases hdone with ⟨e, hs, -⟩ | ⟨t, pre, out, e, hr, -, -⟩
        · rw [e, hs]; rfl
        · have hr : st1.tmc.receive env.tmc t = some (q.1.tmc, out) := hr
          rw [e, TMCService.run, hr]
          rfl
      · rw [if_neg ht] at hd
        rw [show q.1 = _ from (congrArg Prod.fst (Option.some.inj hd)).symm]
        rw [tmcPart_untyped (by simpa using ht)]
        rfl

section printed

variable {env : Env} (hk : env.tmc.KeysOk) {o : Options} {w : Nat} {p : Word} {gs : List Group}
  {st : Station} {ls : List (Option Line)}
  (h : Station.receive env (Station.withPI o w p) gs = some (st, ls)) {g : Group} {st' : Station} {j : J}
  (hu : st.updateAndPrint env g = some (st', some (.json j)))

include hk h hu in
/-- **C75**: groups that are not for the TMC receiver print nothing about TMC. -/
theorem C75_no_member (hn : tmcPart (decodedGroups gs ls) g = []) : j.at? ["tmc"] = none := by
  rcases tmc_parts hk h hu with ⟨-, hd, hb, ha⟩ | ⟨t, hd, out, e, -⟩
  · rw [at_build_other ["tmc"] hd .null j ha hb]
    rfl
  · rw [e] at hn; cases hn

include hk h hu in
/-- **C75**: a group for the TMC receiver prints under "tmc" what the receiver prints that has got all
TMC groups before. -/
theorem C75_printed (t : TmcGroup) (ht : tmcPart (decodedGroups gs ls) g = [t]) :
    ∃ s s' out jt, TMCService.run env.tmc {} (history tmcPart (decodedGroups gs ls)) = some s ∧
      s.receive env.tmc t = some (s', out) ∧ J.build out .null = some jt ∧
      j.at? ["tmc"] = jt.at? ["tmc"] := by
  rcases tmc_parts hk h hu with ⟨e, -⟩ | ⟨t', hd, out, e, hr, hb, ha, hok⟩
  · rw [e] at ht; cases ht
  · rw [e] at ht
    cases ht
    obtain ⟨jt, hjt, -⟩ := build_ok out (fun op hop => (hok op hop).1) .null (fitsAt_null [])
    refine ⟨st.tmc, _, out, jt, C75_service env hk o w p gs st ls h, hr, hjt, ?_⟩
    rw [build_append, Option.bind_eq_some_iff] at hb
    obtain ⟨j1, h1, h2⟩ := hb
    have h3 : j1.get? "tmc" = (J.null).get? "tmc" := by
      have := at_build_other ["tmc"] hd .null j1 ha h1
      rw [at_one, at_one] at this
      exact this
    rw [at_one, at_one]
    exact get_build_congr out "tmc" j1 j .null jt h3 (fun op hop hp => by
      have := (hok op hop).2
      rw [hp] at this
      cases this) h2 hjt

include hk h hu in
/-- The operations of the service, and what it knows. -/
theorem tmc_ops (t : TmcGroup) (ht : tmcPart (decodedGroups gs ls) g = [t]) :
    ∃ hd out, st.tmc.receive env.tmc t = some (st'.tmc, out) ∧ J.build (hd ++ out) .null = some j ∧
      (∀ op ∈ hd, op.Away ["tmc"]) ∧
      TmcKnown env.tmc (history tmcPart (decodedGroups gs ls)) st.tmc := by
  have hs := knownAfter _ _ _ (C75_service env hk o w p gs st ls h)
  rcases tmc_parts hk h hu with ⟨e, -⟩ | ⟨t', hd, out, e, hr, hb, ha, -⟩
  · rw [e] at ht; cases ht
  · rw [e] at ht
    cases ht
    exact ⟨hd, out, hr, hb, ha, hs⟩

end printed

/-! ### Members printed by the service -/

theorem away_all {p : List String} {l : List JOp} (h : (l.all fun op => diverge p op.path) = true) :
    ∀ op ∈ l, op.Away p := List.all_eq_true.mp h

section members

variable {hd out : List JOp} {j : J} (hb : J.build (hd ++ out) .null = some j)
  (ha : ∀ op ∈ hd, op.Away ["tmc"])

include hb in
theorem tmc_set {p : List String} {v : J} (pre post : List JOp) (ho : out = pre ++ .set p v :: post)
    (hp : (post.all fun op => diverge p op.path) = true) : j.at? p = some v := by
  rw [ho, ← List.append_assoc] at hb
  exact at_build_set p v _ post .null j (away_all hp) hb

include hb ha in
theorem tmc_none {q : List String} (hp : (out.all fun op => diverge ("tmc" :: q) op.path) = true) :
    j.at? ("tmc" :: q) = none := by
  rw [at_build_other ("tmc" :: q) (hd ++ out) .null j ?_ hb]
  · rfl
  · intro op hop
    rcases List.mem_append.mp hop with h | h
    · exact away_longer (ha op h) q
    · exact away_all hp op h

include hb ha in
theorem tmc_pushes {q : List String} (vs : List J) (pre post : List JOp)
    (ho : out = pre ++ (vs.map (JOp.push ("tmc" :: q)) ++ post))
    (h1 : (pre.all fun op => diverge ("tmc" :: q) op.path) = true)
    (h2 : (post.all fun op => diverge ("tmc" :: q) op.path) = true) :
    j.at? ("tmc" :: q) = if vs = [] then none else some (.arr vs) := by
  rw [ho, ← List.append_assoc, build_append, Option.bind_eq_some_iff] at hb
  obtain ⟨j1, hj1, hb⟩ := hb
  rw [build_append, Option.bind_eq_some_iff] at hb
  obtain ⟨j2, hj2, hb⟩ := hb
  have e1 : j1.at? ("tmc" :: q) = none := tmc_none hj1 ha h1
  rw [at_build_other _ post j2 j (away_all h2) hb]
  by_cases hv : vs = []
  · subst hv
    have : j1 = j2 := by simpa [J.build] using hj2
    rw [← this, e1, if_pos rfl]
  · rw [if_neg hv]
    exact at_build_pushes_new _ vs hv j1 j2 e1 hj2

end members

theorem scope_strings : ∀ n : Fin 16,
    getScopeStrings (BitVec.ofNat 16 n.val) = (scopeNames n.val).map ascii := by decide +kernel

theorem scopeNames_nil : ∀ n : Fin 16, (scopeNames n.val = []) = (n.val = 0) := by decide

section printed

variable {env : Env} (hk : env.tmc.KeysOk) {o : Options} {w : Nat} {p : Word} {gs : List Group}
  {st : Station} {ls : List (Option Line)}
  (h : Station.receive env (Station.withPI o w p) gs = some (st, ls)) {g : Group} {st' : Station} {j : J}
  (hu : st.updateAndPrint env g = some (st', some (.json j)))

/-! ### C75: system information -/

include hk h hu in
/-- **C75**, system information of variant 0: location table, whether the service is encrypted (no location
table), alternative frequencies, scope. -/
theorem C75_location_table (ltn scope : Nat) (alternative enhanced : Bool) (hl : ltn < 64) (hs : scope < 16)
    (ht : tmcPart (decodedGroups gs ls) g = [.system (tableWord ltn alternative enhanced scope)]) :
    j.at? ["tmc", "system_info", "is_encrypted"] = some (.bool (decide (ltn = 0))) ∧
    j.at? ["tmc", "system_info", "location_table"] = (if ltn = 0 then none else some (.nat ltn)) ∧
    j.at? ["tmc", "system_info", "is_on_alt_freqs"] = some (.bool alternative) ∧
    j.at? ["tmc", "system_info", "scope"] =
      (if scope = 0 then none else some (.arr ((scopeNames scope).map fun t => .str (ascii t)))) := by
  obtain ⟨hd, out, hr, hb, ha, -⟩ := tmc_ops hk h hu _ ht
  have hr : st.tmc.receiveSystemGroup (tableWord ltn alternative enhanced scope) = some (st'.tmc, out) := hr
  have a1 := alternative.toNat_lt
  have a2 := enhanced.toNat_lt
  have hn : (tableWord ltn alternative enhanced scope).toNat =
      64 * ltn + 32 * alternative.toNat + 16 * enhanced.toNat + scope := by
    unfold tableWord
    rw [BitVec.toNat_ofNat]
    omega
  generalize tableWord ltn alternative enhanced scope = word at hr hn
  have b1 : getBits 2 word 14 = 0 := by rw [getBits_eq_div, hn]; omega
  have b2 : getBits 6 word 6 = ltn := by rw [getBits_eq_div, hn]; omega
  have b3 : getBool word 5 = alternative := by
    rw [getBool_eq_div, hn]
    cases alternative
    · exact beq_eq_false_iff_ne.mpr (by simp only [Bool.toNat_false] at *; omega)
    · exact beq_iff_eq.mpr (by simp only [Bool.toNat_true] at *; omega)
  have b4 : getBits 4 word 0 = scope := by rw [getBits_eq_div, hn]; omega
  unfold TMCService.receiveSystemGroup at hr
  rw [b1] at hr
  dsimp only at hr
  rw [b2, b3, b4, show getScopeStrings (BitVec.ofNat 16 scope) = _ from scope_strings ⟨scope, hs⟩] at hr
  have hout := (congrArg Prod.snd (Option.some.inj hr)).symm
  dsimp only at hout
  rw [List.map_map] at hout
  generalize hps : (scopeNames scope).map _ = ps at hout
  have hpa : ∀ q, diverge q ["tmc", "system_info", "scope"] = true →
      (ps.all fun op => diverge q op.path) = true := by
    intro q hq
    rw [← hps, List.all_map]
    exact List.all_eq_true.mpr fun _ _ => hq
  have he : (ltn == 0) = decide (ltn = 0) := rfl
  have hsc : j.at? ["tmc", "system_info", "scope"] =
      if (scopeNames scope).map (fun t => J.str (ascii t)) = [] then none
      else some (.arr ((scopeNames scope).map fun t => .str (ascii t))) := by
    refine tmc_pushes hb ha _ _ [] (by rw [hout, List.append_nil, List.map_map]; rw [← hps]; rfl) ?_ rfl
    split <;> rfl
  refine ⟨?_, ?_, ?_, ?_⟩
  · refine tmc_set hb [] _ (by rw [hout, he, List.append_assoc, List.append_assoc]; rfl) ?_
    refine Eq.trans (List.all_append (xs := if _ then _ else _)) ?_
    rw [List.all_append, hpa _ rfl]
    split <;> rfl
  · by_cases hz : ltn = 0
    · rw [if_pos hz]
      refine tmc_none hb ha ?_
      rw [hout, List.all_append, List.all_append, List.all_append, hpa _ rfl, hz]
      rfl
    · rw [if_neg hz]
      rw [he, decide_eq_false hz] at hout
      refine tmc_set hb [_] (_ :: ps) hout ?_
      rw [List.all_cons, hpa _ rfl]
      rfl
  · refine tmc_set hb _ ps (by rw [hout, List.append_assoc]; rfl) (hpa _ rfl)
  · rw [hsc]
    have := scopeNames_nil ⟨scope, hs⟩
    dsimp only at this
    by_cases hz : scope = 0
    · rw [if_pos hz, if_pos (by rw [List.map_eq_nil_iff, this]; exact hz)]
    · rw [if_neg hz, if_neg (by rw [List.map_eq_nil_iff, this]; exact hz)]

include hk h hu in
/-- **C75**, system information of variant 1: service identifier, gap between the groups of a message, country
code of the location table (0: none). -/
theorem C75_service_id (gap sid rest ltcc : Nat) (hg : gap < 4) (hs : sid < 64) (hr : rest < 4)
    (hl : ltcc < 16)
    (ht : tmcPart (decodedGroups gs ls) g = [.system (serviceWord gap sid rest ltcc)]) :
    j.at? ["tmc", "system_info", "service_id"] = some (.nat sid) ∧
    j.at? ["tmc", "system_info", "gap"] = some (.nat (gapGroups gap)) ∧
    j.at? ["tmc", "system_info", "ltcc"] = (if ltcc = 0 then none else some (.nat ltcc)) := by
  obtain ⟨hd, out, hr, hb, ha, -⟩ := tmc_ops hk h hu _ ht
  have hr : st.tmc.receiveSystemGroup (serviceWord gap sid rest ltcc) = some (st'.tmc, out) := hr
  have hn : (serviceWord gap sid rest ltcc).toNat =
      2 ^ 14 + 2 ^ 12 * gap + 2 ^ 6 * sid + 2 ^ 4 * rest + ltcc := by
    unfold serviceWord
    rw [BitVec.toNat_ofNat]
    omega
  generalize serviceWord gap sid rest ltcc = word at hr hn
  have b1 : getBits 2 word 14 = 1 := by rw [getBits_eq_div, hn]; omega
  have b2 : getBits 6 word 6 = sid := by rw [getBits_eq_div, hn]; omega
  have b3 : getBits 2 word 12 = gap := by rw [getBits_eq_div, hn]; omega
  have b4 : getBits 4 word 0 = ltcc := by rw [getBits_eq_div, hn]; omega
  have hgap : TMCService.gapValues[gap]? = some (gapGroups gap) := by
    have : ∀ n : Fin 4, TMCService.gapValues[n.val]? = some (gapGroups n.val) := by decide
    exact this ⟨gap, hg⟩
  unfold TMCService.receiveSystemGroup at hr
  rw [b1] at hr
  dsimp only at hr
  rw [b2, b3, b4, hgap] at hr
  have hout := (congrArg Prod.snd (Option.some.inj hr)).symm
  dsimp only at hout
  refine ⟨?_, ?_, ?_⟩
  · refine tmc_set hb [] _ hout ?_
    split <;> rfl
  · refine tmc_set hb [_] _ hout ?_
    split <;> rfl
  · by_cases hz : ltcc = 0
    · rw [if_pos hz]
      refine tmc_none hb ha ?_
      rw [hout, hz]
      rfl
    · rw [if_neg hz]
      rw [if_pos (Nat.pos_of_ne_zero hz)] at hout
      exact tmc_set hb [_, _] [] hout rfl

include hk h hu in
/-- **C75**, system information of variant 2: extended country code of the location table (0: none), and the
country, if the country code is known from variant 1. -/
theorem C75_country (ltecc : Nat) (hl : ltecc < 256)
    (ht : tmcPart (decodedGroups gs ls) g = [.system (countryWord ltecc)]) :
    j.at? ["tmc", "system_info", "ltecc"] = (if ltecc = 0 then none else some (.nat ltecc)) ∧
    j.at? ["tmc", "system_info", "country"] =
      (if ltecc = 0 ∨ tableCountry (history tmcPart (decodedGroups gs ls)) = 0 then none
       else (getCountryString (tableCountry (history tmcPart (decodedGroups gs ls))) ltecc).map .str) := by
  obtain ⟨hd, out, hr, hb, ha, kn⟩ := tmc_ops hk h hu _ ht
  have hr : st.tmc.receiveSystemGroup (countryWord ltecc) = some (st'.tmc, out) := hr
  have hn : (countryWord ltecc).toNat = 2 ^ 15 + ltecc := by
    unfold countryWord
    rw [BitVec.toNat_ofNat]
    omega
  generalize countryWord ltecc = word at hr hn
  rw [← kn.ltcc]
  have b1 : getBits 2 word 14 = 2 := by rw [getBits_eq_div, hn]; omega
  have b2 : (getUint8 word 0).toNat = ltecc := by
    rw [getUint8_lo]
    unfold loByte
    rw [BitVec.toNat_ofNat, hn]
    omega
  unfold TMCService.receiveSystemGroup at hr
  rw [b1] at hr
  dsimp only at hr
  have hr : (if ltecc > 0 then
      if st.tmc.ltcc > 0 then (getCountryString st.tmc.ltcc ltecc).bind fun c => some (st.tmc,
        [.set ["tmc", "system_info", "ltecc"] (.nat ltecc), .set ["tmc", "system_info", "country"] (.str c)])
      else some (st.tmc, [.set ["tmc", "system_info", "ltecc"] (.nat ltecc)])
    else some (st.tmc, [])) = some (st'.tmc, out) := by
    rw [← b2]
    exact hr
  by_cases hz : ltecc = 0
  · rw [if_pos hz, if_pos (.inl hz)]
    rw [if_neg (by omega)] at hr
    have hout := (congrArg Prod.snd (Option.some.inj hr)).symm
    dsimp only at hout
    exact ⟨tmc_none hb ha (by rw [hout]; rfl), tmc_none hb ha (by rw [hout]; rfl)⟩
  · rw [if_neg hz]
    rw [if_pos (by omega)] at hr
    by_cases hc : st.tmc.ltcc = 0
    · rw [if_pos (.inr hc)]
      rw [if_neg (by omega)] at hr
      have hout := (congrArg Prod.snd (Option.some.inj hr)).symm
      dsimp only at hout
      exact ⟨tmc_set hb [] [] hout rfl, tmc_none hb ha (by rw [hout]; rfl)⟩
    · rw [if_neg (by rintro (h | h); exacts [hz h, hc h])]
      rw [if_pos (by omega)] at hr
      obtain ⟨c, hcs, hr⟩ := Option.bind_eq_some_iff.mp hr
      have hout := (congrArg Prod.snd (Option.some.inj hr)).symm
      dsimp only at hout
      rw [hcs]
      exact ⟨tmc_set hb [] [_] hout rfl, tmc_set hb [_] [] hout rfl⟩

/-! ### C75: user groups -/

include hk h hu in
/-- **C75**: user groups print nothing before the first system information of variant 0. -/
theorem C75_before_service (u : UserGroup) (ht : tmcPart (decodedGroups gs ls) g = [.user u])
    (hn : (history tmcPart (decodedGroups gs ls)).any TmcGroup.isVariant0 = false) :
    j.at? ["tmc"] = none := by
  obtain ⟨hd, out, hr, hb, ha, kn⟩ := tmc_ops hk h hu _ ht
  have hr : st.tmc.receiveUserGroup env.tmc u.x u.y u.z = some (st'.tmc, out) := hr
  unfold TMCService.receiveUserGroup at hr
  rw [kn.initialized, hn] at hr
  have hout : [] = out := congrArg Prod.snd (Option.some.inj hr)
  exact tmc_none hb ha (by rw [← hout]; rfl)

include hk h hu in
/-- **C75**, encryption administration groups: service identifier, encryption identifier and location table
number. -/
theorem C75_encryption (test sid encid ltn rest : Nat) (h1 : test < 32) (h2 : sid < 64) (h3 : encid < 32)
    (h4 : ltn < 64) (h5 : rest < 1024)
    (ht : tmcPart (decodedGroups gs ls) g = [.user (adminGroup test sid encid ltn rest)])
    (hs : (history tmcPart (decodedGroups gs ls)).any TmcGroup.isVariant0 = true) :
    j.at? ["tmc", "system_info", "service_id"] = some (.nat sid) ∧
    j.at? ["tmc", "system_info", "encryption_id"] = some (.nat encid) ∧
    j.at? ["tmc", "system_info", "location_table"] = some (.nat ltn) := by
  obtain ⟨hd, out, hr, hb, ha, kn⟩ := tmc_ops hk h hu _ ht
  have hr : st.tmc.receiveUserGroup env.tmc 0 (adminGroup test sid encid ltn rest).y
    (adminGroup test sid encid ltn rest).z = some (st'.tmc, out) := hr
  have hy : (adminGroup test sid encid ltn rest).y.toNat = 2 ^ 11 * test + 2 ^ 5 * sid + encid := by
    unfold adminGroup
    dsimp only
    rw [BitVec.toNat_ofNat]
    omega
  have hz : (adminGroup test sid encid ltn rest).z.toNat = 2 ^ 10 * ltn + rest := by
    unfold adminGroup
    dsimp only
    rw [BitVec.toNat_ofNat]
    omega
  generalize (adminGroup test sid encid ltn rest).y = y at hr hy
  generalize (adminGroup test sid encid ltn rest).z = z at hr hz
  have b1 : getBits 6 y 5 = sid := by rw [getBits_eq_div, hy]; omega
  have b2 : getBits 5 y 0 = encid := by rw [getBits_eq_div, hy]; omega
  have b3 : getBits 6 z 10 = ltn := by rw [getBits_eq_div, hz]; omega
  unfold TMCService.receiveUserGroup at hr
  rw [kn.initialized, hs, if_neg (by decide), if_pos (by decide)] at hr
  dsimp only at hr
  rw [b1, b2, b3] at hr
  have hout := (congrArg Prod.snd (Option.some.inj hr)).symm
  dsimp only at hout
  exact ⟨tmc_set hb [] [_, _] hout rfl, tmc_set hb [_] [_] hout rfl, tmc_set hb [_, _] [] hout rfl⟩

include hk h hu in
/-- **C75**, groups of an encrypted service print no message before the first encryption administration
group. -/
theorem C75_no_encryption_id (u : UserGroup) (ht : tmcPart (decodedGroups gs ls) g = [.user u])
    (he : encrypted (history tmcPart (decodedGroups gs ls)) = true)
    (hn : encryptionId (history tmcPart (decodedGroups gs ls)) = none) (hx : u.x.toNat % 32 ≠ 0)
    (hm : u.x.toNat / 16 % 2 = 0) :
    j.at? ["tmc"] = none := by
  obtain ⟨hd, out, hr, hb, ha, kn⟩ := tmc_ops hk h hu _ ht
  have hr : st.tmc.receiveUserGroup env.tmc u.x u.y u.z = some (st'.tmc, out) := hr
  unfold TMCService.receiveUserGroup at hr
  dsimp only at hr
  rw [kn.encrypted, he, kn.hasEncid, hn, low5, if_neg hx, getBool_eq_div, hm] at hr
  have hout : [] = out := by
    split at hr
    · exact congrArg Prod.snd (Option.some.inj hr)
    · exact congrArg Prod.snd (Option.some.inj hr)
  exact tmc_none hb ha (by rw [← hout]; rfl)

end printed

/-! ### C75: messages -/

theorem heardIndices_snoc (l : List TmcGroup) (g : TmcGroup) :
    heardIndices (l ++ [g]) =
      heardIndices l ++ (if listening l then (partIndex g).toList else []) := by
  unfold heardIndices
  rw [List.length_append, List.length_singleton, List.range_succ, List.filterMap_append]
  congr 1
  · have : ∀ (r : List Nat), (∀ i ∈ r, i < l.length) →
        r.filterMap (fun i => if listening ((l ++ [g]).take i) then (l ++ [g])[i]?.bind partIndex else none) =
        r.filterMap (fun i => if listening (l.take i) then l[i]?.bind partIndex else none) := by
      intro r
      induction r with
      | nil => intro _; rfl
      | cons i r ih =>
        intro hr
        have hi := hr i (by simp)
        rw [List.filterMap_cons, List.filterMap_cons, ih (fun j hj => hr j (by simp [hj])),
          List.take_append_of_le_length (by omega), List.getElem?_append_left hi]
    exact this _ (fun i hi => List.mem_range.mp hi)
  · rw [List.filterMap_cons, List.filterMap_nil, List.take_left', List.getElem?_concat_length, Option.bind_some]
    · cases listening l with
      | false => rfl
      | true => cases partIndex g <;> simp
    · rfl

theorem known_listening {env : TmcEnv} {l : List TmcGroup} {s : TMCService} (k : TmcKnown env l s) :
    s.Ready ↔ listening l = true := by
  unfold TMCService.Ready listening
  rw [k.initialized, k.encrypted, k.hasEncid]
  cases l.any TmcGroup.isVariant0 <;> cases encrypted l <;> simp

theorem known_location {env : TmcEnv} {l : List TmcGroup} {s : TMCService} (k : TmcKnown env l s) (z : Word) :
    knownLocation env s z = sentLocation env.serviceKey l z := by
  unfold knownLocation sentLocation
  rw [k.encrypted, k.encid]

theorem system_message {s s' : TMCService} {w : Word} {out : List JOp}
    (h : s.receiveSystemGroup w = some (s', out)) : s'.message = s.message := by
  unfold TMCService.receiveSystemGroup at h
  dsimp only at h
  split at h
  · cases h; rfl
  · obtain ⟨_, -, h⟩ := Option.bind_eq_some_iff.mp h
    cases h; rfl
  · split at h
    · split at h
      · obtain ⟨_, -, h⟩ := Option.bind_eq_some_iff.mp h
        cases h; rfl
      · cases h; rfl
    · cases h; rfl
  · cases h; rfl

theorem tuning_message {env : TmcEnv} {s s' : TMCService} {x y z : Word} {out : List JOp}
    (h : s.tuningInformation env x y z = some (s', out)) : s'.message = s.message := by
  unfold TMCService.tuningInformation at h
  dsimp only at h
  split at h
  · obtain ⟨_, -, h⟩ := Option.bind_eq_some_iff.mp h
    obtain ⟨_, -, h⟩ := Option.bind_eq_some_iff.mp h
    obtain ⟨_, -, h⟩ := Option.bind_eq_some_iff.mp h
    cases h; rfl
  · split at h <;> (cases h; rfl)
  · cases h; rfl
  · split at h <;> (cases h; rfl)

/-- The message under construction belongs to the latest part, or is a new one. -/
theorem message_index (env : TmcEnv) (l : List TmcGroup) (s : TMCService)
    (h : TMCService.run env {} l = some s) :
    s.message.continuityIndex = 0 ∨ (heardIndices l).getLast? = some s.message.continuityIndex := by
  induction l using snocInduction generalizing s with
  | nil => cases h; exact .inl rfl
  | snoc l g ih =>
    rw [tmcRun_append, Option.bind_eq_some_iff] at h
    obtain ⟨s1, h1, h2⟩ := h
    rw [TMCService.run, Option.bind_eq_some_iff] at h2
    obtain ⟨⟨s2, out⟩, h3, h4⟩ := h2
    have h4 : some s2 = some s := h4
    rw [Option.some.inj h4] at h3
    have kn := knownAfter env l s1 h1
    have ih := ih s1 h1
    rw [heardIndices_snoc]
    cases g with
    | system w =>
      rw [system_message h3]
      simpa [partIndex] using ih
    | user u =>
      have h3 : s1.receiveUserGroup env u.x u.y u.z = some (s, out) := h3
      by_cases hl : listening l = true
      · rw [if_pos hl]
        by_cases hm : u.isMulti = true
        · rw [show partIndex (.user u) = some u.index from if_pos hm]
          rw [multi_path env s1 u ((known_listening kn).mpr hl) hm] at h3
          dsimp only at h3
          split at h3
          · obtain ⟨_, -, h3⟩ := Option.bind_eq_some_iff.mp h3
            cases h3
            exact .inl rfl
          · cases h3
            dsimp only
            unfold Message.pushMulti
            dsimp only
            split
            · exact .inl rfl
            · right
              rw [getBits_eq_div]
              simp [UserGroup.index]
        · rw [show partIndex (.user u) = none from if_neg hm]
          have : s.message = s1.message := by
            unfold TMCService.receiveUserGroup at h3
            dsimp only at h3
            split at h3
            · cases h3; rfl
            split at h3
            · cases h3; rfl
            split at h3
            · exact tuning_message h3
            split at h3
            · cases h3; rfl
            split at h3
            · obtain ⟨_, -, h3⟩ := Option.bind_eq_some_iff.mp h3
              cases h3; rfl
            · rename_i a1 a2 a3 a4
              exfalso
              apply hm
              rw [low5] at a1
              rw [getBool_eq_div] at a2 a4
              have a2 : u.x.toNat / 2 ^ 4 % 2 ≠ 1 := by simpa using a2
              have a4 : u.x.toNat / 2 ^ 3 % 2 ≠ 1 := by simpa using a4
              unfold UserGroup.isMulti UserGroup.isAdmin
              rw [show u.x.toNat / 8 % 4 = 0 by omega]
              simpa using a1
          rw [this]
          simpa using ih
      · rw [if_neg hl, List.append_nil]
        have hnr : ¬ s1.Ready := fun hr => hl ((known_listening kn).mp hr)
        have : s.message = s1.message := by
          unfold TMCService.receiveUserGroup at h3
          dsimp only at h3
          split at h3
          · cases h3; rfl
          rename_i a0
          split at h3
          · cases h3; rfl
          split at h3
          · exact tuning_message h3
          split at h3
          · cases h3; rfl
          · rename_i a3
            exfalso
            apply hnr
            refine ⟨by simpa using a0, ?_⟩
            intro he
            rw [he] at a3
            simpa using a3
        rw [this]
        exact ih

theorem run_users (env : TmcEnv) (us : List UserGroup) (s : TMCService) :
    s.run env (us.map .user) = s.runUser env us := by
  induction us generalizing s with
  | nil => rfl
  | cons u us ih =>
    rw [List.map_cons, TMCService.run, TMCService.runUser]
    congr 1
    funext r
    exact ih r.1

/-- A part with another index begins a new message. -/
theorem other_index (env : TmcEnv) (s : TMCService) (u : UserGroup) (hr : s.Ready) (hm : u.isMulti = true)
    (hi : u.index ≠ s.message.continuityIndex) :
    s.receiveUserGroup env u.x u.y u.z =
      ({ s with message := Message.new s.isEncrypted } : TMCService).receiveUserGroup env u.x u.y u.z := by
  have h8 : 1 ≤ u.index := (isMulti_index u hm).1
  have hr' : ({ s with message := Message.new s.isEncrypted } : TMCService).Ready := hr
  rw [multi_path env s u hr hm, multi_path env _ u hr' hm]
  have e1 : startMsg s u.index = Message.new s.isEncrypted := if_pos hi
  have e2 : startMsg { s with message := Message.new s.isEncrypted } u.index = Message.new s.isEncrypted := by
    unfold startMsg
    rw [if_pos]
    show u.index ≠ 0
    omega
  rw [e1, e2]
  rfl

/-- All groups of a message but the last one print nothing; the last one prints the message. -/
theorem last_group (env : TmcEnv) (hk : env.KeysOk) (s : TMCService) (hr : s.Ready) (n : Nat) (h1 : 1 ≤ n)
    (h4 : n ≤ 4) (fields : List (Nat × Nat)) (hf : Fits (readCapacity n) fields) (x y z : Word)
    (hx : 1 ≤ x.toNat % 32 ∧ x.toNat % 32 ≤ 7) (hy : 2 ^ 15 ≤ y.toNat)
    (hi : x.toNat % 8 ≠ s.message.continuityIndex) (init : List UserGroup) (last : UserGroup)
    (he : ({ x := x, y := y, z := z } : UserGroup) :: subsequentUserGroups x n fields = init ++ [last])
    (s1 : TMCService) (hs1 : s.runUser env init = some s1) :
    ∃ members, (s1.receiveUserGroup env last.x last.y last.z).map (·.2) =
      some (.set ["tmc", "message"] (.obj members) :: decodeLocation (env.locations s.ltn) s.ltn
        (knownLocation env s z)
        (if y.toNat / 2 ^ 14 % 2 = 1 then -(extentOf y fields : Int) else extentOf y fields)) ∧
      ShowsMessage env y z s.isEncrypted (knownLocation env s z) fields members := by
  have hm : ∀ y z, UserGroup.isMulti { x := x, y := y, z := z } = true := by
    intro y z
    unfold UserGroup.isMulti UserGroup.isAdmin
    dsimp only
    rw [show x.toNat / 8 % 4 = 0 by omega]
    have : x.toNat % 32 ≠ 0 := by omega
    simp [this]
  obtain ⟨s0, hs0⟩ : ∃ s0 : TMCService, s0 = { s with message := Message.new s.isEncrypted } := ⟨_, rfl⟩
  have hr0 : s0.Ready := by rw [hs0]; exact hr
  have hi0 : s0.message.continuityIndex = 0 := by rw [hs0]; rfl
  obtain ⟨members, c1, c2⟩ := C65_message_content_partial env hk s0 hr0 hi0 n h1 h4 fields hf x y z hx hy
  have hloc : knownLocation env s0 z = knownLocation env s z := by rw [hs0]; rfl
  have hltn : s0.ltn = s.ltn := by rw [hs0]
  have henc : s0.isEncrypted = s.isEncrypted := by rw [hs0]
  rw [hloc, hltn] at c1
  rw [hloc, henc] at c2
  refine ⟨members, ?_, c2⟩
  rw [← c1]
  -- the groups before the last one
  cases init with
  | nil =>
    exfalso
    have := congrArg List.length he
    simp [subsequentUserGroups, subsequentGroups] at this
    omega
  | cons f init =>
    rw [List.cons_append] at he
    obtain ⟨rfl, hsub⟩ := List.cons.inj he
    have hfirst := other_index env s { x := x, y := y, z := z } hr (hm y z) hi
    rw [← hs0] at hfirst
    have hs1' : s0.runUser env ({ x := x, y := y, z := z } :: init) = some s1 := by
      rw [← hs1, TMCService.runUser, TMCService.runUser, hfirst]
    have hcap : readCapacity n ≤ 28 * n := by unfold readCapacity; split <;> omega
    have hb : (packedFields (28 * n) fields).length = 28 * n := packed_length _ _ (by
      have := hf.2.1; omega)
    have hlen : init.length = n - 1 := by
      have := congrArg List.length hsub
      simp [subsequentUserGroups, subsequentGroups] at this
      omega
    have hopen : ∀ g ∈ ({ x := x, y := y, z := z } : UserGroup) :: init,
        g.isMulti ∧ g.index = x.toNat % 8 ∧ g.isLast = false := by
      intro g hg
      rcases List.mem_cons.mp hg with rfl | hg
      · refine ⟨hm _ _, rfl, ?_⟩
        unfold UserGroup.isLast UserGroup.isFirst
        have := y.isLt
        dsimp only
        rw [show y.toNat / 2 ^ 15 = 1 by omega]
        rfl
      · obtain ⟨i, hi, hgi⟩ := List.mem_iff_getElem.mp hg
        have h5 : (subsequentUserGroups x n fields)[i]? = some g := by
          rw [hsub, List.getElem?_append_left hi, List.getElem?_eq_getElem hi, hgi]
        unfold subsequentUserGroups subsequentGroups at h5
        rw [List.getElem?_map, List.getElem?_map, List.getElem?_range (by omega)] at h5
        have h5 := Option.some.inj h5
        subst h5
        refine ⟨hm _ _, rfl, ?_⟩
        rw [← isLast_eq]
        rw [show Message.isLastGroup _ = _ from (nth_slot n _ hb i (by omega) h4).2]
        exact decide_eq_false (by omega)
    rw [he]
    exact (outputs_append env _ last s0 s1 hs1' (outputs_open env s0 hr0 hi0 _ (by omega) _ hopen)).symm

theorem decodeLocation_paths (db : LocationDatabase) (ltn : Nat) (location : Option Word) (extent : Int) :
    ∀ op ∈ decodeLocation db ltn location extent, ∃ k ∈ placeMembers, op.path = ["tmc", "message", k] := by
  unfold decodeLocation placeMembers
  intro op hop
  split at hop
  · cases hop
  split at hop
  · cases hop
  split at hop
  · cases hop
  simp only [List.mem_append] at hop
  rcases hop with (hop | hop) | hop
  · simp only [List.mem_singleton] at hop
    subst hop
    exact ⟨_, by simp, rfl⟩
  · split at hop
    · split at hop
      · simp only [List.mem_cons, List.not_mem_nil, or_false] at hop
        rcases hop with rfl | rfl
        · exact ⟨"span_from", by simp, rfl⟩
        · exact ⟨"span_to", by simp, rfl⟩
      · cases hop
    · cases hop
  · split at hop
    · cases hop
    · simp only [List.mem_append] at hop
      rcases hop with hop | hop
      · split at hop
        · simp only [List.mem_singleton] at hop
          subst hop
          exact ⟨"road_number", by simp, rfl⟩
        · cases hop
      · split at hop
        · simp only [List.mem_singleton] at hop
          subst hop
          exact ⟨"road_name", by simp, rfl⟩
        · split at hop
          · simp only [List.mem_singleton] at hop
            subst hop
            exact ⟨"road_name", by simp, rfl⟩
          · cases hop

/-- A text, unless it is empty. -/
def textMember (s : Str) : Option J := if s = [] then none else some (.str s)

/-- The place of a message. If its location is in the table: the coordinates are those of the points from the
location on; with two or more points, the names of the first and of the last one, if both have a name; the
number and the name of the road of the first point, or else the road name of the point itself, if it is on a
road at all. Otherwise nothing. -/
def ShowsPlace (db : LocationDatabase) (ltn : Nat) (location : Option Word) (extent : Int) (j : J) : Prop :=
  (∀ lcd p, location = some lcd → db.ltn.toNat = ltn → ltn ≠ 0 → db.points lcd = some p →
    ∃ points last, j.at? ["tmc", "message", "coordinates"] =
        some (.arr (points.map fun q => .obj [("lat", .float q.lat), ("lon", .float q.lon)])) ∧
      points.head? = some p ∧ points.getLast? = some last ∧ points.length ≤ extent.natAbs + 1 ∧
      Linked db (decide (0 ≤ extent)) lcd points ∧
      (points.length = extent.natAbs + 1 ∨
        db.points (afterLast (decide (0 ≤ extent)) lcd points) = none) ∧
      j.at? ["tmc", "message", "span_from"] =
        (if 2 ≤ points.length ∧ last.name1 ≠ [] then textMember p.name1 else none) ∧
      j.at? ["tmc", "message", "span_to"] =
        (if 2 ≤ points.length ∧ p.name1 ≠ [] then textMember last.name1 else none) ∧
      j.at? ["tmc", "message", "road_number"] = (db.roads p.roaLcd).bind (fun r => textMember r.roadNumber) ∧
      j.at? ["tmc", "message", "road_name"] =
        (db.roads p.roaLcd).bind (fun r => (textMember r.name).or (textMember p.roadName))) ∧
  ((db.ltn.toNat ≠ ltn ∨ ltn = 0 ∨ ∀ lcd ∈ location, db.points lcd = none) →
    ∀ k ∈ placeMembers, j.at? ["tmc", "message", k] = none)

/-- The members of a message, and members added to it. -/
theorem at_message {hd : List JOp} {j : J} {members more : List (String × J)}
    (hb : J.build (hd ++ .set ["tmc", "message"] (.obj members) ::
      more.map fun m => .set ["tmc", "message", m.1] m.2) .null = some j)
    (hn : (more.map Prod.fst).Nodup) (k : String) :
    j.at? ["tmc", "message", k] = (more.lookup k).or (members.lookup k) := by
  have hdiv : ∀ m : String × J, m.1 ≠ k → (JOp.set ["tmc", "message", m.1] m.2).Away ["tmc", "message", k] := by
    intro m hm
    unfold JOp.Away
    simp [diverge, JOp.path, Ne.symm hm]
  by_cases hk : k ∈ more.map Prod.fst
  · obtain ⟨m, hm, rfl⟩ := List.mem_map.mp hk
    obtain ⟨a, b, rfl⟩ := List.append_of_mem hm
    rw [List.map_append, List.map_cons, List.nodup_append] at hn
    obtain ⟨-, hn, hab⟩ := hn
    have ha : ∀ m' ∈ a, m'.1 ≠ m.1 := fun m' hm' => hab _ (List.mem_map_of_mem hm') _ (by simp)
    have hb' : ∀ m' ∈ b, m'.1 ≠ m.1 := by
      intro m' hm' he
      exact (List.nodup_cons.mp hn).1 (he ▸ List.mem_map_of_mem hm')
    have hl : (a ++ m :: b).lookup m.1 = some m.2 := by
      rw [List.lookup_append, List.lookup_eq_none_iff.mpr (by
        intro p hp
        simpa using Ne.symm (ha p hp))]
      obtain ⟨k, v⟩ := m
      simp
    rw [hl, Option.some_or]
    refine at_build_set _ _ (hd ++ .set ["tmc", "message"] (.obj members) ::
      a.map fun m => .set ["tmc", "message", m.1] m.2) (b.map fun m => .set ["tmc", "message", m.1] m.2) .null j ?_ ?_
    · intro op hop
      obtain ⟨m', hm', rfl⟩ := List.mem_map.mp hop
      exact hdiv m' (hb' m' hm')
    · rw [List.append_assoc, List.cons_append]
      rwa [List.map_append, List.map_cons] at hb
  · have hl : more.lookup k = none := List.lookup_eq_none_iff.mpr (by
      intro p hp
      have : p.1 ≠ k := fun he => hk (he ▸ List.mem_map_of_mem hp)
      simpa using Ne.symm this)
    rw [hl, Option.none_or]
    rw [← List.singleton_append, ← List.append_assoc, build_append, Option.bind_eq_some_iff] at hb
    obtain ⟨j1, h1, h2⟩ := hb
    rw [at_build_other _ _ j1 j ?_ h2]
    · have h3 := at_build_set ["tmc", "message"] (.obj members) hd [] .null j1 (by simp) h1
      have h4 : j1.at? ["tmc", "message", k] = (j1.at? ["tmc", "message"]).bind fun i => i.get? k := by
        simp only [J.at?]
        cases j1.get? "tmc" with
        | none => rfl
        | some i =>
          simp only [Option.bind_some]
          cases i.get? "message" with
          | none => rfl
          | some i => simp
      rw [h4, h3]
      rfl
    · intro op hop
      obtain ⟨m', hm', rfl⟩ := List.mem_map.mp hop
      exact hdiv m' (fun he => hk (he ▸ List.mem_map_of_mem hm'))

/-- What is added to a message at a known place. -/
def placeList (db : LocationDatabase) (p last : Point) (points : List Point) : List (String × J) :=
  [("coordinates", J.arr (points.map fun q => .obj [("lat", .float q.lat), ("lon", .float q.lon)]))] ++
  (if 2 ≤ points.length ∧ p.name1 ≠ [] ∧ last.name1 ≠ [] then
    [("span_from", .str p.name1), ("span_to", .str last.name1)] else []) ++
  (((db.roads p.roaLcd).bind (fun r => textMember r.roadNumber)).map fun v => ("road_number", v)).toList ++
  (((db.roads p.roaLcd).bind (fun r => (textMember r.name).or (textMember p.roadName))).map
    fun v => ("road_name", v)).toList

theorem decodeLocation_known (db : LocationDatabase) (ltn : Nat) (lcd : Word) (extent : Int) (p : Point)
    (hltn : db.ltn.toNat = ltn) (h0 : ltn ≠ 0) (hp : db.points lcd = some p) :
    ∃ last, (walkPoints db (decide (extent ≥ 0)) (extent.natAbs + 1) lcd).getLast? = some last ∧
      (walkPoints db (decide (extent ≥ 0)) (extent.natAbs + 1) lcd).head? = some p ∧
      decodeLocation db ltn (some lcd) extent =
        (placeList db p last (walkPoints db (decide (extent ≥ 0)) (extent.natAbs + 1) lcd)).map fun m =>
          .set ["tmc", "message", m.1] m.2 := by
  have hcond : ¬ (db.ltn.toNat ≠ ltn ∨ db.ltn = 0) := by
    rintro (h | h)
    · exact h hltn
    · apply h0
      rw [← hltn, h]
      rfl
  obtain ⟨rest, hw⟩ : ∃ rest, walkPoints db (decide (extent ≥ 0)) (extent.natAbs + 1) lcd = p :: rest := by
    unfold walkPoints
    rw [hp]
    exact ⟨_, rfl⟩
  unfold decodeLocation
  rw [if_neg hcond]
  simp only [hp]
  rw [hw]
  obtain ⟨last, hlast⟩ : ∃ last, (p :: rest).getLast? = some last := ⟨_, List.getLast?_eq_some_getLast (by simp)⟩
  refine ⟨last, hlast, rfl, ?_⟩
  rw [hlast]
  unfold placeList
  simp only [List.head?_cons, List.map_append, List.map_cons, List.map_nil, List.append_assoc]
  congr 1
  have e1 : ∀ s : Str, (0 < s.length) = (s ≠ []) := fun s => propext List.length_pos_iff
  congr 1
  · simp only [gt_iff_lt, e1]
    simp only [show ∀ n : Nat, (2 ≤ n) = (1 < n) from fun _ => rfl]
    by_cases hc : 1 < (p :: rest).length ∧ p.name1 ≠ [] ∧ last.name1 ≠ []
    · rw [if_pos hc, if_pos hc]; rfl
    · rw [if_neg hc, if_neg hc]; rfl
  · cases db.roads p.roaLcd with
    | none => rfl
    | some r =>
      simp only [gt_iff_lt, e1, Option.bind_some]
      unfold textMember
      by_cases c1 : r.roadNumber = [] <;> by_cases c2 : r.name = [] <;> by_cases c3 : p.roadName = [] <;>
        simp [c1, c2, c3]

/-- The members of a printed message. -/
theorem message_members {hd : List JOp} {j : J} {members : List (String × J)} {db : LocationDatabase} {ltn : Nat}
    {location : Option Word} {extent : Int}
    (hb : J.build (hd ++ .set ["tmc", "message"] (.obj members) :: decodeLocation db ltn location extent) .null =
      some j) (hm : ∀ k ∈ placeMembers, members.lookup k = none) :
    (∀ k, k ∉ placeMembers → j.at? ["tmc", "message", k] = members.lookup k) ∧
    ShowsPlace db ltn location extent j := by
  by_cases hu : db.ltn.toNat ≠ ltn ∨ ltn = 0 ∨ ∀ lcd ∈ location, db.points lcd = none
  · rw [C54_unknown db ltn location extent hu] at hb
    have hat := fun k => at_message (more := []) hb (by simp) k
    refine ⟨fun k _ => hat k, ?_, fun _ k hk => (hat k).trans (hm k hk)⟩
    intro lcd p hl h1 h2 h3
    exfalso
    rcases hu with hu | hu | hu
    · exact hu h1
    · exact h2 hu
    · rw [hu lcd (by rw [hl]; rfl)] at h3
      cases h3
  · have hu' : db.ltn.toNat = ltn ∧ ltn ≠ 0 ∧ ∃ lcd p, location = some lcd ∧ db.points lcd = some p := by
      simp only [not_or, not_forall, Classical.not_not] at hu
      obtain ⟨h1, h2, lcd, h3, h4⟩ := hu
      obtain ⟨p, hp⟩ := Option.ne_none_iff_exists'.mp h4
      exact ⟨h1, h2, lcd, p, h3, hp⟩
    obtain ⟨h1, h2, lcd, p, rfl, hp⟩ := hu'
    obtain ⟨last, w1, w2, w3⟩ := decodeLocation_known db ltn lcd extent p h1 h2 hp
    have hw := walkPoints_spec db (decide (extent ≥ 0)) (extent.natAbs + 1) lcd
    rw [w3] at hb
    generalize walkPoints db (decide (extent ≥ 0)) (extent.natAbs + 1) lcd = points at *
    have hkeys : (placeList db p last points).map Prod.fst =
        ["coordinates"] ++ (if 2 ≤ points.length ∧ p.name1 ≠ [] ∧ last.name1 ≠ [] then ["span_from", "span_to"] else []) ++
        (((db.roads p.roaLcd).bind (fun r => textMember r.roadNumber)).map fun _ => "road_number").toList ++
        (((db.roads p.roaLcd).bind (fun r => (textMember r.name).or (textMember p.roadName))).map
          fun _ => "road_name").toList := by
      unfold placeList
      simp only [List.map_append, List.map_cons, List.map_nil]
      congr 1
      · congr 1
        · congr 1
          split <;> rfl
        · cases (db.roads p.roaLcd).bind (fun r => textMember r.roadNumber) <;> rfl
      · cases (db.roads p.roaLcd).bind (fun r => (textMember r.name).or (textMember p.roadName)) <;> rfl
    have hnodup : ((placeList db p last points).map Prod.fst).Nodup := by
      rw [hkeys]
      split <;> cases (db.roads p.roaLcd).bind (fun r => textMember r.roadNumber) <;>
        cases (db.roads p.roaLcd).bind (fun r => (textMember r.name).or (textMember p.roadName)) <;> simp
    have hat := at_message hb hnodup
    refine ⟨?_, ?_, fun h => absurd h hu⟩
    · intro k hk
      rw [hat k, List.lookup_eq_none_iff.mpr, Option.none_or]
      intro q hq
      have : q.1 ∈ placeMembers := by
        have := List.mem_map_of_mem (f := Prod.fst) hq
        rw [hkeys] at this
        revert this
        unfold placeMembers
        split <;> cases (db.roads p.roaLcd).bind (fun r => textMember r.roadNumber) <;>
          cases (db.roads p.roaLcd).bind (fun r => (textMember r.name).or (textMember p.roadName)) <;> simp <;> tauto
      have : q.1 ≠ k := fun he => hk (he ▸ this)
      simpa using Ne.symm this
    · intro lcd' p' hl _ _ hp'
      cases hl
      rw [hp] at hp'
      cases hp'
      have hlk : ∀ k ∈ placeMembers, j.at? ["tmc", "message", k] = (placeList db p last points).lookup k := by
        intro k hk
        rw [hat k, hm k hk, Option.or_none]
      have hopt : ∀ (k k' : String) (o : Option J),
          ((o.map fun v => (k', v)).toList).lookup k = if k = k' then o else none := by
        intro k k' o
        cases o <;> by_cases h : k = k' <;> simp [h]
      have hspan : ∀ k, ((if 2 ≤ points.length ∧ p.name1 ≠ [] ∧ last.name1 ≠ [] then
          [("span_from", J.str p.name1), ("span_to", .str last.name1)] else []) : List (String × J)).lookup k =
          if 2 ≤ points.length ∧ p.name1 ≠ [] ∧ last.name1 ≠ [] then
            [("span_from", J.str p.name1), ("span_to", .str last.name1)].lookup k else none := by
        intro k
        split <;> rfl
      refine ⟨points, last, ?_, w2, w1, hw.1, hw.2.1, hw.2.2, ?_, ?_, ?_, ?_⟩
      all_goals
        rw [hlk _ (by decide)]
        unfold placeList
        simp only [List.lookup_append, hopt, hspan, List.lookup_cons, List.lookup_nil]
      · simp
      · unfold textMember
        by_cases c1 : 2 ≤ points.length <;> by_cases c2 : p.name1 = [] <;> by_cases c3 : last.name1 = [] <;>
          simp [c1, c2, c3]
      · unfold textMember
        by_cases c1 : 2 ≤ points.length <;> by_cases c2 : p.name1 = [] <;> by_cases c3 : last.name1 = [] <;>
          simp [c1, c2, c3]
      · simp
      · simp

theorem message_place {env : TmcEnv} {y z : Word} {enc : Bool} {location : Option Word} {fields : List (Nat × Nat)}
    {members : List (String × J)} (h : ShowsMessage env y z enc location fields members) :
    ∀ k ∈ placeMembers, members.lookup k = none := by
  intro k hk
  refine h.others k ?_
  unfold placeMembers at hk
  simp only [List.mem_cons, List.not_mem_nil, or_false] at hk
  rcases hk with rfl | rfl | rfl | rfl | rfl <;> decide

section printed

variable {env : Env} (hk : env.tmc.KeysOk) {o : Options} {w : Nat} {p : Word} {gs : List Group}
  {st : Station} {ls : List (Option Line)}
  (h : Station.receive env (Station.withPI o w p) gs = some (st, ls)) {g : Group} {st' : Station} {j : J}
  (hu : st.updateAndPrint env g = some (st', some (.json j)))

include hk h hu in
/-- **C75**, messages of one group. From the first system information of variant 0 on and, if the service is
encrypted, with a known encryption identifier: every member of the message has the value that the event list
and the bits of the group give (`ShowsMessage`, C65); the location is in the clear or decrypted with the key of
the latest identifier; the coordinates are those of the points from the location on (C54), in the location
table announced last. For whatever groups the station sent before. -/
theorem C75_single_message (u : UserGroup) (ht : tmcPart (decodedGroups gs ls) g = [.user u])
    (l : List TmcGroup) (hl : l = history tmcPart (decodedGroups gs ls)) (hlist : listening l = true)
    (hx : u.x.toNat / 8 % 4 = 1) :
    ∃ members, ShowsMessage env.tmc u.y u.z (encrypted l) (sentLocation env.tmc.serviceKey l u.z) [] members ∧
      (∀ k, k ∉ placeMembers → j.at? ["tmc", "message", k] = members.lookup k) ∧
      ShowsPlace (env.tmc.locations (locationTable l)) (locationTable l) (sentLocation env.tmc.serviceKey l u.z)
        (if u.y.toNat / 2 ^ 14 % 2 = 1 then -(extentOf u.y [] : Int) else extentOf u.y []) j := by
  obtain ⟨hd, out, hr, hb, ha, kn⟩ := tmc_ops hk h hu _ ht
  rw [← hl] at kn
  have hr : st.tmc.receiveUserGroup env.tmc u.x u.y u.z = some (st'.tmc, out) := hr
  obtain ⟨members, c1, c2⟩ :=
    C65_single_message env.tmc hk st.tmc u.x u.y u.z ((known_listening kn).mpr hlist) hx
  rw [hr] at c1
  have hout := congrArg Prod.snd (Option.some.inj c1)
  dsimp only at hout
  rw [known_location kn, kn.encrypted] at c2
  rw [known_location kn, kn.ltn] at hout
  rw [hout] at hb
  exact ⟨members, c2, message_members hb (message_place c2)⟩

include hk h hu in
/-- **C75**, messages of several groups (partial: as in C51, for messages of 3 and 4 groups only fields in
the first 28 bits). Among whatever other groups of the station, the TMC groups are: any (`l`), then the groups of a
message, whose continuity index is not that of the part before. The last one prints the message as in C65. -/
theorem C75_message_groups_partial (l : List TmcGroup) (hlist : listening l = true) (n : Nat) (h1 : 1 ≤ n)
    (h4 : n ≤ 4) (fields : List (Nat × Nat)) (hf : Fits (readCapacity n) fields) (x y z : Word)
    (hx : 1 ≤ x.toNat % 32 ∧ x.toNat % 32 ≤ 7) (hy : 2 ^ 15 ≤ y.toNat)
    (hi : (heardIndices l).getLast? ≠ some (x.toNat % 8)) (init : List UserGroup) (last : UserGroup)
    (he : ({ x := x, y := y, z := z } : UserGroup) :: subsequentUserGroups x n fields = init ++ [last])
    (hist : history tmcPart (decodedGroups gs ls) = l ++ init.map .user)
    (ht : tmcPart (decodedGroups gs ls) g = [.user last]) :
    ∃ members, ShowsMessage env.tmc y z (encrypted l) (sentLocation env.tmc.serviceKey l z) fields members ∧
      (∀ k, k ∉ placeMembers → j.at? ["tmc", "message", k] = members.lookup k) ∧
      ShowsPlace (env.tmc.locations (locationTable l)) (locationTable l) (sentLocation env.tmc.serviceKey l z)
        (if y.toNat / 2 ^ 14 % 2 = 1 then -(extentOf y fields : Int) else extentOf y fields) j := by
  obtain ⟨hd, out, hr, hb, ha, -⟩ := tmc_ops hk h hu _ ht
  have hr : st.tmc.receiveUserGroup env.tmc last.x last.y last.z = some (st'.tmc, out) := hr
  have hrun := C75_service env hk o w p gs st ls h
  rw [hist, tmcRun_append, Option.bind_eq_some_iff] at hrun
  obtain ⟨s, hs, hrun⟩ := hrun
  rw [run_users] at hrun
  have kn := knownAfter _ _ _ hs
  have hidx : x.toNat % 8 ≠ s.message.continuityIndex := by
    rcases message_index _ _ _ hs with h0 | h0
    · rw [h0]; omega
    · intro hx
      rw [h0, hx] at hi
      exact hi rfl
  obtain ⟨members, c1, c2⟩ := last_group env.tmc hk s ((known_listening kn).mpr hlist) n h1 h4 fields hf x y z hx
    hy hidx init last he st.tmc hrun
  rw [hr] at c1
  have hout := Option.some.inj c1
  dsimp only at hout
  rw [known_location kn, kn.encrypted] at c2
  rw [known_location kn, kn.ltn] at hout
  rw [hout] at hb
  exact ⟨members, c2, message_members hb (message_place c2)⟩

end printed

/-! ### Examples -/

/-- Announcement of TMC in groups of type 8A, with system information. -/
def demoTmc (w : Word) : Broadcast := { number := 3, low := 16, block3 := w, block4 := 0xCD46 }

/-- A user group. -/
def demoUser (u : UserGroup) : Broadcast := { number := 8, low := u.x.toNat, block3 := u.y, block4 := u.z }

/-- Location table 9, on alternative frequencies, national and urban. -/
def demoTable : Group := demoHeard (demoTmc (tableWord 9 true false 5))

example : tmcPart [] demoTable = [.system (tableWord 9 true false 5)] := by decide +kernel

example : demoMember [] demoTable ["tmc", "system_info", "is_encrypted"] = some (ascii "false") ∧
    demoMember [] demoTable ["tmc", "system_info", "location_table"] = some (ascii "9") ∧
    demoMember [] demoTable ["tmc", "system_info", "is_on_alt_freqs"] = some (ascii "true") ∧
    demoMember [] demoTable ["tmc", "system_info", "scope"] = some (ascii "2") := by decide +kernel

/-- Service 27, 5 groups between two groups of a message, country code 7; extended country code E2. -/
example : demoMember [demoTable] (demoHeard (demoTmc (serviceWord 1 27 0 7))) ["tmc", "system_info", "gap"] =
      some (ascii "5") ∧
    demoMember [demoTable, demoHeard (demoTmc (serviceWord 1 27 0 7))] (demoHeard (demoTmc (countryWord 0xE2)))
      ["tmc", "system_info", "country"] = some (ascii "tn") := by decide +kernel

/-- An encrypted service: service 5, encryption 3, location table 17. -/
example : demoMember [demoHeard (demoTmc (tableWord 0 false false 0))] (demoHeard (demoUser (adminGroup 0 5 3 17 0)))
      ["tmc", "system_info", "location_table"] = some (ascii "17") ∧
    demoMember [] (demoHeard (demoUser (adminGroup 0 5 3 17 0))) ["tmc"] = none ∧
    tmcPart [demoTable] (demoHeard (demoUser (adminGroup 0 5 3 17 0))) = [.user (adminGroup 0 5 3 17 0)] := by
  decide +kernel

/-- A message of one group: event 108 at location 4660. -/
def demoSingle : UserGroup := ⟨0x000A, 0x086C, 0x1234⟩

example : tmcPart [demoTable] (demoHeard (demoUser demoSingle)) = [.user demoSingle] ∧
    listening (history tmcPart [demoTable]) = true ∧ demoSingle.x.toNat / 8 % 4 = 1 ∧
    demoMember [demoTable, demoGroup 0x6204 0x0408 0xE0CD 0x2020] (demoHeard (demoUser demoSingle))
      ["tmc", "message", "location"] = some (ascii "4660") := by decide +kernel

/-- A message of two groups with a speed limit (label 3), 60 km/h, with another group in between. -/
def demoParts : List UserGroup := ⟨0x0003, 0x8867, 0x1234⟩ :: subsequentUserGroups 0x0003 1 [(3, 12)]

example : Fits (readCapacity 1) [(3, 12)] ∧ demoParts = demoParts.dropLast ++ [demoParts.getLastD ⟨0, 0, 0⟩] ∧
    (heardIndices [.system (tableWord 9 true false 5)]).getLast? ≠ some 3 ∧
    history tmcPart [demoTable, demoHeard (demoUser ⟨0x0003, 0x8867, 0x1234⟩), demoGroup 0x6204 0x0408 0xE0CD 0x2020] =
      [.system (tableWord 9 true false 5)] ++ demoParts.dropLast.map .user ∧
    tmcPart [demoTable] (demoHeard (demoUser (demoParts.getLastD ⟨0, 0, 0⟩))) =
      [.user (demoParts.getLastD ⟨0, 0, 0⟩)] := by
  refine ⟨⟨by simp [ValidField, labelSize], by decide, .inr (by decide)⟩, by decide +kernel, by decide +kernel, by decide +kernel, by decide +kernel⟩

example : demoMember [demoTable, demoHeard (demoUser ⟨0x0003, 0x8867, 0x1234⟩), demoGroup 0x6204 0x0408 0xE0CD 0x2020]
    (demoHeard (demoUser (demoParts.getLastD ⟨0, 0, 0⟩))) ["tmc", "message", "speed_limit"] =
      some (ascii "60 km/h") := by decide +kernel

end Redsea
