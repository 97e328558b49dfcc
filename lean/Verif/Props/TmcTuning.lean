import Verif.Props.TmcStation

/-
C76: the tuning information of the Traffic Message Channel.
-/

namespace Redsea

open _root_.Redsea.Spec

theorem tuning_x (variant : Nat) (hv : variant < 16) (y z : Word) :
    (tuningGroup variant y z).x.toNat = 16 + variant := by
  unfold tuningGroup
  dsimp only
  rw [BitVec.toNat_ofNat]
  omega

theorem tuning_path (env : TmcEnv) (s : TMCService) (hs : s.isInitialized = true) (variant : Nat)
    (hv : variant < 16) (y z : Word) :
    s.receiveUserGroup env (tuningGroup variant y z).x y z =
      s.tuningInformation env (tuningGroup variant y z).x y z := by
  have hx := tuning_x variant hv y z
  generalize (tuningGroup variant y z).x = x at hx
  unfold TMCService.receiveUserGroup
  rw [hs, low5, getBool_eq_div, hx, if_neg (by decide), if_neg (by omega),
    show ((16 + variant) / 2 ^ 4 % 2 == 1) = true from beq_iff_eq.mpr (by omega), if_pos rfl]

/-- `printMessage` only writes below "message". -/
theorem printMessage_away {env : TmcEnv} {s : TMCService} {m : Message} {out : List JOp}
    (h : s.printMessage env m = some out) : ∀ op ∈ out, op.Away ["tmc", "service_provider"] := by
  rw [printMessage_bind] at h
  obtain ⟨m', -, h⟩ := Option.bind_eq_some_iff.mp h
  split at h
  · cases h; simp
  · cases h
    intro op hop
    rcases List.mem_cons.mp hop with rfl | hop
    · rfl
    · obtain ⟨k, -, hp⟩ := decodeLocation_paths _ _ _ _ op hop
      unfold JOp.Away
      rw [hp]
      rfl

theorem all_mem {p : List String} {l : List JOp} (h : (l.all fun op => diverge p op.path) = true) :
    ∀ op ∈ l, op.Away p := List.all_eq_true.mp h

/-- Only tuning information of variants 4 and 5 prints the provider. -/
theorem system_provider {s s' : TMCService} {w : Word} {out : List JOp}
    (h : s.receiveSystemGroup w = some (s', out)) : ∀ op ∈ out, op.Away ["tmc", "service_provider"] := by
  unfold TMCService.receiveSystemGroup at h
  dsimp only at h
  split at h
  · cases h
    refine all_mem ?_
    rw [List.all_append, List.all_append, List.all_append, List.all_map]
    refine Bool.and_eq_true_iff.mpr ⟨?_, List.all_eq_true.mpr fun _ _ => rfl⟩
    split <;> rfl
  · obtain ⟨_, -, h⟩ := Option.bind_eq_some_iff.mp h
    cases h
    refine all_mem ?_
    split <;> rfl
  · split at h
    · split at h
      · obtain ⟨_, -, h⟩ := Option.bind_eq_some_iff.mp h
        cases h
        exact all_mem rfl
      · cases h
        exact all_mem rfl
    · cases h
      exact all_mem rfl
  · cases h
    exact all_mem rfl

theorem user_provider {env : TmcEnv} {s s' : TMCService} {u : UserGroup} {out : List JOp}
    (h : s.receiveUserGroup env u.x u.y u.z = some (s', out)) (hp : providerOps (.user u) = []) :
    ∀ op ∈ out, op.Away ["tmc", "service_provider"] := by
  unfold TMCService.receiveUserGroup at h
  dsimp only at h
  split at h
  · cases h; exact all_mem rfl
  split at h
  · cases h; exact all_mem rfl
  split at h
  · rename_i ht
    rw [getBool_eq_div] at ht
    have ht : u.x.toNat / 2 ^ 4 % 2 = 1 := by simpa using ht
    unfold TMCService.tuningInformation at h
    dsimp only at h
    rw [low4] at h
    split at h
    · obtain ⟨_, -, h⟩ := Option.bind_eq_some_iff.mp h
      obtain ⟨_, -, h⟩ := Option.bind_eq_some_iff.mp h
      obtain ⟨_, -, h⟩ := Option.bind_eq_some_iff.mp h
      cases h
      refine all_mem ?_
      rw [List.all_append, List.all_map]
      exact Bool.and_eq_true_iff.mpr ⟨rfl, List.all_eq_true.mpr fun _ _ => rfl⟩
    · split at h <;> (cases h; exact all_mem rfl)
    · cases h
      refine all_mem ?_
      rw [List.all_append, List.all_map]
      exact Bool.and_eq_true_iff.mpr ⟨rfl, List.all_eq_true.mpr fun _ _ => rfl⟩
    · split at h
      · rename_i hv
        exfalso
        unfold providerOps at hp
        dsimp only at hp
        rcases hv with hv | hv
        · rw [if_pos (by omega)] at hp
          cases hp
        · rw [if_neg (by omega), if_pos (by omega)] at hp
          cases hp
      · cases h
        exact all_mem rfl
  split at h
  · cases h; exact all_mem rfl
  split at h
  · obtain ⟨_, ho, h⟩ := Option.bind_eq_some_iff.mp h
    cases h
    exact printMessage_away ho
  generalize (if getBits 3 u.x 0 ≠ s.message.continuityIndex then Message.new s.isEncrypted
    else s.message) = m at h
  split at h
  · obtain ⟨_, ho, h⟩ := Option.bind_eq_some_iff.mp h
    cases h
    exact printMessage_away ho
  · cases h; exact all_mem rfl

section printed

variable {env : Env} (hk : env.tmc.KeysOk) {o : Options} {w : Nat} {p : Word} {gs : List Group}
  {st : Station} {ls : List (Option Line)}
  (h : Station.receive env (Station.withPI o w p) gs = some (st, ls)) {g : Group} {st' : Station} {j : J}
  (hu : st.updateAndPrint env g = some (st', some (.json j)))

/-! ### Name of the service provider -/

include hk h hu in
/-- The member "service_provider". -/
theorem provider_member (t : TmcGroup) (ht : tmcPart (decodedGroups gs ls) g = [t])
    (l : List TmcGroup) (hl : l = history tmcPart (decodedGroups gs ls)) :
    j.at? ["tmc", "service_provider"] =
      if providerOps t ≠ [] ∧ l.any TmcGroup.isVariant0 = true ∧
          ((RDSString.new 8).ops env.tmc.ucs2 (providerText (l ++ [t]))).isComplete = true then
        some (.str ((RDSString.new 8).ops env.tmc.ucs2 (providerText (l ++ [t]))).lastCompleteString)
      else none := by
  obtain ⟨hd, out, hr, hb, ha, kn⟩ := tmc_ops hk h hu _ ht
  rw [← hl] at kn
  by_cases hp : providerOps t = []
  · rw [if_neg (fun hx => hx.1 hp)]
    refine tmc_none hb ha (List.all_eq_true.mpr ?_)
    cases t with
    | system x => exact system_provider hr
    | user u => exact user_provider hr hp
  cases t with
  | system x => exact absurd rfl hp
  | user u =>
    have hr : st.tmc.receiveUserGroup env.tmc u.x u.y u.z = some (st'.tmc, out) := hr
    have kn' := knownStep kn (show st.tmc.receive env.tmc (.user u) = some (st'.tmc, out) from hr)
    rw [← kn'.ps]
    by_cases hi : l.any TmcGroup.isVariant0 = true
    · have hx : u.x.toNat % 32 = 20 ∨ u.x.toNat % 32 = 21 := by
        unfold providerOps at hp
        dsimp only at hp
        by_cases h1 : u.x.toNat % 32 = 20
        · exact .inl h1
        · rw [if_neg h1] at hp
          by_cases h2 : u.x.toNat % 32 = 21
          · exact .inr h2
          · rw [if_neg h2] at hp
            exact absurd rfl hp
      unfold TMCService.receiveUserGroup at hr
      rw [kn.initialized, hi, low5, if_neg (by decide), if_neg (by omega), getBool_eq_div,
        show (u.x.toNat / 2 ^ 4 % 2 == 1) = true from beq_iff_eq.mpr (by omega), if_pos rfl] at hr
      have hv : getBits 4 u.x 0 = 4 ∨ getBits 4 u.x 0 = 5 := by
        rw [low4]
        omega
      unfold TMCService.tuningInformation at hr
      have hr' : ∃ ps, some ({ st.tmc with ps := ps },
          if ps.isComplete then [JOp.set ["tmc", "service_provider"] (.str ps.lastCompleteString)] else []) =
          some (st'.tmc, out) := by
        rcases hv with hv | hv
        · rw [hv] at hr
          exact ⟨_, hr⟩
        · rw [hv] at hr
          exact ⟨_, hr⟩
      obtain ⟨ps, hr'⟩ := hr'
      have h1 : { st.tmc with ps := ps } = st'.tmc := congrArg Prod.fst (Option.some.inj hr')
      have h2 := congrArg Prod.snd (Option.some.inj hr')
      dsimp only at h2
      rw [← h1]
      dsimp only
      by_cases hc : ps.isComplete = true
      · rw [if_pos ⟨hp, hi, hc⟩]
        rw [if_pos hc] at h2
        exact tmc_set hb [] [] h2.symm rfl
      · rw [if_neg (fun hx => hc hx.2.2)]
        rw [if_neg hc] at h2
        exact tmc_none hb ha (by rw [← h2]; rfl)
    · rw [if_neg (fun hx => hi hx.2.1)]
      unfold TMCService.receiveUserGroup at hr
      rw [kn.initialized, Bool.eq_false_iff.mpr hi, if_pos (by decide)] at hr
      have hout : [] = out := congrArg Prod.snd (Option.some.inj hr)
      exact tmc_none hb ha (by rw [← hout]; rfl)

include hk h hu in
/-- **C76**, the name of the service provider. If a name is printed, each of its characters was sent as
the latest one for its position, in tuning information of variant 4 or 5 of the service. -/
theorem C76_provider (t : TmcGroup) (ht : tmcPart (decodedGroups gs ls) g = [t])
    (l : List TmcGroup) (hl : l = history tmcPart (decodedGroups gs ls)) (v : J)
    (hj : j.at? ["tmc", "service_provider"] = some v) :
    ∃ bs, WholeText 8 bs ∧ (∀ i b, bs[i]? = some b → LatestByte (providerText (l ++ [t])) i b) ∧
      v = .str (rdsText (bs.map display)) := by
  rw [provider_member hk h hu t ht l hl] at hj
  split at hj
  · rename_i hc
    obtain ⟨bs, h1, h2, -, h3⟩ := C24_complete_text_latest_bytes env.tmc.ucs2 8 (by decide) .basic
      (providerText (l ++ [t])) hc.2.2
    refine ⟨bs, h1, h2, ?_⟩
    rw [← Option.some.inj hj]
    exact congrArg J.str (Option.some.inj h3).symm
  · cases hj

include hk h hu in
/-- **C76**, the name of the service provider is printed with its last group. -/
theorem C76_provider_complete (t : TmcGroup) (ht : tmcPart (decodedGroups gs ls) g = [t])
    (l : List TmcGroup) (hl : l = history tmcPart (decodedGroups gs ls))
    (hs : l.any TmcGroup.isVariant0 = true) (hg : providerOps t ≠ []) (earlier : List TextOp) (bs : List Byte)
    (hw : WholeText 8 bs) (later : List (Nat × Byte)) (hlater : ∀ x ∈ later, bs.length ≤ x.1)
    (he : providerText (l ++ [t]) = earlier ++ (inOrder 0 bs ++ later.map fun x => .recv x.1 x.2)) :
    j.at? ["tmc", "service_provider"] = some (.str (rdsText (bs.map display))) := by
  rw [provider_member hk h hu t ht l hl, he, RDSString.ops_append]
  have inv : TextInv env.tmc.ucs2 8 .basic earlier ((RDSString.new 8).ops env.tmc.ucs2 earlier) :=
    textInv env.tmc.ucs2 8 (by decide) .basic earlier
  obtain ⟨h1, -, h3⟩ := C25_characters_after_the_end env.tmc.ucs2 ((RDSString.new 8).ops env.tmc.ucs2 earlier) bs
    (by rw [inv.len]; exact hw) (rdsText (bs.map display)) (by rw [inv.enc]; rfl) later hlater
  rw [if_pos ⟨hg, hs, h1⟩, h3]

/-! ### Other networks -/

include hk h hu in
theorem tuning_ops (variant : Nat) (hv : variant < 16) (y z : Word)
    (ht : tmcPart (decodedGroups gs ls) g = [.user (tuningGroup variant y z)])
    (hs : (history tmcPart (decodedGroups gs ls)).any TmcGroup.isVariant0 = true) :
    ∃ hd out x, getBits 4 x 0 = variant ∧
      st.tmc.tuningInformation env.tmc x y z = some (st'.tmc, out) ∧
      J.build (hd ++ out) .null = some j ∧ (∀ op ∈ hd, op.Away ["tmc"]) := by
  obtain ⟨hd, out, hr, hb, ha, kn⟩ := tmc_ops hk h hu _ ht
  have hr : st.tmc.receiveUserGroup env.tmc (tuningGroup variant y z).x y z = some (st'.tmc, out) := hr
  rw [tuning_path _ _ (by rw [kn.initialized, hs]) variant hv] at hr
  refine ⟨hd, out, _, ?_, hr, hb, ha⟩
  rw [low4, tuning_x variant hv]
  omega

include hk h hu in
/-- **C76**, tuning information of variant 6: PI code of another network. -/
theorem C76_network (y pi : Word) (ht : tmcPart (decodedGroups gs ls) g = [.user (tuningGroup 6 y pi)])
    (hs : (history tmcPart (decodedGroups gs ls)).any TmcGroup.isVariant0 = true) :
    j.at? ["tmc", "other_network", "pi"] = some (.str (piText pi)) := by
  obtain ⟨hd, out, x, hx, hr, hb, ha⟩ := tuning_ops hk h hu 6 (by decide) y pi ht hs
  unfold TMCService.tuningInformation at hr
  rw [hx] at hr
  dsimp only at hr
  obtain ⟨_, -, hr⟩ := Option.bind_eq_some_iff.mp hr
  obtain ⟨_, -, hr⟩ := Option.bind_eq_some_iff.mp hr
  obtain ⟨raw, -, hr⟩ := Option.bind_eq_some_iff.mp hr
  have hout := (congrArg Prod.snd (Option.some.inj hr)).symm
  dsimp only at hout
  rw [prefixedHex4_eq] at hout
  refine tmc_set hb [] _ hout ?_
  refine Eq.trans List.all_map ?_
  exact List.all_eq_true.mpr fun _ _ => rfl

include hk h hu in
theorem frequency_ops (y pi : Word) (ht : tmcPart (decodedGroups gs ls) g = [.user (tuningGroup 6 y pi)])
    (hs : (history tmcPart (decodedGroups gs ls)).any TmcGroup.isVariant0 = true)
    (fs : List Int)
    (hf : ((({} : AltFreqList).insert (hiByte y).toNat).bind fun l => (l.insert (loByte y).toNat).bind
      AltFreqList.getRawList) = some fs) :
    j.at? ["tmc", "other_network", "frequencies_khz"] = if fs = [] then none else some (.arr (fs.map .int)) := by
  obtain ⟨hd, out, x, hx, hr, hb, ha⟩ := tuning_ops hk h hu 6 (by decide) y pi ht hs
  unfold TMCService.tuningInformation at hr
  rw [hx] at hr
  dsimp only at hr
  obtain ⟨l1, h1, hr⟩ := Option.bind_eq_some_iff.mp hr
  obtain ⟨l2, h2, hr⟩ := Option.bind_eq_some_iff.mp hr
  obtain ⟨raw, h3, hr⟩ := Option.bind_eq_some_iff.mp hr
  rw [getUint8_hi] at h1
  rw [getUint8_lo] at h2
  rw [h1, Option.bind_some, h2, Option.bind_some, h3] at hf
  have hf := Option.some.inj hf
  subst hf
  have hout := (congrArg Prod.snd (Option.some.inj hr)).symm
  dsimp only at hout
  have := tmc_pushes hb ha (q := ["other_network", "frequencies_khz"]) (raw.map .int) [_] []
    (by rw [hout, List.map_map, List.append_nil]; rfl) rfl rfl
  rw [this]
  cases raw <;> rfl

include hk h hu in
/-- **C76**, frequencies of another network (partial: a number of frequencies followed by one frequency). -/
theorem C76_frequency_partial (count code : Nat) (hc : 1 ≤ count ∧ count ≤ 25) (hf : 1 ≤ code ∧ code ≤ 204)
    (y pi : Word) (hy : hiByte y = BitVec.ofNat 8 (224 + count) ∧ loByte y = BitVec.ofNat 8 code)
    (ht : tmcPart (decodedGroups gs ls) g = [.user (tuningGroup 6 y pi)])
    (hs : (history tmcPart (decodedGroups gs ls)).any TmcGroup.isVariant0 = true) :
    j.at? ["tmc", "other_network", "frequencies_khz"] = some (.arr [.int (87500 + 100 * code)]) := by
  have h1 : (hiByte y).toNat = 224 + count := by rw [hy.1, BitVec.toNat_ofNat]; omega
  have h2 : (loByte y).toNat = code := by rw [hy.2, BitVec.toNat_ofNat]; omega
  rw [frequency_ops hk h hu y pi ht hs [87500 + 100 * (code : Int)]]
  · rfl
  rw [h1, h2]
  have e1 : ({} : AltFreqList).insert (224 + count) = some { numExpected := count } := by
    unfold AltFreqList.insert CarrierFrequency.isValid
    dsimp only
    rw [decide_eq_false (p := (224 + count ≤ 204)) (by omega), if_neg (by simp), if_neg (by omega), if_pos (by omega)]
    simp
  have e2 : ({ numExpected := count } : AltFreqList).insert code =
      some { freqs := (List.replicate 25 0).set 0 (87500 + 100 * (code : Int)), numExpected := count, numReceived := 1 } := by
    have hval : CarrierFrequency.isValid { code := code, band := .fm } = true := by
      unfold CarrierFrequency.isValid
      simp [hf.1, hf.2]
    have hkhz : CarrierFrequency.kHz { code := code, band := .fm } = 87500 + 100 * (code : Int) := by
      unfold CarrierFrequency.kHz
      rw [if_pos hval]
    unfold AltFreqList.insert
    dsimp only
    simp only [Bool.false_eq_true, if_false]
    rw [hval, hkhz, if_pos (by simp; omega), if_pos (by omega), if_pos (by decide)]
  rw [e1, Option.bind_some, e2, Option.bind_some]
  rfl

include hk h hu in
/-- **C76** is violated: two frequencies of another network are never printed, because no number of
frequencies came before them (src/tmc/tmc.cc:543-559, src/util.cc:139-170). For every pair of frequencies. -/
theorem C76_frequencies_violated (c1 c2 : Nat) (h1 : 1 ≤ c1 ∧ c1 ≤ 204) (h2 : 1 ≤ c2 ∧ c2 ≤ 204)
    (y pi : Word) (hy : hiByte y = BitVec.ofNat 8 c1 ∧ loByte y = BitVec.ofNat 8 c2)
    (ht : tmcPart (decodedGroups gs ls) g = [.user (tuningGroup 6 y pi)])
    (hs : (history tmcPart (decodedGroups gs ls)).any TmcGroup.isVariant0 = true) :
    j.at? ["tmc", "other_network", "frequencies_khz"] = none := by
  have e1 : (hiByte y).toNat = c1 := by rw [hy.1, BitVec.toNat_ofNat]; omega
  have e2 : (loByte y).toNat = c2 := by rw [hy.2, BitVec.toNat_ofNat]; omega
  have e3 : ∀ c, 1 ≤ c ∧ c ≤ 204 → ({} : AltFreqList).insert c = some {} := by
    intro c hc
    unfold AltFreqList.insert
    dsimp only
    rw [if_neg (by simp), if_neg (by omega), if_neg (by omega), if_neg (by omega)]
    rfl
  rw [frequency_ops hk h hu y pi ht hs []]
  · rfl
  rw [e1, e2, e3 c1 h1, Option.bind_some, e3 c2 h2, Option.bind_some]
  rfl

include hk h hu in
/-- **C76**, tuning information of variant 8: one or two PI codes (partial: the first one is not 0). -/
theorem C76_codes_partial (y z : Word) (hy : y ≠ 0)
    (ht : tmcPart (decodedGroups gs ls) g = [.user (tuningGroup 8 y z)])
    (hs : (history tmcPart (decodedGroups gs ls)).any TmcGroup.isVariant0 = true) :
    j.at? ["tmc", "other_network", "pi"] = (if z = 0 ∨ z = y then some (.str (piText y)) else none) ∧
    j.at? ["tmc", "other_network", "pi_codes"] =
      (if z = 0 ∨ z = y then none else some (.arr [.str (piText y), .str (piText z)])) := by
  obtain ⟨hd, out, x, hx, hr, hb, ha⟩ := tuning_ops hk h hu 8 (by decide) y z ht hs
  unfold TMCService.tuningInformation at hr
  rw [hx] at hr
  dsimp only at hr
  rw [prefixedHex4_eq, prefixedHex4_eq] at hr
  by_cases hz : z = 0 ∨ z = y
  · rw [if_pos hz, if_pos hz]
    rw [if_pos (by rcases hz with h | h; exacts [.inr (.inl h), .inr (.inr h.symm)])] at hr
    have hout := (congrArg Prod.snd (Option.some.inj hr)).symm
    dsimp only at hout
    exact ⟨tmc_set hb [] [] hout rfl, tmc_none hb ha (by rw [hout]; rfl)⟩
  · rw [if_neg hz, if_neg hz]
    rw [if_neg (by rintro (h | h | h); exacts [hy h, hz (.inl h), hz (.inr h.symm)])] at hr
    have hout := (congrArg Prod.snd (Option.some.inj hr)).symm
    dsimp only at hout
    exact ⟨tmc_none hb ha (by rw [hout]; rfl),
      tmc_pushes hb ha (q := ["other_network", "pi_codes"]) [.str (piText y), .str (piText z)] [] [] hout rfl rfl⟩

include hk h hu in
/-- **C76** is violated: a PI code that is sent in the second place only is not printed; 0 is printed instead
(src/tmc/tmc.cc:561-563). For every PI code. -/
theorem C76_codes_violated (z : Word) (ht : tmcPart (decodedGroups gs ls) g = [.user (tuningGroup 8 0 z)])
    (hs : (history tmcPart (decodedGroups gs ls)).any TmcGroup.isVariant0 = true) :
    j.at? ["tmc", "other_network", "pi"] = some (.str (piText 0)) ∧
    j.at? ["tmc", "other_network", "pi_codes"] = none := by
  obtain ⟨hd, out, x, hx, hr, hb, ha⟩ := tuning_ops hk h hu 8 (by decide) 0 z ht hs
  unfold TMCService.tuningInformation at hr
  rw [hx] at hr
  dsimp only at hr
  rw [prefixedHex4_eq, prefixedHex4_eq, if_pos (.inl rfl)] at hr
  have hout := (congrArg Prod.snd (Option.some.inj hr)).symm
  dsimp only at hout
  exact ⟨tmc_set hb [] [] hout rfl, tmc_none hb ha (by rw [hout]; rfl)⟩

include hk h hu in
/-- **C76**, tuning information of variant 9: another network with a TMC service, its location table, scope and
service identifier. -/
theorem C76_other_service (pi : Word) (ltn scope sid : Nat) (hl : ltn < 64) (hsc : scope < 16) (hsi : sid < 64)
    (ht : tmcPart (decodedGroups gs ls) g = [.user (otherService pi ltn scope sid)])
    (hs : (history tmcPart (decodedGroups gs ls)).any TmcGroup.isVariant0 = true) :
    j.at? ["tmc", "other_network", "pi"] = some (.str (piText pi)) ∧
    j.at? ["tmc", "other_network", "service_id"] = some (.nat sid) ∧
    j.at? ["tmc", "other_network", "location_table"] = some (.nat ltn) ∧
    j.at? ["tmc", "other_network", "scope"] =
      (if scope = 0 then none else some (.arr ((scopeNames scope).map fun t => .str (ascii t)))) := by
  obtain ⟨hd, out, x, hx, hr, hb, ha⟩ := tuning_ops hk h hu 9 (by decide) _ pi ht hs
  have hn : (BitVec.ofNat 16 (2 ^ 10 * ltn + 2 ^ 6 * scope + sid)).toNat = 2 ^ 10 * ltn + 2 ^ 6 * scope + sid := by
    rw [BitVec.toNat_ofNat]
    omega
  generalize BitVec.ofNat 16 (2 ^ 10 * ltn + 2 ^ 6 * scope + sid) = y at hr hn
  have b1 : getBits 6 y 0 = sid := by rw [getBits_eq_div, hn]; omega
  have b2 : getBits 4 y 6 = scope := by rw [getBits_eq_div, hn]; omega
  have b3 : getBits 6 y 10 = ltn := by rw [getBits_eq_div, hn]; omega
  unfold TMCService.tuningInformation at hr
  rw [hx] at hr
  dsimp only at hr
  rw [b1, b2, b3, prefixedHex4_eq,
    show getScopeStrings (BitVec.ofNat 16 scope) = _ from scope_strings ⟨scope, hsc⟩] at hr
  have hout := (congrArg Prod.snd (Option.some.inj hr)).symm
  dsimp only at hout
  rw [List.map_map] at hout
  generalize hps : (scopeNames scope).map _ = ps at hout
  have hpa : ∀ q, diverge q ["tmc", "other_network", "scope"] = true →
      (ps.all fun op => diverge q op.path) = true := by
    intro q hq
    rw [← hps, List.all_map]
    exact List.all_eq_true.mpr fun _ _ => hq
  have hscope : j.at? ["tmc", "other_network", "scope"] =
      if (scopeNames scope).map (fun t => J.str (ascii t)) = [] then none
      else some (.arr ((scopeNames scope).map fun t => .str (ascii t))) :=
    tmc_pushes hb ha _ _ [] (by rw [hout, List.append_nil, List.map_map]; rw [← hps]; rfl) rfl rfl
  refine ⟨?_, ?_, ?_, ?_⟩
  · exact tmc_set hb [] (_ :: _ :: ps) hout (by rw [List.all_cons, List.all_cons, hpa _ rfl]; rfl)
  · exact tmc_set hb [_] (_ :: ps) hout (by rw [List.all_cons, hpa _ rfl]; rfl)
  · exact tmc_set hb [_, _] ps hout (hpa _ rfl)
  · rw [hscope]
    have := scopeNames_nil ⟨scope, hsc⟩
    dsimp only at this
    by_cases hz : scope = 0
    · rw [if_pos hz, if_pos (by rw [List.map_eq_nil_iff, this]; exact hz)]
    · rw [if_neg hz, if_neg (by rw [List.map_eq_nil_iff, this]; exact hz)]

end printed

/-! ### Examples -/

/-- The name "DKULTUR ". -/
example : demoMember [demoTable, demoHeard (demoUser (tuningGroup 4 0x444B 0x554C))]
      (demoHeard (demoUser (tuningGroup 5 0x5455 0x5220))) ["tmc", "service_provider"] = some (ascii "DKULTUR ") ∧
    providerText ([.system (tableWord 9 true false 5), .user (tuningGroup 4 0x444B 0x554C)] ++
      [.user (tuningGroup 5 0x5455 0x5220)]) = inOrder 0 (ascii "DKULTUR ") := by decide +kernel

/-- A network with a list of frequencies, beginning with 98.0 MHz; two frequencies; two PI codes; a PI code in the
second place. -/
example : demoMember [demoTable] (demoHeard (demoUser (tuningGroup 6 0xE369 0xD210)))
      ["tmc", "other_network", "pi"] = some (ascii "0xD210") ∧
    demoMember [demoTable] (demoHeard (demoUser (tuningGroup 6 0xE369 0xD210)))
      ["tmc", "other_network", "frequencies_khz"] = some (ascii "1") ∧
    demoMember [demoTable] (demoHeard (demoUser (tuningGroup 6 0x6869 0xD210)))
      ["tmc", "other_network", "frequencies_khz"] = none ∧
    demoMember [demoTable] (demoHeard (demoUser (tuningGroup 8 0xD211 0xD210)))
      ["tmc", "other_network", "pi_codes"] = some (ascii "2") ∧
    demoMember [demoTable] (demoHeard (demoUser (tuningGroup 8 0 0xD210)))
      ["tmc", "other_network", "pi"] = some (ascii "0x0000") := by decide +kernel

example : tmcPart [demoTable] (demoHeard (demoUser (tuningGroup 6 0xE369 0xD210))) =
      [.user (tuningGroup 6 0xE369 0xD210)] ∧
    hiByte 0xE369 = BitVec.ofNat 8 (224 + 3) ∧ loByte 0xE369 = BitVec.ofNat 8 105 ∧
    (history tmcPart [demoTable]).any TmcGroup.isVariant0 = true := by decide +kernel

/-- Service 12 of another network, with location table 1, regional. -/
example : demoMember [demoTable] (demoHeard (demoUser (otherService 0xD313 1 2 12)))
      ["tmc", "other_network", "service_id"] = some (ascii "12") ∧
    demoMember [demoTable] (demoHeard (demoUser (otherService 0xD313 1 2 12)))
      ["tmc", "other_network", "scope"] = some (ascii "1") := by decide +kernel

end Redsea
