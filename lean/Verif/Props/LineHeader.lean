import Verif.Props.TypeC
import Verif.Props.HexIo
import Verif.Spec.LineHeader

/-
C78: the members of a line that do not depend on what its group carries, and groups of unknown applications.
-/

namespace Redsea

open _root_.Redsea.Spec

theorem receive_channel {env : Env} (hk : env.tmc.KeysOk) {o : Options} {w : Nat} {p : Word}
    {gs : List Group} {st : Station} {ls : List (Option Line)}
    (h : Station.receive env (Station.withPI o w p) gs = some (st, ls)) :
    st.whichChannel = w ∧ st.hasPi = true :=
  (receive_induction hk (fun _ st => st.whichChannel = w ∧ st.hasPi = true) ⟨rfl, rfl⟩ (by
    intro ds st g st' l hgood hop hu
    obtain ⟨b, hnone, hsome⟩ := update_step hk hgood hu
    cases hl : l with
    | none => rcases hnone hl with h | h <;> rw [h] <;> exact hop
    | some l =>
      obtain ⟨_, _, _, -, -, -, -, -, frame⟩ := hsome l hl
      exact ⟨frame.whichChannel.trans hop.1, frame.hasPi.trans hop.2⟩) gs st ls h).1

/-- A member made by at most one operation. -/
theorem at_option {pre post : List JOp} {j : J} {k : String} {v : Option J}
    (h : J.build (pre ++ (v.map (JOp.set [k])).toList ++ post) .null = some j)
    (h1 : ∀ op ∈ pre, op.Away [k]) (h2 : ∀ op ∈ post, op.Away [k]) : j.at? [k] = v := by
  cases v with
  | none =>
    rw [at_build_other [k] _ .null j ?_ h]
    · rfl
    · intro op hop
      simp only [Option.map_none, Option.toList_none, List.append_nil, List.mem_append] at hop
      exact hop.elim (h1 op) (h2 op)
  | some v =>
    refine at_build_set [k] v pre post .null j h2 ?_
    rw [List.append_assoc] at h
    exact h

section header

variable {env : Env} (hk : env.tmc.KeysOk) {o : Options} {w : Nat} {p : Word} {gs : List Group}
  {st : Station} {ls : List (Option Line)}
  (h : Station.receive env (Station.withPI o w p) gs = some (st, ls)) {g : Group} {st' : Station} {j : J}
  (hu : st.updateAndPrint env g = some (st', some (.json j)))

include hk h hu in
theorem header_parts : ∃ rest, J.build (st.headerOps env g ++ rest) .null = some j ∧
    ∀ k, k ∈ reservedKeys → k ∉ ["group", "tp", "prog_type"] → ∀ op ∈ rest, op.Away [k] := by
  obtain ⟨-, hgood⟩ := receive_facts hk h
  obtain ⟨b, -, hsome⟩ := update_step hk hgood hu
  obtain ⟨basics, body, j1, hb, hl, -, hkb, hok, -⟩ := hsome _ rfl
  have := printJson_inj hl
  subst this
  rw [List.append_assoc] at hb
  refine ⟨_, hb, ?_⟩
  intro k hr hn op hop
  rcases List.mem_append.mp hop with hop | hop
  · exact keysIn_away hkb k [] hn op hop
  · exact ok_away hok hr op hop

include hk h hu in
/-- **C78**: the data stream is printed if and only if this is asked for. -/
theorem C78_stream : j.at? ["stream"] = if o.streams = true then some (.nat g.dataStream) else none := by
  obtain ⟨rest, hb, ha⟩ := header_parts hk h hu
  obtain ⟨⟨ho, hp⟩, -⟩ := receive_facts hk h
  unfold Station.headerOps at hb
  refine at_option (pre := []) (post := st.piOps g ++ (Station.timeOps env st g ++ (Station.blerOps g ++
    (st.channelOps ++ (st.rawOps g ++ rest))))) ?_ (by simp) ?_
  · rw [← hb]
    unfold Station.streamOps
    rw [ho]
    cases o.streams <;> simp only [List.append_assoc] <;> rfl
  · intro op hop
    simp only [List.mem_append] at hop
    rcases hop with hop | hop | hop | hop | hop | hop
    · exact keysIn_away (pi_keys st g) _ [] (by decide) op hop
    · exact keysIn_away (time_keys env st g) _ [] (by decide) op hop
    · exact keysIn_away (bler_keys g) _ [] (by decide) op hop
    · exact keysIn_away (channel_keys st) _ [] (by decide) op hop
    · exact keysIn_away (raw_keys st g) _ [] (by decide) op hop
    · exact ha _ (by decide) (by decide) op hop

include hk h hu in
/-- **C78**: the time of reception is printed if and only if this is asked for. -/
theorem C78_time : j.at? ["rx_time"] =
    if o.timestamp = true then some (.str (env.formatTime (g.time.getD 0))) else none := by
  obtain ⟨rest, hb, ha⟩ := header_parts hk h hu
  obtain ⟨⟨ho, hp⟩, -⟩ := receive_facts hk h
  unfold Station.headerOps at hb
  refine at_option (pre := st.streamOps g ++ st.piOps g) (post := Station.blerOps g ++
    (st.channelOps ++ (st.rawOps g ++ rest))) ?_ ?_ ?_
  · rw [← hb]
    unfold Station.timeOps
    rw [ho]
    cases o.timestamp <;> simp only [List.append_assoc] <;> rfl
  · intro op hop
    rcases List.mem_append.mp hop with hop | hop
    · exact keysIn_away (stream_keys st g) _ [] (by decide) op hop
    · exact keysIn_away (pi_keys st g) _ [] (by decide) op hop
  · intro op hop
    simp only [List.mem_append] at hop
    rcases hop with hop | hop | hop | hop
    · exact keysIn_away (bler_keys g) _ [] (by decide) op hop
    · exact keysIn_away (channel_keys st) _ [] (by decide) op hop
    · exact keysIn_away (raw_keys st g) _ [] (by decide) op hop
    · exact ha _ (by decide) (by decide) op hop

include hk h hu in
/-- **C78**: the channel is printed if and only if there are several. -/
theorem C78_channel : j.at? ["channel"] = if o.numChannels > 1 then some (.nat w) else none := by
  obtain ⟨rest, hb, ha⟩ := header_parts hk h hu
  obtain ⟨⟨ho, hp⟩, -⟩ := receive_facts hk h
  obtain ⟨hw, -⟩ := receive_channel hk h
  unfold Station.headerOps at hb
  refine at_option (pre := st.streamOps g ++ st.piOps g ++ Station.timeOps env st g ++ Station.blerOps g)
    (post := st.rawOps g ++ rest) ?_ ?_ ?_
  · rw [← hb]
    unfold Station.channelOps
    rw [ho, hw]
    by_cases hc : o.numChannels > 1
    · rw [if_pos hc, if_pos hc]
      simp only [List.append_assoc]
      rfl
    · rw [if_neg hc, if_neg hc]
      simp only [List.append_assoc]
      rfl
  · intro op hop
    simp only [List.mem_append] at hop
    rcases hop with ((hop | hop) | hop) | hop
    · exact keysIn_away (stream_keys st g) _ [] (by decide) op hop
    · exact keysIn_away (pi_keys st g) _ [] (by decide) op hop
    · exact keysIn_away (time_keys env st g) _ [] (by decide) op hop
    · exact keysIn_away (bler_keys g) _ [] (by decide) op hop
  · intro op hop
    rcases List.mem_append.mp hop with hop | hop
    · exact keysIn_away (raw_keys st g) _ [] (by decide) op hop
    · exact ha _ (by decide) (by decide) op hop

theorem printHex_text (g : Group) : g.printHex = groupText g := by
  rw [printHex_eq]
  unfold groupText blockText hexBlockText
  simp only [List.append_assoc]
  rfl

include hk h hu in
/-- **C78**: the blocks are printed in hexadecimal if and only if this is asked for, with dashes for blocks that were
not received. -/
theorem C78_raw_data : j.at? ["raw_data"] = if o.showRaw = true then some (.str (groupText g)) else none := by
  obtain ⟨rest, hb, ha⟩ := header_parts hk h hu
  obtain ⟨⟨ho, hp⟩, -⟩ := receive_facts hk h
  unfold Station.headerOps at hb
  refine at_option (pre := st.streamOps g ++ st.piOps g ++ Station.timeOps env st g ++ Station.blerOps g ++
    st.channelOps) (post := rest) ?_ ?_ ?_
  · rw [← hb]
    unfold Station.rawOps
    rw [ho, printHex_text]
    cases o.showRaw <;> simp only [List.append_assoc] <;> rfl
  · intro op hop
    simp only [List.mem_append] at hop
    rcases hop with (((hop | hop) | hop) | hop) | hop
    · exact keysIn_away (stream_keys st g) _ [] (by decide) op hop
    · exact keysIn_away (pi_keys st g) _ [] (by decide) op hop
    · exact keysIn_away (time_keys env st g) _ [] (by decide) op hop
    · exact keysIn_away (bler_keys g) _ [] (by decide) op hop
    · exact keysIn_away (channel_keys st) _ [] (by decide) op hop
  · exact ha _ (by decide) (by decide)

/-- The mask F000 keeps the highest digit. -/
theorem top_nibble (x : Word) : (x &&& (0xF000 : Word)).toNat = x.toNat / 4096 * 4096 := by
  have hbit : ∀ i : Fin 16, (0xF000#16).getLsbD i.val = decide (12 ≤ i.val) := by decide
  have h1 : x &&& 0xF000#16 = (x >>> 12) <<< 12 := by
    apply BitVec.eq_of_getLsbD_eq
    intro i hi
    rw [BitVec.getLsbD_and, BitVec.getLsbD_shiftLeft, BitVec.getLsbD_ushiftRight, hbit ⟨i, hi⟩]
    by_cases h12 : 12 ≤ i
    · have e : 12 + (i - 12) = i := by omega
      have e2 : ¬ i < 12 := by omega
      simp [h12, e, e2, hi]
    · have e2 : i < 12 := by omega
      simp [h12, e2]
  have := x.isLt
  show (x &&& 0xF000#16).toNat = _
  rw [h1, BitVec.toNat_shiftLeft, BitVec.toNat_ushiftRight, Nat.shiftLeft_eq, Nat.shiftRight_eq_div_pow]
  omega

/-- The operations for PI code and callsign. -/
theorem piOps_cases (st : Station) (g : Group) :
    st.piOps g = if g.type.version = .C then [] else
      [JOp.set ["pi"] (.str (piText st.pi))] ++
      ((if st.options.rbds = true ∧ getCallsignFromPI st.pi ≠ [] ∧ st.pi.toNat / 4096 ≠ 1 then
        some (J.str (getCallsignFromPI st.pi)) else none).map (JOp.set ["callsign"])).toList ++
      ((if st.options.rbds = true ∧ getCallsignFromPI st.pi ≠ [] ∧ st.pi.toNat / 4096 = 1 then
        some (J.str (getCallsignFromPI st.pi)) else none).map (JOp.set ["callsign_uncertain"])).toList := by
  unfold Station.piOps
  by_cases hC : g.type.version = .C
  · rw [if_pos hC, if_pos hC]
  rw [if_neg hC, if_neg hC, prefixedHex4_eq]
  have hm : (st.pi &&& 0xF000 = 0x1000) ↔ st.pi.toNat / 4096 = 1 := by
    have hx := top_nibble st.pi
    have := st.pi.isLt
    constructor
    · intro he
      rw [he] at hx
      have : (0x1000 : Word).toNat = 4096 := rfl
      rw [this] at hx
      omega
    · intro he
      apply BitVec.eq_of_toNat_eq
      rw [hx, he]
      rfl
  by_cases hr : st.options.rbds = true ∧ getCallsignFromPI st.pi ≠ []
  · rw [if_pos hr]
    by_cases h1 : st.pi.toNat / 4096 = 1
    · rw [if_pos (hm.mpr h1), if_neg (fun hx => hx.2.2 h1), if_pos ⟨hr.1, hr.2, h1⟩]
      rfl
    · rw [if_neg (fun hx => h1 (hm.mp hx)), if_pos ⟨hr.1, hr.2, h1⟩, if_neg (fun hx => h1 hx.2.2)]
      rfl
  · rw [if_neg hr, if_neg (fun hx => hr ⟨hx.1, hx.2.1⟩), if_neg (fun hx => hr ⟨hx.1, hx.2.1⟩)]
    rfl

include hk h hu in
/-- **C78**: the PI code is printed except for type C groups; for RBDS also the callsign that belongs to it (see C43),
which is not certain for PI codes 1xxx. -/
theorem C78_pi :
    j.at? ["pi"] = (if g.type.version = .C then none else some (.str (piText p))) ∧
    j.at? ["callsign"] = (if g.type.version ≠ .C ∧ o.rbds = true ∧ getCallsignFromPI p ≠ [] ∧ p.toNat / 4096 ≠ 1 then
      some (.str (getCallsignFromPI p)) else none) ∧
    j.at? ["callsign_uncertain"] = (if g.type.version ≠ .C ∧ o.rbds = true ∧ getCallsignFromPI p ≠ [] ∧
      p.toNat / 4096 = 1 then some (.str (getCallsignFromPI p)) else none) := by
  obtain ⟨rest, hb, ha⟩ := header_parts hk h hu
  obtain ⟨⟨ho, hp⟩, -⟩ := receive_facts hk h
  unfold Station.headerOps at hb
  have hpost : ∀ k, k ∈ ["pi", "callsign", "callsign_uncertain"] →
      ∀ op ∈ Station.timeOps env st g ++ (Station.blerOps g ++ (st.channelOps ++ (st.rawOps g ++ rest))),
        op.Away [k] := by
    intro k hk op hop
    have hk' : k ∈ reservedKeys ∧ k ∉ ["group", "tp", "prog_type"] ∧ k ∉ ["rx_time"] ∧ k ∉ ["bler"] ∧
        k ∉ ["channel"] ∧ k ∉ ["raw_data"] :=
      (by decide : ∀ k ∈ ["pi", "callsign", "callsign_uncertain"], k ∈ reservedKeys ∧
        k ∉ ["group", "tp", "prog_type"] ∧ k ∉ ["rx_time"] ∧ k ∉ ["bler"] ∧
        k ∉ ["channel"] ∧ k ∉ ["raw_data"]) k hk
    obtain ⟨k1, k2, k3, k4, k5, k6⟩ := hk'
    simp only [List.mem_append] at hop
    rcases hop with hop | hop | hop | hop | hop
    · exact keysIn_away (time_keys env st g) _ [] k3 op hop
    · exact keysIn_away (bler_keys g) _ [] k4 op hop
    · exact keysIn_away (channel_keys st) _ [] k5 op hop
    · exact keysIn_away (raw_keys st g) _ [] k6 op hop
    · exact ha _ k1 k2 op hop
  have hpre : ∀ k, k ∈ ["pi", "callsign", "callsign_uncertain"] → ∀ op ∈ st.streamOps g, op.Away [k] := by
    intro k hk op hop
    have : k ∉ ["stream"] :=
      (by decide : ∀ k ∈ ["pi", "callsign", "callsign_uncertain"], k ∉ ["stream"]) k hk
    exact keysIn_away (stream_keys st g) k [] this op hop
  generalize hT : Station.timeOps env st g ++ (Station.blerOps g ++ (st.channelOps ++ (st.rawOps g ++ rest))) =
    post at hpost
  have hb : J.build (st.streamOps g ++ (st.piOps g ++ post)) .null = some j := by
    rw [← hT, ← hb]
    simp only [List.append_assoc]
  by_cases hC : g.type.version = .C
  · rw [if_pos hC, if_neg (fun hx => hx.1 hC), if_neg (fun hx => hx.1 hC)]
    rw [piOps_cases, if_pos hC, List.nil_append] at hb
    have hn : ∀ k, k ∈ ["pi", "callsign", "callsign_uncertain"] → j.at? [k] = none := by
      intro k hk
      rw [at_build_other [k] _ .null j ?_ hb]
      · rfl
      · intro op hop
        rcases List.mem_append.mp hop with hop | hop
        · exact hpre k hk op hop
        · exact hpost k hk op hop
    exact ⟨hn _ (by decide), hn _ (by decide), hn _ (by decide)⟩
  · rw [if_neg hC]
    rw [piOps_cases, if_neg hC, ho, hp] at hb
    have hc1 : (g.type.version ≠ .C ∧ o.rbds = true ∧ getCallsignFromPI p ≠ [] ∧ p.toNat / 4096 ≠ 1) ↔
        (o.rbds = true ∧ getCallsignFromPI p ≠ [] ∧ p.toNat / 4096 ≠ 1) := ⟨fun x => x.2, fun x => ⟨hC, x⟩⟩
    have hc2 : (g.type.version ≠ .C ∧ o.rbds = true ∧ getCallsignFromPI p ≠ [] ∧ p.toNat / 4096 = 1) ↔
        (o.rbds = true ∧ getCallsignFromPI p ≠ [] ∧ p.toNat / 4096 = 1) := ⟨fun x => x.2, fun x => ⟨hC, x⟩⟩
    rw [if_congr hc1 rfl rfl, if_congr hc2 rfl rfl]
    generalize (if o.rbds = true ∧ getCallsignFromPI p ≠ [] ∧ p.toNat / 4096 ≠ 1 then
      some (J.str (getCallsignFromPI p)) else none) = v1 at hb ⊢
    generalize (if o.rbds = true ∧ getCallsignFromPI p ≠ [] ∧ p.toNat / 4096 = 1 then
      some (J.str (getCallsignFromPI p)) else none) = v2 at hb ⊢
    have o1 : ∀ {k k' : String} {v : Option J}, k ≠ k' → ∀ op ∈ (v.map (JOp.set [k'])).toList, op.Away [k] := by
      intro k k' v hkk op hop
      cases v with
      | none => cases hop
      | some v =>
        rw [Option.map_some, Option.toList_some, List.mem_singleton] at hop
        rw [hop]
        show diverge [k] [k'] = true
        rw [diverge, if_neg hkk]
    refine ⟨?_, ?_, ?_⟩
    · refine at_option (v := some _) (pre := st.streamOps g)
        (post := (v1.map (JOp.set ["callsign"])).toList ++ ((v2.map (JOp.set ["callsign_uncertain"])).toList ++ post))
        (by rw [← hb]; simp only [List.append_assoc]; rfl) (hpre _ (by decide)) ?_
      intro op hop
      simp only [List.mem_append] at hop
      rcases hop with hop | hop | hop
      · exact o1 (by decide) op hop
      · exact o1 (by decide) op hop
      · exact hpost _ (by decide) op hop
    · refine at_option (pre := st.streamOps g ++ [JOp.set ["pi"] (.str (piText p))])
        (post := (v2.map (JOp.set ["callsign_uncertain"])).toList ++ post)
        (by rw [← hb]; simp only [List.append_assoc]) ?_ ?_
      · intro op hop
        rcases List.mem_append.mp hop with hop | hop
        · exact hpre _ (by decide) op hop
        · rw [List.mem_singleton] at hop
          rw [hop]
          rfl
      · intro op hop
        rcases List.mem_append.mp hop with hop | hop
        · exact o1 (by decide) op hop
        · exact hpost _ (by decide) op hop
    · refine at_option (pre := st.streamOps g ++ ([JOp.set ["pi"] (.str (piText p))] ++
          (v1.map (JOp.set ["callsign"])).toList)) (post := post)
        (by rw [← hb]; simp only [List.append_assoc]) ?_ (hpost _ (by decide))
      intro op hop
      simp only [List.mem_append] at hop
      rcases hop with hop | hop | hop
      · exact hpre _ (by decide) op hop
      · rw [List.mem_singleton] at hop
        rw [hop]
        rfl
      · exact o1 (by decide) op hop

include hk h hu in
/-- **C78**: the error rate is printed if and only if the group has one (its value is C21). -/
theorem C78_bler : (j.at? ["bler"]).isSome = g.bler.isSome := by
  obtain ⟨rest, hb, ha⟩ := header_parts hk h hu
  unfold Station.headerOps at hb
  have := at_option (k := "bler") (v := g.bler.map fun q => J.nat (Station.blerPercent q)) (j := j)
    (pre := st.streamOps g ++ st.piOps g ++ Station.timeOps env st g)
    (post := st.channelOps ++ (st.rawOps g ++ rest)) ?_ ?_ ?_
  · rw [this, Option.isSome_map]
  · rw [← hb]
    unfold Station.blerOps
    cases g.bler <;> simp only [List.append_assoc] <;> rfl
  · intro op hop
    simp only [List.mem_append] at hop
    rcases hop with (hop | hop) | hop
    · exact keysIn_away (stream_keys st g) _ [] (by decide) op hop
    · exact keysIn_away (pi_keys st g) _ [] (by decide) op hop
    · exact keysIn_away (time_keys env st g) _ [] (by decide) op hop
  · intro op hop
    simp only [List.mem_append] at hop
    rcases hop with hop | hop | hop
    · exact keysIn_away (channel_keys st) _ [] (by decide) op hop
    · exact keysIn_away (raw_keys st g) _ [] (by decide) op hop
    · exact ha _ (by decide) (by decide) op hop

theorem odaRaw_text {g : Group} : Station.odaRaw g = applicationText g := by
  unfold Station.odaRaw applicationText blockText
  rw [getBits_eq_div]
  simp only [Nat.pow_zero, Nat.div_one]
  rfl

include hk h hu in
/-- **C78**: a type C group is printed as such; it has no traffic programme flag and no programme type. -/
theorem C78_group_C (hC : g.type.version = .C) :
    j.at? ["group"] = some (.str (ascii "C")) ∧ j.at? ["tp"] = none ∧ j.at? ["prog_type"] = none := by
  obtain ⟨-, hgood⟩ := receive_facts hk h
  obtain ⟨st1, l1, hu1, -, -, hsome⟩ := updateAndPrint_parts env hk st g hgood
  rw [hu] at hu1
  cases Option.some.inj hu1
  obtain ⟨basics, body, j1, h1, h2, -, -, h3, -, -, hok, -⟩ := hsome _ rfl
  have := printJson_inj h2
  subst this
  unfold Station.decodeBasics at h3
  rw [if_pos hC] at h3
  rw [← Option.some.inj h3, List.append_assoc] at h1
  have hkeys : KeysIn ["stream", "pi", "callsign", "callsign_uncertain", "rx_time", "bler", "channel", "raw_data"]
      (st.headerOps env g) := by
    unfold Station.headerOps
    refine keys_append (keys_append (keys_append (keys_append (keys_append ?_ ?_) ?_) ?_) ?_) ?_
    · exact keys_mono (stream_keys st g) (by simp)
    · exact keys_mono (pi_keys st g) (by simp)
    · exact keys_mono (time_keys env st g) (by simp)
    · exact keys_mono (bler_keys g) (by simp)
    · exact keys_mono (channel_keys st) (by simp)
    · exact keys_mono (raw_keys st g) (by simp)
  have hn : ∀ k, k ∈ ["tp", "prog_type"] → j.at? [k] = none := by
    intro k hk
    obtain ⟨k1, k2, k3⟩ := (by decide : ∀ k ∈ ["tp", "prog_type"], k ∈ reservedKeys ∧ k ∉ ["stream", "pi", "callsign",
      "callsign_uncertain", "rx_time", "bler", "channel", "raw_data"] ∧ diverge [k] ["group"] = true) k hk
    rw [at_build_other [k] _ .null j ?_ h1]
    · rfl
    · intro op hop
      simp only [List.mem_append, List.mem_singleton] at hop
      rcases hop with hop | rfl | hop
      · exact keysIn_away hkeys k [] k2 op hop
      · exact k3
      · exact ok_away hok k1 op hop
  exact ⟨at_build_set ["group"] _ _ _ .null j (ok_away hok (by decide)) h1, hn _ (by decide), hn _ (by decide)⟩

section unknown

variable (ht : g.hasType = true) (hv : g.type.version ≠ .C) (hf : g.type ∉ fixedTypes)

include hk h hu ht in
theorem unknown_parts : ∃ b hd body, J.build (hd ++ body) .null = some j ∧ KeysIn commonMembers hd ∧
    Station.dispatch env { st with lastGroupHadPi := b } g = some (st', body) := by
  obtain ⟨-, hgood⟩ := receive_facts hk h
  obtain ⟨b, basics, body, hb, -, hd, -, hkb⟩ := printed_parts hk hgood ht hu
  exact ⟨b, _, body, hb, keys_append (header_keys env st g) (keys_mono hkb (by simp [commonMembers])), hd⟩

include hk h hu ht hv hf in
/-- **C78**: a group announced for an application without a decoder is printed with the application, its name, and
the 37 bits; it changes nothing that is known about the station, except whether the PI code was in the last group. -/
theorem C78_unknown_application (app : Word) (ha : assignedApp (decodedGroups gs ls) g.type = some app)
    (hn : app ∉ knownApps) :
    j.at? ["unknown_oda", "app_id"] = some (.str (hexPadded 4 app.toNat)) ∧
    j.at? ["unknown_oda", "app_name"] = some (.str (getAppNameString app.toNat)) ∧
    j.at? ["unknown_oda", "raw_data"] = some (.str (applicationText g)) ∧
    ∃ b, st' = { st with lastGroupHadPi := b } := by
  obtain ⟨b, hd, body, hb, -, hdis⟩ := unknown_parts hk h hu ht
  have hst := (C47_latest_assignment env hk o w p gs st ls h g.type).trans ha
  rw [C47_application env { st with lastGroupHadPi := b } g app hv hf hst] at hdis
  simp only [knownApps, List.mem_cons, List.not_mem_nil, or_false, not_or] at hn
  obtain ⟨n1, n2, n3, n4, n5, n6⟩ := hn
  unfold Station.decodeODAApp at hdis
  rw [if_neg n1, if_neg n2, if_neg n3, if_neg n4, if_neg (by simp only [not_or]; exact ⟨n5, n6⟩), odaRaw_text] at hdis
  have hbody : body = _ := (congrArg Prod.snd (Option.some.inj hdis)).symm
  have hst' : st' = _ := (congrArg Prod.fst (Option.some.inj hdis)).symm
  exact ⟨tmc_set hb [] _ hbody rfl, tmc_set hb [_] _ hbody rfl, tmc_set hb [_, _] [] hbody rfl, b, hst'⟩

include hk h hu ht hv hf in
/-- **C78**: a group for which no application is announced, and without a use of its own, is printed with its 37
bits, and no application. -/
theorem C78_unannounced (ha : assignedApp (decodedGroups gs ls) g.type = none) (hn : ¬ ownUse g.type) :
    j.at? ["unknown_oda", "raw_data"] = some (.str (applicationText g)) ∧
    j.at? ["unknown_oda", "app_id"] = none ∧ j.at? ["unknown_oda", "app_name"] = none ∧
    ∃ b, st' = { st with lastGroupHadPi := b } := by
  obtain ⟨b, hd, body, hb, hkeys, hdis⟩ := unknown_parts hk h hu ht
  have hst := (C47_latest_assignment env hk o w p gs st ls h g.type).trans ha
  have hdis' : Station.decodeODAGroup env { st with lastGroupHadPi := b } g = some (st', body) := by
    rw [← hdis]
    symm
    unfold Station.dispatch
    dsimp only
    rw [hst]
    obtain ⟨n, v, hx⟩ : ∃ n v, g.type = ⟨n, v⟩ := ⟨_, _, rfl⟩
    rw [hx] at hn hf hv
    have e1 : g.type.number = n := by rw [hx]
    have e2 : g.type.version = v := by rw [hx]
    rw [e1, e2]
    simp only [ownUse, not_or, GroupType.mk.injEq] at hn
    obtain ⟨m1, m2, m3, m4, m5, m6⟩ := hn
    have hAB : v = .A ∨ v = .B := by
      cases v
      · exact .inl rfl
      · exact .inr rfl
      · exact absurd rfl hv
    simp only [fixedTypes, List.mem_cons, GroupType.mk.injEq, List.not_mem_nil, or_false, not_or] at hf
    have e : ∀ m : Nat, ¬ (n = m ∧ v = .A) → ¬ (n = m ∧ v = .B) → ¬ n = m := by
      intro m h1 h2 h
      rcases hAB with hA | hB
      · exact h1 ⟨h, hA⟩
      · exact h2 ⟨h, hB⟩
    obtain ⟨a1, a2, a3, a4, a5, a6, a7, a8, a9, a10, a11, a12⟩ := hf
    rw [if_neg hv, if_neg (e 0 a1 a2), if_neg (e 1 a3 a4), if_neg (e 2 a5 a6), if_neg a7, if_neg a8, if_neg a9,
      if_neg (e 14 a10 a11), if_neg a12]
    simp only [Option.isSome_none, Bool.false_eq_true, if_false]
    rw [if_neg m1, if_neg m2, if_neg m3, if_neg m4, if_neg m5, if_neg m6]
  unfold Station.decodeODAGroup at hdis'
  rw [show (Station.odaForGroup { st with lastGroupHadPi := b } g.type) = none from hst] at hdis'
  dsimp only at hdis'
  rw [odaRaw_text] at hdis'
  have hbody : body = _ := (congrArg Prod.snd (Option.some.inj hdis')).symm
  have hst' : st' = _ := (congrArg Prod.fst (Option.some.inj hdis')).symm
  refine ⟨tmc_set hb [] [] hbody rfl, ?_, ?_, b, hst'⟩
  · exact body_none hb hkeys (by decide) (by rw [hbody]; rfl)
  · exact body_none hb hkeys (by decide) (by rw [hbody]; rfl)

end unknown

end header

/-- A line for options and a group. -/
def demoLine (o : Options) (p : Word) (gs : List Group) (g : Group) (k : List String) : Option Str :=
  match (Station.receive demoEnv (Station.withPI o 1 p) gs).bind fun r => r.1.updateAndPrint demoEnv g with
  | some (_, some (.json j)) => match j.at? k with
    | some (.str t) => some t
    | some (.nat n) => some (decimal n)
    | _ => none
  | _ => none

/-- Group 12A, and the announcement of application 1234 for it. -/
def demoUnknown : Broadcast := { number := 12, low := 0x1A, block3 := 0x00AB, block4 := 0xCDEF }

def demoUnknownAnnounced : Broadcast := { number := 3, low := 24, block3 := 0, block4 := 0x1234 }

example : (demoHeard demoUnknown).hasType = true ∧ (demoHeard demoUnknown).type.version ≠ .C ∧
    (demoHeard demoUnknown).type ∉ fixedTypes ∧ ¬ (demoHeard demoUnknown).type.number = 5 ∧
    assignedApp [demoHeard demoUnknownAnnounced] (demoHeard demoUnknown).type = some 0x1234 ∧ 0x1234 ∉ knownApps ∧
    assignedApp [] (demoHeard demoUnknown).type = none := by decide +kernel

example : ¬ ownUse (demoHeard demoUnknown).type := by
  rw [show (demoHeard demoUnknown).type = ⟨12, .A⟩ by decide +kernel]
  unfold ownUse
  decide

example : demoLine {} 0x6204 [demoHeard demoUnknownAnnounced] (demoHeard demoUnknown) ["unknown_oda", "app_id"] =
      some (ascii "1234") ∧
    demoLine {} 0x6204 [demoHeard demoUnknownAnnounced] (demoHeard demoUnknown) ["unknown_oda", "raw_data"] =
      some (ascii "1A 00AB CDEF") ∧
    demoLine {} 0x6204 [] (demoHeard demoUnknown) ["unknown_oda", "raw_data"] = some (ascii "1A 00AB CDEF") ∧
    demoLine {} 0x6204 [] (demoHeard demoUnknown) ["unknown_oda", "app_id"] = none := by decide +kernel

example : demoLine { numChannels := 2, showRaw := true, streams := true } 0x6204 [] (demoHeard demoUnknown) ["channel"] =
      some (ascii "1") ∧
    demoLine { numChannels := 2, showRaw := true, streams := true } 0x6204 [] (demoHeard demoUnknown) ["raw_data"] =
      some (ascii "6204 C01A 00AB CDEF") ∧
    demoLine { numChannels := 2, showRaw := true, streams := true } 0x6204 [] (demoHeard demoUnknown) ["stream"] =
      some (ascii "0") ∧
    demoLine {} 0x6204 [] (demoHeard demoUnknown) ["channel"] = none := by decide +kernel

example : demoLine { rbds := true } 0x54A8 [] (demoGroup 0x54A8 0xC01A 0 0) ["callsign"] =
      some (getCallsignFromPI 0x54A8) ∧ getCallsignFromPI 0x54A8 ≠ [] ∧
    demoLine { rbds := true } 0x1C5E [] (demoGroup 0x1C5E 0xC01A 0 0) ["callsign"] = none ∧
    demoLine { rbds := true } 0x1C5E [] (demoGroup 0x1C5E 0xC01A 0 0) ["callsign_uncertain"] =
      some (getCallsignFromPI 0x1C5E) ∧ getCallsignFromPI 0x1C5E ≠ [] := by decide +kernel

example : (demoC (channelDataWords 33 1 2 3 4 5 6 7)).type.version = .C ∧
    demoLine {} 0x6204 [] (demoC (channelDataWords 33 1 2 3 4 5 6 7)) ["group"] = some (ascii "C") ∧
    demoLine {} 0x6204 [] (demoC (channelDataWords 33 1 2 3 4 5 6 7)) ["pi"] = none := by decide +kernel

end Redsea
