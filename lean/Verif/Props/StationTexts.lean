import Verif.Lemmas.StationTexts
import Verif.Props.RadioText
import Verif.Props.GroupFieldsOther

/-
C63: the texts of a station are printed as sent.
-/

namespace Redsea

open _root_.Redsea.Spec

theorem set2_twoChars (ucs2 : Ucs2Decoder) (s : RDSString) (pos : Nat) (w : Word) :
    s.set2 ucs2 pos (getUint8 w 8) (getUint8 w 0) = s.ops ucs2 (twoChars pos w) := by
  rw [getUint8_hi, getUint8_lo]
  rfl

theorem usable_iff (g : Group) : RtUsable g = true ↔ g.has .b3 = true ∧ g.has .b4 = true := by
  unfold RtUsable
  rw [Bool.and_eq_true]
  rfl

theorem low_bits (n : Nat) (w : Word) : getBits n w 0 = w.toNat % 2 ^ n := by
  rw [getBits_eq_div, Nat.pow_zero, Nat.div_one]

/-! ### Which groups have which members -/

theorem own_cases {g : Group} {app : Option Word} {k : String} (h : k ∈ ownMembers g app) :
    g.hasType = true ∧ ((g.type.version = .C ∧ k ∈ ["open_data_app", "rft", "debug"]) ∨
      g.type.version ≠ .C ∧ ((g.type ∈ fixedTypes ∧ k ∈ fixedMembers g.type) ∨
        g.type ∉ fixedTypes ∧ ((∃ a, app = some a ∧ k ∈ appMembers a) ∨
          app = none ∧ k ∈ primaryMembers g.type))) := by
  unfold ownMembers at h
  by_cases ht : g.hasType = true
  · refine ⟨ht, ?_⟩
    simp only [ht, Bool.not_true, Bool.false_eq_true, if_false] at h
    by_cases hC : g.type.version = .C
    · rw [if_pos hC] at h
      exact .inl ⟨hC, h⟩
    · rw [if_neg hC] at h
      refine .inr ⟨hC, ?_⟩
      by_cases hf : g.type ∈ fixedTypes
      · rw [if_pos hf] at h
        exact .inl ⟨hf, h⟩
      · rw [if_neg hf] at h
        refine .inr ⟨hf, ?_⟩
        cases app with
        | none => exact .inr ⟨rfl, h⟩
        | some a => exact .inl ⟨a, rfl, h⟩
  · simp [ht] at h

theorem app_member {a : Word} {k : String} (h : k ∈ appMembers a) :
    (a = 0x0093 ∧ k = "dab") ∨ (a = 0x4BD7 ∧ k = "radiotext_plus") ∨ (a = 0x4BD8 ∧ k = "ert_plus") ∨
    (a = 0x6552 ∧ k = "enhanced_radiotext") ∨ k = "tmc" ∨ k = "debug" ∨ k = "unknown_oda" := by
  unfold appMembers at h
  repeat' split at h
  all_goals simp_all
  all_goals tauto

theorem primary_member {t : GroupType} {k : String} (h : k ∈ primaryMembers t) :
    k ∈ ["transparent_data", "in_house_data", "debug", "tmc", "unknown_oda"] ∨
    (t = ⟨15, .A⟩ ∧ k ∈ ["long_ps", "partial_long_ps"]) := by
  unfold primaryMembers at h
  repeat' split at h
  all_goals simp_all
  all_goals tauto

theorem fixed_member {t : GroupType} {k : String} (ht : t ∈ fixedTypes) (h : k ∈ fixedMembers t) :
    ((t = ⟨0, .A⟩ ∨ t = ⟨0, .B⟩) ∧ k ∈ ["alt_frequencies_a", "alt_frequencies_b",
      "partial_alt_frequencies", "ps", "partial_ps"]) ∨
    ((t = ⟨2, .A⟩ ∨ t = ⟨2, .B⟩) ∧ k ∈ ["rt_ab", "radiotext", "partial_radiotext"]) ∨
    (t = ⟨10, .A⟩ ∧ k = "pty_name") ∨
    k ∈ ["di", "ta", "is_music", "prog_item_number", "prog_item_started", "has_linkage", "country",
      "tmc_id", "language", "slc_broadcaster_bits", "ews", "open_data_app", "tmc", "clock_time",
      "other_network", "debug"] := by
  have all : ∀ t ∈ fixedTypes, ∀ k ∈ fixedMembers t,
      ((t = ⟨0, .A⟩ ∨ t = ⟨0, .B⟩) ∧ k ∈ ["alt_frequencies_a", "alt_frequencies_b",
        "partial_alt_frequencies", "ps", "partial_ps"]) ∨
      ((t = ⟨2, .A⟩ ∨ t = ⟨2, .B⟩) ∧ k ∈ ["rt_ab", "radiotext", "partial_radiotext"]) ∨
      (t = ⟨10, .A⟩ ∧ k = "pty_name") ∨
      k ∈ ["di", "ta", "is_music", "prog_item_number", "prog_item_started", "has_linkage", "country",
        "tmc_id", "language", "slc_broadcaster_bits", "ews", "open_data_app", "tmc", "clock_time",
        "other_network", "debug"] := by decide
  exact all t ht k h

/-- Members that are not texts. -/
def otherMembers : List String :=
  ["open_data_app", "rft", "debug", "dab", "radiotext_plus", "ert_plus", "tmc", "unknown_oda",
   "transparent_data", "in_house_data", "di", "ta", "is_music", "prog_item_number", "prog_item_started",
   "has_linkage", "country", "tmc_id", "language", "slc_broadcaster_bits", "ews", "clock_time",
   "other_network"]

theorem own_text {g : Group} {app : Option Word} {k : String} (h : k ∈ ownMembers g app)
    (ho : k ∉ otherMembers) : g.hasType = true ∧
    (((g.type = ⟨0, .A⟩ ∨ g.type = ⟨0, .B⟩) ∧ k ∈ ["alt_frequencies_a", "alt_frequencies_b",
        "partial_alt_frequencies", "ps", "partial_ps"]) ∨
     ((g.type = ⟨2, .A⟩ ∨ g.type = ⟨2, .B⟩) ∧ k ∈ ["rt_ab", "radiotext", "partial_radiotext"]) ∨
     (g.type = ⟨10, .A⟩ ∧ k = "pty_name") ∨
     (g.type.version ≠ .C ∧ g.type ∉ fixedTypes ∧ app = some 0x6552 ∧ k = "enhanced_radiotext") ∨
     (g.type = ⟨15, .A⟩ ∧ app = none ∧ k ∈ ["long_ps", "partial_long_ps"])) := by
  have hsub : ∀ l : List String, (∀ x ∈ l, x ∈ otherMembers) → k ∉ l := fun l hl hx => ho (hl k hx)
  obtain ⟨ht, h | ⟨hC, ⟨hf, h⟩ | ⟨hf, ⟨a, ha, h⟩ | ⟨ha, h⟩⟩⟩⟩ := own_cases h
  · exact absurd h.2 (hsub _ (by decide))
  · refine ⟨ht, ?_⟩
    rcases fixed_member hf h with h | h | h | h
    · exact .inl h
    · exact .inr (.inl h)
    · exact .inr (.inr (.inl h))
    · exact absurd h (hsub _ (by decide))
  · rcases app_member h with h | h | h | h | h | h | h
    · exact absurd (List.mem_singleton.mpr h.2) (hsub _ (by decide))
    · exact absurd (List.mem_singleton.mpr h.2) (hsub _ (by decide))
    · exact absurd (List.mem_singleton.mpr h.2) (hsub _ (by decide))
    · exact ⟨ht, .inr (.inr (.inr (.inl ⟨hC, hf, by rw [ha, h.1], h.2⟩)))⟩
    · exact absurd (List.mem_singleton.mpr h) (hsub _ (by decide))
    · exact absurd (List.mem_singleton.mpr h) (hsub _ (by decide))
    · exact absurd (List.mem_singleton.mpr h) (hsub _ (by decide))
  · rcases primary_member h with h | h
    · exact absurd h (hsub _ (by decide))
    · exact ⟨ht, .inr (.inr (.inr (.inr ⟨h.1, ha, h.2⟩)))⟩

theorem own_ps {g : Group} {app : Option Word} (h : "ps" ∈ ownMembers g app) :
    g.hasType = true ∧ (g.type = ⟨0, .A⟩ ∨ g.type = ⟨0, .B⟩) := by
  obtain ⟨ht, h | h | h | h | h⟩ := own_text h (by decide)
  · exact ⟨ht, h.1⟩
  · exact absurd h.2 (by decide)
  · exact absurd h.2 (by decide)
  · exact absurd h.2.2.2 (by decide)
  · exact absurd h.2.2 (by decide)

/-! ### Programme service name -/

theorem ps_history {env : Env} (hk : env.tmc.KeysOk) {o : Options} {w : Nat} {p : Word} {gs : List Group}
    {st : Station} {ls : List (Option Line)}
    (h : Station.receive env (Station.withPI o w p) gs = some (st, ls)) :
    st.ps = (RDSString.new 8).ops env.ucs2 (history psOps (decodedGroups gs ls)) := by
  refine slots_induction hk (fun ds s => s.ps = (RDSString.new 8).ops env.ucs2 (history psOps ds))
    rfl ?_ ?_ gs st ls h
  · intro ds s g ht ih
    rw [history_snoc, psOps, if_neg (by rw [ht]; simp), List.append_nil]
    exact ih
  · intro ds s g ht ih
    rw [slotsNext_ps, history_snoc, psOps]
    by_cases hc : (g.type = ⟨0, .A⟩ ∨ g.type = ⟨0, .B⟩) ∧ g.has .b3 = true ∧ g.has .b4 = true
    · rw [if_pos hc, if_pos ⟨ht, hc.1, (usable_iff g).mpr hc.2⟩, set2_twoChars, RDSString.ops_append, ← ih,
        low_bits, Nat.mul_comm]
      rfl
    · rw [if_neg hc, if_neg (fun hx => hc ⟨hx.2.1, (usable_iff g).mp hx.2.2⟩), List.append_nil]
      exact ih

theorem dispatch_type0 {env : Env} {st st' : Station} {g : Group} {body : List JOp}
    (ht : g.type = ⟨0, .A⟩ ∨ g.type = ⟨0, .B⟩) (h : st.dispatch env g = some (st', body)) :
    st.decodeType0 env g = some (st', body) := by
  unfold Station.dispatch at h
  rcases ht with ht | ht <;> simpa [ht] using h

/-- The operations of a type 0 group end with those of the name. -/
theorem type0_shape {env : Env} {st st' : Station} {g : Group} {body : List JOp}
    (h : st.decodeType0 env g = some (st', body)) :
    ∃ pre, KeysIn ["di", "ta", "is_music", "alt_frequencies_a", "alt_frequencies_b",
        "partial_alt_frequencies"] pre ∧
      ((g.has .b3 = false ∧ body = pre) ∨ (g.has .b3 = true ∧ ∃ st1,
        body = pre ++ (Station.decodePs env st1 g).2 ∧ st' = (Station.decodePs env st1 g).1)) := by
  unfold Station.decodeType0 at h
  simp only [Option.bind_eq_bind, Option.pure_def] at h
  obtain ⟨key, -, h⟩ := Option.bind_eq_some_iff.mp h
  split at h
  · rename_i h3
    obtain ⟨af, -, h⟩ := Option.bind_eq_some_iff.mp h
    exact ⟨body, by rw [some_snd h]; keys_ok, .inl ⟨by simpa using h3, rfl⟩⟩
  rename_i h3
  have h3 : g.has .b3 = true := by simpa using h3
  split at h
  · obtain ⟨r, -, h⟩ := Option.bind_eq_some_iff.mp h
    exact ⟨_, keys_append (by keys_ok) (keys_mono (afOps_keys r.2) (by simp)), .inr ⟨h3, _,
      some_snd h, (some_fst h).symm⟩⟩
  · exact ⟨_, by keys_ok, .inr ⟨h3, _, some_snd h, (some_fst h).symm⟩⟩

/-- The programme service name that is printed. -/
theorem ps_member {env : Env} (hk : env.tmc.KeysOk) {o : Options} {w : Nat} {p : Word} {gs : List Group}
    {st : Station} {ls : List (Option Line)}
    (h : Station.receive env (Station.withPI o w p) gs = some (st, ls)) {g : Group} {st' : Station} {j : J}
    (hu : st.updateAndPrint env g = some (st', some (.json j))) :
    let s := (RDSString.new 8).ops env.ucs2 (history psOps (decodedGroups gs ls ++ [g]))
    j.at? ["ps"] = if psOps (decodedGroups gs ls) g ≠ [] ∧ s.isComplete = true then
      some (.str s.lastCompleteString) else none := by
  obtain ⟨hd, body, hb, hkd, hkb, hrec, hdec, hdisp, ho, -⟩ := text_parts hk h hu
  have hps := ps_history hk hrec
  rw [hdec] at hps
  dsimp only
  rw [← hps]
  by_cases hc : g.hasType = true ∧ (g.type = ⟨0, .A⟩ ∨ g.type = ⟨0, .B⟩) ∧ RtUsable g = true
  · have hne : psOps (decodedGroups gs ls) g ≠ [] := by
      rw [psOps, if_pos hc]; simp [twoChars]
    obtain ⟨ht, hty, hus⟩ := hc
    obtain ⟨h3, h4⟩ := (usable_iff g).mp hus
    obtain ⟨b, hd0⟩ := hdisp ht
    have hd1 := dispatch_type0 hty hd0
    obtain ⟨pre, hkp, hcase⟩ := type0_shape hd1
    have hpre := keysIn_away hkp "ps" [] (by decide)
    obtain ⟨-, st1, hbody, hst⟩ := hcase.resolve_left (fun hx => by rw [h3] at hx; cases hx.1)
    unfold Station.decodePs at hbody hst
    simp only [h4, Bool.not_true, Bool.false_eq_true, if_false] at hbody hst
    have hp' : st'.ps = st1.ps.set2 env.ucs2 (getBits 2 (g.get .b2) 0 * 2) (getUint8 (g.get .b4) 8)
        (getUint8 (g.get .b4) 0) := by rw [hst]
    rw [← hp'] at hbody
    by_cases hcm : st'.ps.isComplete = true
    · rw [if_pos ⟨hne, hcm⟩]
      rw [if_pos hcm] at hbody
      rw [hbody] at hb
      exact member_set hb (by simp)
    · rw [if_neg (fun hx => hcm hx.2)]
      rw [if_neg hcm] at hbody
      refine member_none hb hkd (by decide) ?_
      intro op hop
      rw [hbody] at hop
      rcases List.mem_append.mp hop with hop | hop
      · exact hpre op hop
      · split at hop
        · simp only [List.mem_singleton] at hop
          rw [hop]
          cases RDSString.str env.ucs2 st'.ps with
          | none => rfl
          | some t => rfl
        · cases hop
  · have hnil : psOps (decodedGroups gs ls) g = [] := by rw [psOps, if_neg hc]
    rw [if_neg (fun hx => hx.1 hnil)]
    refine member_none hb hkd (by decide) ?_
    by_cases hty : g.hasType = true ∧ (g.type = ⟨0, .A⟩ ∨ g.type = ⟨0, .B⟩)
    · obtain ⟨b, hd0⟩ := hdisp hty.1
      have hd1 := dispatch_type0 hty.2 hd0
      obtain ⟨pre, hkp, hcase⟩ := type0_shape hd1
      have hpre := keysIn_away hkp "ps" [] (by decide)
      rcases hcase with ⟨-, hbody⟩ | ⟨h3, st1, hbody, -⟩
      · rw [hbody]; exact hpre
      · have h4 : g.has .b4 = false := by
          cases h4 : g.has .b4
          · rfl
          · exact absurd ⟨hty.1, hty.2, (usable_iff g).mpr ⟨h3, h4⟩⟩ hc
        rw [hbody, Station.decodePs, h4]
        simpa using hpre
    · exact keysIn_away hkb "ps" [] (fun hx => hty (own_ps hx))

/-- **C63**, the programme service name. Whatever groups a station sent before: a printed name
consists of received characters, each the latest received for its position, at or after the latest
reception of the first; and it is a whole text. -/
theorem C63_ps (env : Env) (hk : env.tmc.KeysOk) (o : Options) (w : Nat) (p : Word) (gs : List Group)
    (st : Station) (ls : List (Option Line))
    (h : Station.receive env (Station.withPI o w p) gs = some (st, ls)) (g : Group) (st' : Station) (j : J)
    (hu : st.updateAndPrint env g = some (st', some (.json j))) (v : J) (hj : j.at? ["ps"] = some v) :
    psOps (decodedGroups gs ls) g ≠ [] ∧ ∃ bs, WholeText 8 bs ∧
      (∀ i b, bs[i]? = some b → LatestByte (history psOps (decodedGroups gs ls ++ [g])) i b) ∧
      v = .str (rdsText (bs.map display)) := by
  rw [ps_member hk h hu] at hj
  split at hj
  · rename_i hc
    obtain ⟨bs, h1, h2, -, h3⟩ := C24_complete_text_latest_bytes env.ucs2 8 (by decide) .basic
      (history psOps (decodedGroups gs ls ++ [g])) hc.2
    refine ⟨hc.1, bs, h1, h2, ?_⟩
    rw [← Option.some.inj hj]
    exact congrArg J.str (Option.some.inj h3).symm
  · cases hj

/-- **C63**, the programme service name is printed. If the characters received so far end in a whole
name in order (with anything after its end), the name is printed with its last group. -/
theorem C63_ps_complete (env : Env) (hk : env.tmc.KeysOk) (o : Options) (w : Nat) (p : Word)
    (gs : List Group) (st : Station) (ls : List (Option Line))
    (h : Station.receive env (Station.withPI o w p) gs = some (st, ls)) (g : Group) (st' : Station) (j : J)
    (hu : st.updateAndPrint env g = some (st', some (.json j)))
    (hg : psOps (decodedGroups gs ls) g ≠ []) (earlier : List TextOp) (bs : List Byte) (hw : WholeText 8 bs)
    (later : List (Nat × Byte)) (hl : ∀ x ∈ later, bs.length ≤ x.1)
    (he : history psOps (decodedGroups gs ls ++ [g]) =
      earlier ++ (inOrder 0 bs ++ later.map fun x => .recv x.1 x.2)) :
    j.at? ["ps"] = some (.str (rdsText (bs.map display))) := by
  rw [ps_member hk h hu, he, RDSString.ops_append]
  have inv : TextInv env.ucs2 8 .basic earlier ((RDSString.new 8).ops env.ucs2 earlier) :=
    textInv env.ucs2 8 (by decide) .basic earlier
  obtain ⟨h1, -, h3⟩ := C25_characters_after_the_end env.ucs2 ((RDSString.new 8).ops env.ucs2 earlier) bs
    (by rw [inv.len]; exact hw) (rdsText (bs.map display))
    (by rw [inv.enc]; rfl) later hl
  rw [if_pos ⟨hg, h1⟩, h3]

/-! ### Programme type name -/

theorem flag_bit (g : Group) : getBool (g.get .b2) 4 = rtFlag g := getBool_flag g

theorem lastFlag_snoc (kind : Group → Bool) (gs : List Group) (g : Group) :
    lastFlag kind (gs ++ [g]) = if kind g then rtFlag g else lastFlag kind gs := by
  unfold lastFlag
  rw [List.filter_append]
  cases hg : kind g <;> simp [hg]

theorem ptyName_history {env : Env} (hk : env.tmc.KeysOk) {o : Options} {w : Nat} {p : Word}
    {gs : List Group} {st : Station} {ls : List (Option Line)}
    (h : Station.receive env (Station.withPI o w p) gs = some (st, ls)) :
    st.ptyname.text = (RDSString.new 8).ops env.ucs2 (history ptyNameOps (decodedGroups gs ls)) ∧
    st.ptyname.ab = lastFlag ptyNameGroup (decodedGroups gs ls) := by
  refine slots_induction hk (fun ds s =>
    s.ptyname.text = (RDSString.new 8).ops env.ucs2 (history ptyNameOps ds) ∧
      s.ptyname.ab = lastFlag ptyNameGroup ds) ⟨rfl, rfl⟩ ?_ ?_ gs st ls h
  · intro ds s g ht ih
    have : ptyNameGroup g = false := by simp [ptyNameGroup, ht]
    rw [history_snoc, lastFlag_snoc, ptyNameOps, this]
    simpa using ih
  · intro ds s g ht ih
    rw [slotsNext_ptyname, history_snoc, lastFlag_snoc, ptyNameOps]
    by_cases hc : g.type = ⟨10, .A⟩ ∧ g.has .b3 = true ∧ g.has .b4 = true
    · have hp : ptyNameGroup g = true := by
        unfold ptyNameGroup
        rw [ht, (usable_iff g).mpr hc.2, decide_eq_true hc.1]
        rfl
      rw [if_pos hc, if_pos hp, if_pos hp]
      dsimp only
      rw [set2_twoChars, set2_twoChars, flag_bit, low_bits, RDSString.ops_append, RDSString.ops_append,
        RDSString.ops_append, ← ih.1, ← ih.2, Nat.mul_comm]
      refine ⟨?_, rfl⟩
      have hne : (s.ptyname.ab != rtFlag g) = (rtFlag g != s.ptyname.ab) := by
        cases s.ptyname.ab <;> cases rtFlag g <;> rfl
      rw [hne]
      cases rtFlag g != s.ptyname.ab <;> rfl
    · have hp : ptyNameGroup g = false := by
        cases hp : ptyNameGroup g with
        | false => rfl
        | true =>
          unfold ptyNameGroup at hp
          simp only [Bool.and_eq_true, decide_eq_true_eq] at hp
          exact absurd ⟨hp.1.2, (usable_iff g).mp hp.2⟩ hc
      rw [if_neg hc, hp]
      simpa using ih

theorem own_ptyName {g : Group} {app : Option Word} (h : "pty_name" ∈ ownMembers g app) :
    g.hasType = true ∧ g.type = ⟨10, .A⟩ := by
  obtain ⟨ht, h | h | h | h | h⟩ := own_text h (by decide)
  · exact absurd h.2 (by decide)
  · exact absurd h.2 (by decide)
  · exact ⟨ht, h.1⟩
  · exact absurd h.2.2.2 (by decide)
  · exact absurd h.2.2 (by decide)

/-- The programme type name that is printed. -/
theorem ptyName_member {env : Env} (hk : env.tmc.KeysOk) {o : Options} {w : Nat} {p : Word}
    {gs : List Group} {st : Station} {ls : List (Option Line)}
    (h : Station.receive env (Station.withPI o w p) gs = some (st, ls)) {g : Group} {st' : Station} {j : J}
    (hu : st.updateAndPrint env g = some (st', some (.json j))) :
    let s := (RDSString.new 8).ops env.ucs2 (history ptyNameOps (decodedGroups gs ls ++ [g]))
    j.at? ["pty_name"] = if ptyNameGroup g = true ∧ s.isComplete = true then
      some (.str s.lastCompleteString) else none := by
  obtain ⟨hd, body, hb, hkd, hkb, hrec, hdec, hdisp, -, -⟩ := text_parts hk h hu
  have hps := (ptyName_history hk hrec).1
  rw [hdec] at hps
  dsimp only
  rw [← hps]
  by_cases hty : g.hasType = true ∧ g.type = ⟨10, .A⟩
  · obtain ⟨b, hd0⟩ := hdisp hty.1
    have hd1 : some (Station.decodeType10A env { st with lastGroupHadPi := b } g) = some (st', body) := by
      unfold Station.dispatch at hd0
      simpa [hty.2] using hd0
    unfold Station.decodeType10A at hd1
    split at hd1
    · rename_i hx
      have hp : ptyNameGroup g = false := by
        cases hp : ptyNameGroup g with
        | false => rfl
        | true =>
          unfold ptyNameGroup at hp
          simp only [Bool.and_eq_true, decide_eq_true_eq] at hp
          obtain ⟨h3, h4⟩ := (usable_iff g).mp hp.2
          rw [h3, h4] at hx
          cases hx
      rw [hp, if_neg (by simp)]
      refine member_none hb hkd (by decide) ?_
      rw [some_snd hd1]
      simp
    · rename_i hx
      have hp : ptyNameGroup g = true := by
        unfold ptyNameGroup
        have : g.has .b3 = true ∧ g.has .b4 = true := by
          cases h3 : g.has .b3 <;> cases h4 : g.has .b4 <;> simp [h3, h4] at hx ⊢
        rw [hty.1, (usable_iff g).mpr this, decide_eq_true hty.2]
        rfl
      rw [hp]
      dsimp only at hd1
      have hst := (some_fst hd1).symm
      have hbody := some_snd hd1
      have htext : st'.ptyname.text = _ := congrArg (fun s : Station => s.ptyname.text) hst
      dsimp only at htext
      rw [← htext] at hbody
      by_cases hcm : st'.ptyname.text.isComplete = true
      · rw [if_pos ⟨rfl, hcm⟩]
        rw [if_pos hcm] at hbody
        rw [hbody] at hb
        exact member_set (pre := []) hb (by simp)
      · rw [if_neg (fun hx => hcm hx.2)]
        rw [if_neg hcm] at hbody
        refine member_none hb hkd (by decide) ?_
        rw [hbody]
        simp
  · have hp : ptyNameGroup g = false := by
      cases hp : ptyNameGroup g with
      | false => rfl
      | true =>
        unfold ptyNameGroup at hp
        simp only [Bool.and_eq_true, decide_eq_true_eq] at hp
        exact absurd hp.1 hty
    rw [hp, if_neg (by simp)]
    exact member_none hb hkd (by decide) (keysIn_away hkb "pty_name" [] (fun hx => hty (own_ptyName hx)))

/-- **C63**, the programme type name. A printed name is a whole text of the characters latest
received, all since the latest change of the A/B flag. -/
theorem C63_programme_type_name (env : Env) (hk : env.tmc.KeysOk) (o : Options) (w : Nat) (p : Word)
    (gs : List Group) (st : Station) (ls : List (Option Line))
    (h : Station.receive env (Station.withPI o w p) gs = some (st, ls)) (g : Group) (st' : Station) (j : J)
    (hu : st.updateAndPrint env g = some (st', some (.json j))) (v : J)
    (hj : j.at? ["pty_name"] = some v) :
    ptyNameGroup g = true ∧ ∃ bs, WholeText 8 bs ∧
      (∀ i b, bs[i]? = some b → LatestByte (history ptyNameOps (decodedGroups gs ls ++ [g])) i b) ∧
      v = .str (rdsText (bs.map display)) := by
  rw [ptyName_member hk h hu] at hj
  split at hj
  · rename_i hc
    obtain ⟨bs, h1, h2, -, h3⟩ := C24_complete_text_latest_bytes env.ucs2 8 (by decide) .basic
      (history ptyNameOps (decodedGroups gs ls ++ [g])) hc.2
    refine ⟨hc.1, bs, h1, h2, ?_⟩
    rw [← Option.some.inj hj]
    exact congrArg J.str (Option.some.inj h3).symm
  · cases hj

/-- **C63**, the programme type name is printed when it was received in order. -/
theorem C63_programme_type_name_complete (env : Env) (hk : env.tmc.KeysOk) (o : Options) (w : Nat)
    (p : Word) (gs : List Group) (st : Station) (ls : List (Option Line))
    (h : Station.receive env (Station.withPI o w p) gs = some (st, ls)) (g : Group) (st' : Station) (j : J)
    (hu : st.updateAndPrint env g = some (st', some (.json j))) (hg : ptyNameGroup g = true)
    (earlier : List TextOp) (bs : List Byte) (hw : WholeText 8 bs)
    (later : List (Nat × Byte)) (hl : ∀ x ∈ later, bs.length ≤ x.1)
    (he : history ptyNameOps (decodedGroups gs ls ++ [g]) =
      earlier ++ (inOrder 0 bs ++ later.map fun x => .recv x.1 x.2)) :
    j.at? ["pty_name"] = some (.str (rdsText (bs.map display))) := by
  rw [ptyName_member hk h hu, he, RDSString.ops_append]
  have inv : TextInv env.ucs2 8 .basic earlier ((RDSString.new 8).ops env.ucs2 earlier) :=
    textInv env.ucs2 8 (by decide) .basic earlier
  obtain ⟨h1, -, h3⟩ := C25_characters_after_the_end env.ucs2 ((RDSString.new 8).ops env.ucs2 earlier) bs
    (by rw [inv.len]; exact hw) (rdsText (bs.map display))
    (by rw [inv.enc]; rfl) later hl
  rw [if_pos ⟨hg, h1⟩, h3]

/-! ### Long programme service name -/

/-- The empty long name. -/
def emptyLongPs : RDSString := { RDSString.new 32 with encoding := .utf8 }

theorem longPs_history {env : Env} (hk : env.tmc.KeysOk) {o : Options} {w : Nat} {p : Word}
    {gs : List Group} {st : Station} {ls : List (Option Line)}
    (h : Station.receive env (Station.withPI o w p) gs = some (st, ls)) :
    st.longPs = emptyLongPs.ops env.ucs2 (history longPsOps (decodedGroups gs ls)) := by
  refine slots_induction hk (fun ds s => s.longPs = emptyLongPs.ops env.ucs2 (history longPsOps ds))
    rfl ?_ ?_ gs st ls h
  · intro ds s g ht ih
    rw [history_snoc, longPsOps, if_neg (by rw [ht]; simp), List.append_nil]
    exact ih
  · intro ds s g ht ih
    rw [slotsNext_longPs, history_snoc, longPsOps]
    by_cases hc : g.type = ⟨15, .A⟩ ∧ assignedApp ds g.type = none
    · rw [if_pos hc, if_pos (c := g.hasType = true ∧ _) ⟨ht, hc⟩]
      dsimp only
      rw [set2_twoChars, set2_twoChars, RDSString.ops_append, ← ih, RDSString.ops_append, low_bits,
        Nat.mul_comm]
      have e3 : g.has .b3 = g.block3.isReceived := rfl
      have e4 : g.has .b4 = g.block4.isReceived := rfl
      rw [e3, e4]
      cases g.block3.isReceived <;> cases g.block4.isReceived <;> rfl
    · rw [if_neg hc, if_neg (fun hx => hc hx.2), List.append_nil]
      exact ih

theorem own_longPs {g : Group} {app : Option Word} (h : "long_ps" ∈ ownMembers g app) :
    g.hasType = true ∧ g.type = ⟨15, .A⟩ ∧ app = none := by
  obtain ⟨ht, h | h | h | h | h⟩ := own_text h (by decide)
  · exact absurd h.2 (by decide)
  · exact absurd h.2 (by decide)
  · exact absurd h.2 (by decide)
  · exact absurd h.2.2.2 (by decide)
  · exact ⟨ht, h.1, h.2.1⟩

/-- The long name that is printed. -/
theorem longPs_member {env : Env} (hk : env.tmc.KeysOk) {o : Options} {w : Nat} {p : Word}
    {gs : List Group} {st : Station} {ls : List (Option Line)}
    (h : Station.receive env (Station.withPI o w p) gs = some (st, ls)) {g : Group} {st' : Station} {j : J}
    (hu : st.updateAndPrint env g = some (st', some (.json j))) :
    let s := emptyLongPs.ops env.ucs2 (history longPsOps (decodedGroups gs ls ++ [g]))
    j.at? ["long_ps"] = if longPsOps (decodedGroups gs ls) g ≠ [] ∧ s.isComplete = true then
      some (.str (rtrim s.lastCompleteString)) else none := by
  obtain ⟨hd, body, hb, hkd, hkb, hrec, hdec, hdisp, -, hoda⟩ := text_parts hk h hu
  have hps := longPs_history hk hrec
  rw [hdec] at hps
  dsimp only
  rw [← hps]
  by_cases hty : g.hasType = true ∧ g.type = ⟨15, .A⟩ ∧ assignedApp (decodedGroups gs ls) g.type = none
  · obtain ⟨b, hd0⟩ := hdisp hty.1
    have hd1 : some (Station.decodeType15A env { st with lastGroupHadPi := b } g) = some (st', body) := by
      unfold Station.dispatch at hd0
      have := hoda g.type
      rw [hty.2.2] at this
      rw [hty.2.1] at this
      simpa [hty.2.1, this] using hd0
    have hne : longPsOps (decodedGroups gs ls) g ≠ [] ↔ (g.has .b3 || g.has .b4) = true := by
      rw [longPsOps, if_pos hty]
      have e3 : g.has .b3 = g.block3.isReceived := rfl
      have e4 : g.has .b4 = g.block4.isReceived := rfl
      rw [e3, e4]
      cases g.block3.isReceived <;> cases g.block4.isReceived <;> simp [twoChars]
    unfold Station.decodeType15A at hd1
    dsimp only at hd1
    have hst := (some_fst hd1).symm
    have hbody := some_snd hd1
    have htext : st'.longPs = _ := congrArg (fun s : Station => s.longPs) hst
    dsimp only at htext
    rw [← htext] at hbody
    by_cases hcm : (g.has .b3 || g.has .b4) = true ∧ st'.longPs.isComplete = true
    · rw [if_pos ⟨hne.mpr hcm.1, hcm.2⟩]
      rw [if_pos (by rw [hcm.1, hcm.2]; rfl)] at hbody
      rw [hbody] at hb
      exact member_set (pre := []) hb (by simp)
    · rw [if_neg (fun hx => hcm ⟨hne.mp hx.1, hx.2⟩)]
      rw [if_neg (fun hx => hcm (by simpa [Bool.and_eq_true] using hx))] at hbody
      refine member_none hb hkd (by decide) ?_
      intro op hop
      rw [hbody] at hop
      split at hop
      · simp only [List.mem_singleton] at hop
        rw [hop]
        cases RDSString.str env.ucs2 st'.longPs with
        | none => rfl
        | some t => rfl
      · cases hop
  · rw [longPsOps, if_neg hty, if_neg (fun hx => hx.1 rfl)]
    exact member_none hb hkd (by decide) (keysIn_away hkb "long_ps" [] (fun hx => hty (own_longPs hx)))

/-- **C63**, the long programme service name: a whole text of at most 32 bytes of UTF-8, as received,
without blanks at its end. -/
theorem C63_long_ps (env : Env) (hk : env.tmc.KeysOk) (o : Options) (w : Nat) (p : Word)
    (gs : List Group) (st : Station) (ls : List (Option Line))
    (h : Station.receive env (Station.withPI o w p) gs = some (st, ls)) (g : Group) (st' : Station) (j : J)
    (hu : st.updateAndPrint env g = some (st', some (.json j))) (v : J)
    (hj : j.at? ["long_ps"] = some v) :
    longPsOps (decodedGroups gs ls) g ≠ [] ∧ ∃ bs, WholeText 32 bs ∧
      (∀ i b, bs[i]? = some b → LatestByte (history longPsOps (decodedGroups gs ls ++ [g])) i b) ∧
      v = .str (rtrim (bs.map display)) := by
  rw [longPs_member hk h hu] at hj
  split at hj
  · rename_i hc
    obtain ⟨bs, h1, h2, -, h3⟩ := C24_complete_text_latest_bytes env.ucs2 32 (by decide) .utf8
      (history longPsOps (decodedGroups gs ls ++ [g])) hc.2
    refine ⟨hc.1, bs, h1, h2, ?_⟩
    rw [← Option.some.inj hj]
    exact congrArg (fun t => J.str (rtrim t)) (Option.some.inj h3).symm
  · cases hj

/-- **C63**, the long programme service name is printed when it was received in order. -/
theorem C63_long_ps_complete (env : Env) (hk : env.tmc.KeysOk) (o : Options) (w : Nat)
    (p : Word) (gs : List Group) (st : Station) (ls : List (Option Line))
    (h : Station.receive env (Station.withPI o w p) gs = some (st, ls)) (g : Group) (st' : Station) (j : J)
    (hu : st.updateAndPrint env g = some (st', some (.json j)))
    (hg : longPsOps (decodedGroups gs ls) g ≠ []) (earlier : List TextOp) (bs : List Byte)
    (hw : WholeText 32 bs) (later : List (Nat × Byte)) (hl : ∀ x ∈ later, bs.length ≤ x.1)
    (he : history longPsOps (decodedGroups gs ls ++ [g]) =
      earlier ++ (inOrder 0 bs ++ later.map fun x => .recv x.1 x.2)) :
    j.at? ["long_ps"] = some (.str (rtrim (bs.map display))) := by
  rw [longPs_member hk h hu, he, RDSString.ops_append]
  have inv : TextInv env.ucs2 32 .utf8 earlier (emptyLongPs.ops env.ucs2 earlier) :=
    textInv env.ucs2 32 (by decide) .utf8 earlier
  obtain ⟨h1, -, h3⟩ := C25_characters_after_the_end env.ucs2 (emptyLongPs.ops env.ucs2 earlier) bs
    (by rw [inv.len]; exact hw) (bs.map display)
    (by rw [inv.enc]; rfl) later hl
  rw [if_pos ⟨hg, h1⟩, h3]

/-! ### Examples -/

/-- Four 0A groups with the name "REDSEA 1". -/
def demoPsGroups : List Group :=
  [demoGroup 0x6204 0x0000 0xE0CD 0x5245, demoGroup 0x6204 0x0001 0xE0CD 0x4453,
   demoGroup 0x6204 0x0002 0xE0CD 0x4541, demoGroup 0x6204 0x0003 0xE0CD 0x2031]

example : history psOps demoPsGroups = inOrder 0 (ascii "REDSEA 1") ∧ WholeText 8 (ascii "REDSEA 1") ∧
    demoMember (demoPsGroups.take 3) (demoGroup 0x6204 0x0003 0xE0CD 0x2031) ["ps"] =
      some (ascii "REDSEA 1") := by
  unfold WholeText
  decide +kernel

/-- The third group is received again with another text: not printed before it is complete again. -/
example : demoMember demoPsGroups (demoGroup 0x6204 0x0000 0xE0CD 0x4142) ["ps"] = none ∧
    demoMember (demoPsGroups ++ demoPsGroups.take 2 ++ [demoGroup 0x6204 0x0002 0xE0CD 0x4242])
      (demoGroup 0x6204 0x0003 0xE0CD 0x2031) ["ps"] = some (ascii "REDSBB 1") := by decide +kernel

/-- A 10A group changes the flag: the first half of the old name is not used. -/
example : history ptyNameOps [demoGroup 0x6204 0xA000 0x4A61 0x7A7A, demoGroup 0x6204 0xA010 0x426C 0x7565,
      demoGroup 0x6204 0xA011 0x7320 0x2020] =
      [.recv 0 0x4A, .recv 1 0x61, .recv 2 0x7A, .recv 3 0x7A, .clear] ++ inOrder 0 (ascii "Blues   ") ∧
    demoMember [demoGroup 0x6204 0xA000 0x4A61 0x7A7A, demoGroup 0x6204 0xA010 0x426C 0x7565]
      (demoGroup 0x6204 0xA011 0x7320 0x2020) ["pty_name"] = some (ascii "Blues   ") ∧
    demoMember [demoGroup 0x6204 0xA000 0x4A61 0x7A7A] (demoGroup 0x6204 0xA011 0x7320 0x2020) ["pty_name"] =
      none := by decide +kernel

/-- A long name with a two-byte character, ended by a carriage return. -/
example : history longPsOps [demoGroup 0x6204 0xF000 0x4CC3 0xA458, demoGroup 0x6204 0xF001 0x590D 0x2020] =
      inOrder 0 [0x4C, 0xC3, 0xA4, 0x58, 0x59, 0x0D] ++ [.recv 6 0x20, .recv 7 0x20] ∧
    WholeText 32 [0x4C, 0xC3, 0xA4, 0x58, 0x59, 0x0D] ∧
    demoMember [demoGroup 0x6204 0xF000 0x4CC3 0xA458] (demoGroup 0x6204 0xF001 0x590D 0x2020) ["long_ps"] =
      some [0x4C, 0xC3, 0xA4, 0x58, 0x59] := by
  unfold WholeText
  decide +kernel

end Redsea
