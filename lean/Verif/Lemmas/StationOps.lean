import Verif.Lemmas.Json
import Verif.Lemmas.RadioTextWindow
import Verif.Props.AltFreq
import Verif.Props.Rft
import Verif.Props.Tables

/-
Every decoder of a station succeeds on every group, keeps the station in good order, and its
operations on the JSON object follow the plan of Lemmas/Json.lean.
-/

namespace Redsea

theorem debugOp_ok (s : Str) : (debugOp s).Ok := ok_push _ (distinct_str s) (by decide)

theorem ok_bytes {p : List String} (l : List Byte) (h : freeLeaf p = true) :
    (JOp.set p (Station.byteArray l)).Ok := ok_arr _ h (distinct_map _ _ fun _ => distinct_int _)

theorem ok_segment {p : List String} (g : Group) (h : freeLeaf p = true) :
    (JOp.set p (Station.segmentData g)).Ok := ok_arr _ h (distinct_map _ _ fun _ => distinct_int _)

/-- Shows that a path is planned. -/
macro "path_ok" : tactic => `(tactic| first
  | decide
  | simp [freeLeaf, leafPath, freePath, reservedKeys, prefixesOk, objectPaths, arrayPaths])

/-- Shows that the listed operations follow the plan. -/
macro "ops_ok" : tactic => `(tactic| (
  try dsimp only
  repeat' first
    | with_reducible exact opsOk_nil
    | with_reducible refine (opsOk_cons _ _).2 ⟨?_, ?_⟩
    | with_reducible refine (opsOk_append _ _).2 ⟨?_, ?_⟩
    | with_reducible refine opsOk_ite _ _ _ ?_ ?_
    | (with_reducible refine opsOk_map _ _ ?_; intro _)
    | (with_reducible refine opsOk_toList _ _ ?_; intro _)
    | with_reducible exact debugOp_ok _
    | with_reducible refine ok_str _ ?_
    | with_reducible refine ok_int _ ?_
    | with_reducible refine ok_bool _ ?_
    | with_reducible refine ok_arr _ ?_ ?_
    | with_reducible refine ok_push _ ?_ ?_
    | with_reducible exact distinct_str _
    | with_reducible exact distinct_int _
    | with_reducible exact distinct_float _
    | with_reducible refine distinct_pair _ _ _ _ (by decide) ?_ ?_
    | (with_reducible refine distinct_map _ _ ?_; intro _)
    | with_reducible refine ok_bytes _ ?_
    | with_reducible refine ok_segment _ ?_
    | (show _ = true; path_ok)))

/-- States of a traffic message service in good order. -/
structure TMCService.Good (s : TMCService) : Prop where
  ltcc : s.ltcc < 16
  ps : s.ps.encoding = .basic

/-- States of a station in good order. -/
structure Station.Good (st : Station) : Prop where
  af : ∃ codes, AfOrigin codes st.altFreq
  eonAf : ∀ p, AfWF (st.eonAf p)
  rftLen : st.rftFiles.length = 16
  rft : ∀ f ∈ st.rftFiles, ∃ evs outs, RftInv evs outs f
  ps : st.ps.encoding = .basic
  longPs : st.longPs.encoding = .utf8
  radiotext : st.radiotext.text.encoding = .basic
  ptyname : st.ptyname.text.encoding = .basic
  fullTdc : st.fullTdc.encoding = .basic
  eonPs : ∀ p t, st.eonPs p = some t → t.encoding = .basic
  tmc : st.tmc.Good

/-- The keys for encrypted services are as large as the shifts of `decrypt` allow. -/
def TmcEnv.KeysOk (env : TmcEnv) : Prop :=
  ∀ i k, env.serviceKey i = some k →
    k.xorstart.toNat < 32 ∧ k.xorval.toNat * 2 ^ k.xorstart.toNat < 2 ^ 32

/-- What a decoder leaves alone. `oda` and `eon` are set for decoders that may change the
assignment of open data applications and the data of other networks. -/
structure Frame (oda eon : Bool) (a b : Station) : Prop where
  pi : b.pi = a.pi
  hasPi : b.hasPi = a.hasPi
  options : b.options = a.options
  whichChannel : b.whichChannel = a.whichChannel
  lastGroupHadPi : b.lastGroupHadPi = a.lastGroupHadPi
  oda : oda = false → b.odaForGroup = a.odaForGroup
  eon : eon = false → b.eonPs = a.eonPs ∧ b.eonAf = a.eonAf

theorem Frame.weaken {oda eon oda' eon' : Bool} {a b : Station} (h : Frame oda eon a b)
    (h1 : oda = true → oda' = true) (h2 : eon = true → eon' = true) : Frame oda' eon' a b :=
  ⟨h.pi, h.hasPi, h.options, h.whichChannel, h.lastGroupHadPi,
    fun e => h.oda (by cases oda; rfl; simp [h1 rfl] at e),
    fun e => h.eon (by cases eon; rfl; simp [h2 rfl] at e)⟩

/-- A decoder's result: it succeeds, the station is in good order, the operations are planned. -/
def Fine (oda eon : Bool) (st0 : Station) (o : Option (Station × List JOp)) : Prop :=
  ∃ st ops, o = some (st, ops) ∧ st.Good ∧ OpsOk ops ∧ Frame oda eon st0 st

theorem Fine.weaken {oda eon oda' eon' : Bool} {st0 : Station} {o : Option (Station × List JOp)}
    (h : Fine oda eon st0 o)
    (h1 : oda = true → oda' = true) (h2 : eon = true → eon' = true) : Fine oda' eon' st0 o := by
  obtain ⟨st, ops, h3, h4, h5, h6⟩ := h
  exact ⟨st, ops, h3, h4, h5, h6.weaken h1 h2⟩

theorem fine_some {oda eon : Bool} {st0 st : Station} {ops : List JOp} (h : st.Good) (h2 : OpsOk ops)
    (h3 : Frame oda eon st0 st := by
      exact ⟨rfl, rfl, rfl, rfl, rfl, by (first | exact fun _ => rfl | exact fun h => by cases h),
        by (first | exact fun _ => ⟨rfl, rfl⟩ | exact fun h => by cases h)⟩) :
    Fine oda eon st0 (some (st, ops)) := ⟨st, ops, rfl, h, h2, h3⟩

theorem fine_ite {oda eon : Bool} {st0 : Station} {c : Prop} [Decidable c]
    {a b : Option (Station × List JOp)} (ha : c → Fine oda eon st0 a)
    (hb : ¬ c → Fine oda eon st0 b) : Fine oda eon st0 (if c then a else b) := by
  by_cases h : c
  · rw [if_pos h]; exact ha h
  · rw [if_neg h]; exact hb h

theorem afWF_new : AfWF {} := ⟨by simp, Nat.le_refl _, by decide, by simp⟩

theorem good_unknown (o : Options) (w : Nat) : (Station.unknown o w).Good where
  af := ⟨[], afWF_new, by simp [Station.unknown]⟩
  eonAf := fun _ => afWF_new
  rftLen := rfl
  rft := by
    intro f hf
    have : f = {} := List.eq_of_mem_replicate hf
    subst this
    exact ⟨[], [], rftInv_init⟩
  ps := rfl
  longPs := rfl
  radiotext := rfl
  ptyname := rfl
  fullTdc := rfl
  eonPs := by intro p t h; simp [Station.unknown] at h
  tmc := ⟨show (0 : Nat) < 16 by decide, rfl⟩

theorem good_withPI (o : Options) (w : Nat) (p : Word) : (Station.withPI o w p).Good :=
  let h := good_unknown o w
  ⟨h.af, h.eonAf, h.rftLen, h.rft, h.ps, h.longPs, h.radiotext, h.ptyname, h.fullTdc, h.eonPs, h.tmc⟩

theorem set2_encoding (u : Ucs2Decoder) (s : RDSString) (pos : Nat) (a b : Byte) :
    (s.set2 u pos a b).encoding = s.encoding := by
  rw [RDSString.set2, set_encoding, set_encoding]

theorem ptyString_some (st : Station) (n : Nat) : ∃ s, st.ptyString n = some s := by
  obtain ⟨h1, h2, -⟩ := C44_tables_in_range n 0 0 0 0 0 (by decide)
  unfold Station.ptyString
  split
  · exact Option.isSome_iff_exists.1 h2
  · exact Option.isSome_iff_exists.1 h1

/-- All operations follow the plan. -/
def OpsPlanned (ops : List JOp) : Prop := ∀ op ∈ ops, op.Planned

theorem decodeBasics_fine (st : Station) (g : Group) :
    ∃ ops, st.decodeBasics g = some ops ∧ OpsPlanned ops ∧ 
      ∀ op ∈ ops, ∃ k, op.key = some k ∧ k ∈ ["group", "tp", "prog_type"] := by
  unfold Station.decodeBasics
  obtain ⟨s, hs⟩ := ptyString_some st (getBits 5 (g.get .b2) 5)
  obtain ⟨t, ht⟩ := ptyString_some st (getBits 5 (g.get .b4) 5)
  have h1 : ∀ s, (JOp.set ["group"] (.str s)).Planned := (planned_scalar (by decide)).1
  have h2 : ∀ b, (JOp.set ["tp"] (.bool b)).Planned := (planned_scalar (by decide)).2.2.1
  have h3 : ∀ s, (JOp.set ["prog_type"] (.str s)).Planned := (planned_scalar (by decide)).1
  split
  · exact ⟨_, rfl, by simp [OpsPlanned, h1], by simp [JOp.key, JOp.path]⟩
  · split
    · rw [hs]
      refine ⟨_, rfl, ?_, ?_⟩
      · cases g.hasType <;> simp [OpsPlanned, h1, h2, h3]
      · cases g.hasType <;> simp [JOp.key, JOp.path]
    · split
      · rw [ht]; exact ⟨_, rfl, by simp [OpsPlanned, h1, h2, h3], by simp [JOp.key, JOp.path]⟩
      · exact ⟨_, rfl, by simp [OpsPlanned], by simp⟩

theorem diKey_some (n : Nat) : ∃ k, Station.diKey n = some k := by
  unfold Station.diKey
  split
  · rename_i h
    exact ⟨_, List.getElem?_eq_getElem (by show n < 4; exact h)⟩
  · exact ⟨_, rfl⟩

theorem afOps_ok (out : AfOut) : OpsOk (Station.afOps out) := by
  cases out <;> simp only [Station.afOps] <;> ops_ok

theorem decodePs_fine (env : Env) (st : Station) (g : Group) (h : st.Good) :
    (st.decodePs env g).1.Good ∧ OpsOk (st.decodePs env g).2 ∧
      Frame false false st (st.decodePs env g).1 := by
  unfold Station.decodePs
  split
  · exact ⟨h, opsOk_nil, rfl, rfl, rfl, rfl, rfl, fun _ => rfl, fun _ => ⟨rfl, rfl⟩⟩
  · refine ⟨⟨h.af, h.eonAf, h.rftLen, h.rft, ?_, h.longPs, h.radiotext, h.ptyname, h.fullTdc,
      h.eonPs, h.tmc⟩, ?_, rfl, rfl, rfl, rfl, rfl, fun _ => rfl, fun _ => ⟨rfl, rfl⟩⟩
    · simp only [set2_encoding, h.ps]
    · dsimp only
      refine opsOk_ite _ _ _ (by ops_ok) (opsOk_ite _ _ _ ?_ opsOk_nil)
      refine (opsOk_cons _ _).2 ⟨?_, opsOk_nil⟩
      cases RDSString.str env.ucs2 _ with
      | none => exact debugOp_ok _
      | some t => exact ok_str _ (by path_ok)

theorem decodeType0_fine (env : Env) (st : Station) (g : Group) (h : st.Good) :
    Fine false false st (st.decodeType0 env g) := by
  unfold Station.decodeType0
  obtain ⟨k, hk⟩ := diKey_some (getBits 2 (g.get .b2) 0)
  obtain ⟨codes, haf⟩ := h.af
  rw [hk]
  simp only [Option.bind_eq_bind, Option.bind_some]
  split
  · obtain ⟨l, hl, ho⟩ := afMissing_origin haf
    rw [hl]
    exact fine_some ⟨⟨_, ho⟩, h.eonAf, h.rftLen, h.rft, h.ps, h.longPs, h.radiotext, h.ptyname,
      h.fullTdc, h.eonPs, h.tmc⟩ (by ops_ok)
  · split
    · obtain ⟨_, l, out, -, -, hl, ho, -⟩ := afReceive_origin st.options.showPartial haf (g.get .b3)
      rw [hl]
      have := decodePs_fine env { st with altFreq := l } g
        ⟨⟨_, ho⟩, h.eonAf, h.rftLen, h.rft, h.ps, h.longPs, h.radiotext, h.ptyname,
          h.fullTdc, h.eonPs, h.tmc⟩
      exact fine_some this.1 ((opsOk_append _ _).2 ⟨(opsOk_append _ _).2
        ⟨by ops_ok, afOps_ok out⟩, this.2.1⟩) ⟨this.2.2.pi, this.2.2.hasPi, this.2.2.options,
          this.2.2.whichChannel, this.2.2.lastGroupHadPi, this.2.2.oda, this.2.2.eon⟩
    · have := decodePs_fine env st g h
      exact fine_some this.1 ((opsOk_append _ _).2 ⟨by ops_ok, this.2.1⟩) this.2.2

theorem pinOps_ok (p : PinOut) : OpsOk (Station.pinOps [] p) := by
  simp only [Station.pinOps, List.nil_append]; ops_ok
theorem pinOps_ok' (p : PinOut) : OpsOk (Station.pinOps ["other_network"] p) := by
  simp only [Station.pinOps, List.cons_append, List.nil_append]; ops_ok

theorem country_some (cc ecc : Nat) (h : cc < 16) : ∃ s, getCountryString cc ecc = some s :=
  Option.isSome_iff_exists.1 (C44_tables_in_range 0 0 0 0 cc ecc h).2.2.2.2.2

theorem language_some (n : Nat) : ∃ s, getLanguageString n = some s :=
  Option.isSome_iff_exists.1 (C44_tables_in_range 0 n 0 0 0 0 (by decide)).2.2.1

theorem getBits_four (w : Word) (i : Nat) : getBits 4 w i < 16 := Nat.mod_lt _ (by decide)

theorem slowLabel_fine (st : Station) (g : Group) :
    ∃ ops, st.slowLabel g = some ops ∧ OpsOk ops := by
  unfold Station.slowLabel
  split
  · dsimp only
    split
    · obtain ⟨s, hs⟩ := country_some (getBits 4 st.pi 12) (getUint8 (g.get .b3) 0).toNat
        (getBits_four _ _)
      rw [hs]
      exact ⟨_, rfl, by ops_ok⟩
    · exact ⟨_, rfl, by ops_ok⟩
  · exact ⟨_, rfl, by ops_ok⟩
  · exact ⟨_, rfl, by ops_ok⟩
  · obtain ⟨s, hs⟩ := language_some (getUint8 (g.get .b3) 0).toNat
    rw [hs]
    exact ⟨_, rfl, by ops_ok⟩
  · exact ⟨_, rfl, by ops_ok⟩
  · exact ⟨_, rfl, by ops_ok⟩
  · exact ⟨_, rfl, (opsOk_cons _ _).2 ⟨debugOp_ok _, opsOk_nil⟩⟩

theorem decodeType1_fine (st : Station) (g : Group) :
    ∃ ops, st.decodeType1 g = some ops ∧ OpsOk ops := by
  unfold Station.decodeType1
  split
  · exact ⟨_, rfl, opsOk_nil⟩
  · obtain ⟨label, hl, hok⟩ := slowLabel_fine st g
    have hpin : OpsOk (if g.get .b4 ≠ 0 then
        ((decodePIN (g.get .b4)).map (Station.pinOps [])).getD [debugOp (ascii "invalid PIN")]
        else []) := by
      refine opsOk_ite _ _ _ ?_ opsOk_nil
      cases decodePIN (g.get .b4) with
      | none => exact (opsOk_cons _ _).2 ⟨debugOp_ok _, opsOk_nil⟩
      | some p => exact pinOps_ok p
    dsimp only
    split
    · rw [hl]
      exact ⟨_, rfl, (opsOk_append _ _).2 ⟨(opsOk_append _ _).2 ⟨hpin, by ops_ok⟩, hok⟩⟩
    · exact ⟨_, rfl, hpin⟩

theorem rtOps_ok (env : Env) (out : RTOut) : OpsOk (Station.rtOps env out) := by
  unfold Station.rtOps
  ops_ok

theorem update_encoding (u : Ucs2Decoder) (rt : RadioText) (pos : Nat) (a b : Byte) :
    (rt.update u pos a b).text.encoding = rt.text.encoding := by
  simp only [RadioText.update, set2_encoding]

theorem rtReceive_encoding (u : Ucs2Decoder) (rt : RadioText) (g : Group) (a c : Bool) (pos : Nat) :
    (rtReceive u rt g a c pos).text.encoding = rt.text.encoding := by
  unfold rtReceive
  cases a <;> cases c <;> cases g.has .b4 <;>
    simp [update_encoding, RDSString.resize, RDSString.clear]

theorem decodeType2_encoding (u : Ucs2Decoder) (sp : Bool) (rt : RadioText) (g : Group) :
    (decodeType2 u sp rt g).1.text.encoding = rt.text.encoding := by
  unfold decodeType2
  split
  · rfl
  · dsimp only
    cases rtPotential { rt with ab := getBool (g.get .b2) 4 }
      (getBits 4 (g.get .b2) 0 * if (g.type.version == .A) = true then 4 else 2)
    · simp [rtReceive_encoding]
    · cases rt.text.str u <;> simp [rtReceive_encoding]

theorem system_fine (s : TMCService) (w : Word) (h : s.Good) :
    ∃ r, s.receiveSystemGroup w = some r ∧ r.1.Good ∧ OpsOk r.2 := by
  unfold TMCService.receiveSystemGroup
  dsimp only
  split
  · exact ⟨_, rfl, ⟨h.ltcc, h.ps⟩, by ops_ok⟩
  · have : getBits 2 w 12 < 4 := Nat.mod_lt _ (by decide)
    rw [List.getElem?_eq_getElem (show getBits 2 w 12 < TMCService.gapValues.length from this)]
    exact ⟨_, rfl, ⟨getBits_four _ _, h.ps⟩, by ops_ok⟩
  · obtain ⟨c, hc⟩ := country_some s.ltcc (getUint8 w 0).toNat h.ltcc
    rw [hc]
    split
    · split
      · exact ⟨_, rfl, h, by ops_ok⟩
      · exact ⟨_, rfl, h, by ops_ok⟩
    · exact ⟨_, rfl, h, by ops_ok⟩
  · exact ⟨_, rfl, h, opsOk_nil⟩

theorem decodeType3A_fine (st : Station) (g : Group) (h : st.Good) : Fine true false st (st.decodeType3A g) := by
  unfold Station.decodeType3A
  split
  · exact fine_some h opsOk_nil
  split
  · exact fine_some h opsOk_nil
  dsimp only
  have hops : ∀ t a : Str, OpsOk [JOp.set ["open_data_app", "oda_group"] (.str t),
      .set ["open_data_app", "app_name"] (.str a)] := by intro t a; ops_ok
  have hg : ∀ x, Station.Good { st with odaForGroup := x } := fun x =>
    ⟨h.af, h.eonAf, h.rftLen, h.rft, h.ps, h.longPs, h.radiotext, h.ptyname, h.fullTdc, h.eonPs, h.tmc⟩
  split
  · exact fine_some (hg _) (hops _ _)
  split
  · exact fine_some (hg _) (hops _ _)
  split
  · exact fine_some (hg _) (hops _ _)
  split
  · refine fine_some ?_ (hops _ _)
    exact ⟨h.af, h.eonAf, h.rftLen, h.rft, h.ps, h.longPs, h.radiotext, h.ptyname, h.fullTdc, h.eonPs,
      h.tmc⟩
  split
  · obtain ⟨r, hr, h1, h2⟩ := system_fine st.tmc (g.get .b3) h.tmc
    rw [hr]
    exact fine_some ⟨h.af, h.eonAf, h.rftLen, h.rft, h.ps, h.longPs, h.radiotext, h.ptyname,
      h.fullTdc, h.eonPs, h1⟩ ((opsOk_append _ _).2 ⟨hops _ _, h2⟩)
  · refine fine_some (hg _) ((opsOk_append _ _).2 ⟨hops _ _, ?_⟩)
    refine (opsOk_cons _ _).2 ⟨debugOp_ok _, by ops_ok⟩

theorem str_basic (u : Ucs2Decoder) (s : RDSString) (h : s.encoding = .basic) :
    ∃ t, s.str u = some t := by
  rw [RDSString.str, h]; exact ⟨_, rfl⟩

theorem decodeType5_fine (env : Env) (st : Station) (g : Group) (h : st.Good) :
    Fine false false st (st.decodeType5 env g) := by
  unfold Station.decodeType5
  dsimp only
  split
  · obtain ⟨t, ht⟩ := str_basic env.ucs2
      (((RDSString.new 4).set2 env.ucs2 0 (getUint8 (g.get .b3) 8) (getUint8 (g.get .b3) 0)).set2
        env.ucs2 2 (getUint8 (g.get .b4) 8) (getUint8 (g.get .b4) 0))
      (by simp only [set2_encoding]; rfl)
    have henc : ((st.fullTdc.set2 env.ucs2 (getBits 5 (g.get .b2) 0 * 4) (getUint8 (g.get .b3) 8)
        (getUint8 (g.get .b3) 0)).set2 env.ucs2 (getBits 5 (g.get .b2) 0 * 4 + 2)
        (getUint8 (g.get .b4) 8) (getUint8 (g.get .b4) 0)).encoding = .basic := by
      simp only [set2_encoding, h.fullTdc]
    obtain ⟨f, hf⟩ := str_basic env.ucs2 _ henc
    rw [ht, hf]
    split
    all_goals
      refine fine_some ⟨h.af, h.eonAf, h.rftLen, h.rft, h.ps, h.longPs, h.radiotext, h.ptyname,
        henc, h.eonPs, h.tmc⟩ ?_
      ops_ok
  · obtain ⟨t, ht⟩ := str_basic env.ucs2
      ((RDSString.new 2).set2 env.ucs2 0 (getUint8 (g.get .b4) 8) (getUint8 (g.get .b4) 0))
      (by simp only [set2_encoding]; rfl)
    rw [ht]
    exact fine_some h (by ops_ok)

theorem decodeType6_ok (g : Group) : OpsOk (Station.decodeType6 g) := by
  unfold Station.decodeType6
  ops_ok

theorem decodeType10A_fine (env : Env) (st : Station) (g : Group) (h : st.Good) :
    Fine false false st (some (st.decodeType10A env g)) := by
  unfold Station.decodeType10A
  split
  · exact fine_some h opsOk_nil
  · refine fine_some ⟨h.af, h.eonAf, h.rftLen, h.rft, h.ps, h.longPs, h.radiotext, ?_, h.fullTdc,
      h.eonPs, h.tmc⟩ (by ops_ok)
    dsimp only
    rw [set2_encoding, set2_encoding]
    split
    · exact h.ptyname
    · exact h.ptyname

theorem eonVariant_fine (env : Env) (st : Station) (g : Group) (h : st.Good) :
    Fine false true st (st.eonVariant env g) := by
  unfold Station.eonVariant
  dsimp only
  split
  · refine fine_some ⟨h.af, h.eonAf, h.rftLen, h.rft, h.ps, h.longPs, h.radiotext, h.ptyname,
      h.fullTdc, ?_, h.tmc⟩ (by ops_ok)
    intro p t ht
    dsimp only [mapSet] at ht
    split at ht
    · have := Option.some.inj ht
      rw [← this, set_encoding, set_encoding]
      cases hp : st.eonPs (g.get .b4) with
      | none => rfl
      | some t => exact h.eonPs _ _ hp
    · exact h.eonPs p t ht
  split
  · obtain ⟨l1, h1, w1⟩ := afWF_insert (h.eonAf (g.get .b4)) (getUint8 (g.get .b3) 8).toNat
    obtain ⟨l2, h2, w2⟩ := afWF_insert w1 (getUint8 (g.get .b3) 0).toNat
    rw [h1]
    simp only [Option.bind_eq_bind, Option.bind_some]
    rw [h2]
    simp only [Option.bind_some]
    have hg : ∀ l, AfWF l → Station.Good { st with eonAf := mapSet st.eonAf (g.get .b4) l } := by
      intro l hl
      refine ⟨h.af, ?_, h.rftLen, h.rft, h.ps, h.longPs, h.radiotext, h.ptyname,
        h.fullTdc, h.eonPs, h.tmc⟩
      intro p
      dsimp only [mapSet]
      split
      · exact hl
      · exact h.eonAf p
    split
    · rw [getRawList_wf w2]
      exact fine_some (hg _ (afWF_clear w2)) (by ops_ok)
    · exact fine_some (hg _ w2) opsOk_nil
  split
  · exact fine_some h (by ops_ok)
  split
  · exact fine_some h (by ops_ok)
  split
  · obtain ⟨s, hs⟩ := ptyString_some st (getBits 5 (g.get .b3) 11)
    rw [hs]
    exact fine_some h (by ops_ok)
  split
  · refine fine_some h (opsOk_ite _ _ _ ?_ opsOk_nil)
    cases decodePIN (g.get .b3) with
    | none => exact opsOk_nil
    | some p => exact pinOps_ok' p
  split
  · exact fine_some h (by ops_ok)
  · exact fine_some h ((opsOk_cons _ _).2 ⟨debugOp_ok _, opsOk_nil⟩)

theorem decodeType14_fine (env : Env) (st : Station) (g : Group) (h : st.Good) :
    Fine false true st (st.decodeType14 env g) := by
  unfold Station.decodeType14
  split
  · exact fine_some h opsOk_nil
  dsimp only
  split
  · exact fine_some h (by ops_ok)
  split
  · exact fine_some h (by ops_ok)
  · obtain ⟨st', ops, he, h1, h2, h3⟩ := eonVariant_fine env st g h
    rw [he]
    exact fine_some h1 ((opsOk_append _ _).2 ⟨by ops_ok, h2⟩) h3

theorem decodeType15A_fine (env : Env) (st : Station) (g : Group) (h : st.Good) :
    Fine false false st (some (st.decodeType15A env g)) := by
  unfold Station.decodeType15A
  refine fine_some ⟨h.af, h.eonAf, h.rftLen, h.rft, h.ps, ?_, h.radiotext, h.ptyname, h.fullTdc,
      h.eonPs, h.tmc⟩ ?_
  · cases g.has .b3 <;> cases g.has .b4 <;> simp [set2_encoding, h.longPs]
  · refine opsOk_ite _ _ _ (by ops_ok) (opsOk_ite _ _ _ ?_ opsOk_nil)
    refine (opsOk_cons _ _).2 ⟨?_, opsOk_nil⟩
    cases RDSString.str env.ucs2 _ with
    | none => exact debugOp_ok _
    | some t => exact ok_str _ (by path_ok)

theorem decodeType15B_fine (g : Group) : ∃ ops, Station.decodeType15B g = some ops ∧ OpsOk ops := by
  unfold Station.decodeType15B
  obtain ⟨k, hk⟩ := diKey_some (getBits 2 (g.get .b2) 0)
  rw [hk]
  exact ⟨_, rfl, by ops_ok⟩

theorem rtPlusTag_fine (key : String) (hk : key = "radiotext_plus" ∨ key = "ert_plus") (text : Str)
    (c s l : Nat) : ∃ ops, Station.rtPlusTagOps key text c s l = some ops ∧ OpsOk ops := by
  unfold Station.rtPlusTagOps
  obtain ⟨n, hn⟩ := Option.isSome_iff_exists.1
    (C44_tables_in_range 0 0 c 0 0 0 (by decide)).2.2.2.1
  dsimp only
  split
  · rw [hn]
    refine ⟨_, rfl, ?_⟩
    rcases hk with rfl | rfl <;> ops_ok
  · exact ⟨_, rfl, opsOk_nil⟩

theorem parseRadioTextPlus_fine (key : String) (hk : key = "radiotext_plus" ∨ key = "ert_plus")
    (rt : RadioText) (g : Group) :
    ∃ r, Station.parseRadioTextPlus key rt g = some r ∧ r.1.text.encoding = rt.text.encoding ∧
      OpsOk r.2 := by
  unfold Station.parseRadioTextPlus
  dsimp only
  generalize hrt : (if (getBool (g.get .b2) 4 != rt.plus.toggle ||
      getBool (g.get .b2) 3 != rt.plus.itemRunning) = true then
    { rt with text := rt.text.clear, plus := { toggle := getBool (g.get .b2) 4,
                                               itemRunning := getBool (g.get .b2) 3 } }
    else rt) = rt'
  have he : rt'.text.encoding = rt.text.encoding := by rw [← hrt]; split <;> rfl
  have hops : OpsOk [JOp.touch [key], .set [key, "item_running"] (.bool (getBool (g.get .b2) 3)),
      .set [key, "item_toggle"] (.nat (if getBool (g.get .b2) 4 = true then 1 else 0))] := by
    refine (opsOk_cons _ _).2 ⟨?_, ?_⟩
    · rcases hk with rfl | rfl <;> (refine ⟨?_, ?_⟩ <;> (show _ = true; decide))
    · rcases hk with rfl | rfl <;> ops_ok
  obtain ⟨o1, h1, k1⟩ := rtPlusTag_fine key hk rt'.text.lastCompleteString
    (getBits2 6 (g.get .b2) (g.get .b3) 13) (getBits 6 (g.get .b3) 7) (getBits 6 (g.get .b3) 1 + 1)
  obtain ⟨o2, h2, k2⟩ := rtPlusTag_fine key hk rt'.text.lastCompleteString
    (getBits2 6 (g.get .b3) (g.get .b4) 11) (getBits 6 (g.get .b4) 5) (getBits 5 (g.get .b4) 0 + 1)
  rw [h1, h2]
  have key : ∀ a b : List JOp, OpsOk a → OpsOk b → OpsOk ([JOp.touch [key],
      .set [key, "item_running"] (.bool (getBool (g.get .b2) 3)),
      .set [key, "item_toggle"] (.nat (if getBool (g.get .b2) 4 = true then 1 else 0))] ++ a ++ b) :=
    fun a b ha hb => (opsOk_append _ _).2 ⟨(opsOk_append _ _).2 ⟨hops, ha⟩, hb⟩
  cases g.has .b3 <;> cases g.has .b4
  · exact ⟨_, rfl, he, key _ _ opsOk_nil opsOk_nil⟩
  · exact ⟨_, rfl, he, key _ _ opsOk_nil opsOk_nil⟩
  · exact ⟨_, rfl, he, key _ _ k1 opsOk_nil⟩
  · exact ⟨_, rfl, he, key _ _ k1 k2⟩

theorem parseEnhancedRT_ok (env : Env) (rt : RadioText) (g : Group) :
    OpsOk (Station.parseEnhancedRT env rt g).2 := by
  unfold Station.parseEnhancedRT
  ops_ok

theorem parseDAB_fine (g : Group) : ∃ ops, Station.parseDAB g = some ops ∧ OpsOk ops := by
  unfold Station.parseDAB
  split
  · exact ⟨_, rfl, (opsOk_cons _ _).2 ⟨debugOp_ok _, opsOk_nil⟩⟩
  · have : getBits 2 (g.get .b2) 2 < 4 := Nat.mod_lt _ (by decide)
    rw [List.getElem?_eq_getElem (show getBits 2 (g.get .b2) 2 < Station.dabModes.length from this)]
    exact ⟨_, rfl, by ops_ok⟩

/-! ### Traffic messages -/

theorem leaf_any {p : List String} (h1 : p ∉ objectPaths) (h2 : p ∉ arrayPaths) (j : J) :
    fitsAt p j := by
  cases j <;> simp [fitsAt, h1, h2]

theorem message_leaf (k : String) :
    ["tmc", "message", k] ∉ objectPaths ∧ ["tmc", "message", k] ∉ arrayPaths := by
  simp [objectPaths, arrayPaths]

/-- The names of the members of a message, in their order. -/
def messageNames : List String :=
  ["event_codes", "supplementary_codes", "update_class", "description", "diversion_route", "speed_limit",
   "encrypted_location", "location", "direction", "extent", "starts", "until", "urgency"]

theorem sublist_listMember (k : String) (l : List Nat) : ((Message.listMember k l).map Prod.fst).Sublist [k] := by
  unfold Message.listMember
  split <;> simp

theorem sublist_toList {α : Type} (o : Option α) (k : String) (f : α → J) :
    ((o.map fun v => (k, f v)).toList.map Prod.fst).Sublist [k] := by
  cases o <;> simp

theorem json_distinct {env : TmcEnv} {m : Message} {l : List (String × J)} (h : m.json env = some l) :
    (J.obj l).Distinct := by
  unfold Message.json at h
  split at h
  · cases h
  cases Option.some.inj h
  rw [J.Distinct]
  constructor
  · refine List.Nodup.sublist (l₂ := messageNames) ?_ (by decide)
    have e : messageNames = ["event_codes"] ++ ["supplementary_codes"] ++ ["update_class"] ++ ["description"] ++
      ["diversion_route"] ++ ["speed_limit"] ++ ["encrypted_location"] ++ ["location"] ++ ["direction", "extent"] ++
      ["starts"] ++ ["until"] ++ ["urgency"] := rfl
    rw [e]
    simp only [List.map_append]
    refine ((((((((((List.Sublist.append ?_ ?_).append ?_).append ?_).append ?_).append ?_).append ?_).append
      ?_).append ?_).append ?_).append ?_).append ?_
    · exact sublist_listMember _ _
    · exact sublist_listMember _ _
    · exact sublist_toList _ _ _
    · split <;> simp
    · exact sublist_listMember _ _
    · exact sublist_toList _ _ _
    · split <;> simp
    · split <;> simp
    · simp
    · exact sublist_toList _ _ _
    · exact sublist_toList _ _ _
    · simp
  · rw [distinctMembers_iff]
    have numbers : ∀ (k : String) (l : List Nat), ∀ m ∈ Message.listMember k l, m.2.Distinct := by
      intro k l m hm
      unfold Message.listMember at hm
      split at hm
      · cases hm
      · rw [List.mem_singleton.mp hm]
        exact distinct_map _ _ fun _ => distinct_int _
    intro x hx
    simp only [List.mem_append, Option.mem_toList, Option.map_eq_some_iff, List.mem_cons, List.not_mem_nil,
      or_false] at hx
    rcases hx with ((((((((((hx | hx) | hx) | hx) | hx) | hx) | hx) | hx) | hx) | hx) | hx) | hx
    · exact numbers _ _ x hx
    · exact numbers _ _ x hx
    · obtain ⟨v, -, rfl⟩ := hx
      exact distinct_int _
    · split at hx
      · cases hx
      · rw [List.mem_singleton.mp hx]
        exact distinct_str _
    · exact numbers _ _ x hx
    · obtain ⟨v, -, rfl⟩ := hx
      exact distinct_str _
    · split at hx
      · rw [List.mem_singleton.mp hx]
        exact distinct_int _
      · cases hx
    · split at hx
      · rw [List.mem_singleton.mp hx]
        exact distinct_int _
      · cases hx
    · rcases hx with rfl | rfl <;> exact distinct_str _
    · obtain ⟨v, -, rfl⟩ := hx
      exact distinct_str _
    · obtain ⟨v, -, rfl⟩ := hx
      exact distinct_str _
    · rw [hx]
      exact distinct_str _

theorem message_ok (l : List (String × J)) (hl : (J.obj l).Distinct) :
    (JOp.set ["tmc", "message"] (.obj l)).Ok := by
  refine ⟨⟨by decide, ?_, hl⟩, (by decide : freePath ["tmc", "message"] = true)⟩
  rw [fitsAt_obj _ (by decide)]
  intro m _
  exact leaf_any (message_leaf m.1).1 (message_leaf m.1).2 m.2

theorem decodeLocation_ok (db : LocationDatabase) (ltn : Nat) (location : Option Word) (e : Int) :
    OpsOk (decodeLocation db ltn location e) := by
  unfold decodeLocation
  split
  · exact opsOk_nil
  split
  · exact opsOk_nil
  split
  · exact opsOk_nil
  · dsimp only
    refine (opsOk_append _ _).2 ⟨(opsOk_append _ _).2 ⟨by ops_ok, ?_⟩, ?_⟩
    · split <;> ops_ok
    · split <;> ops_ok

theorem printMessage_fine (env : TmcEnv) (hk : env.KeysOk) (s : TMCService) (m : Message) :
    ∃ ops, s.printMessage env m = some ops ∧ OpsOk ops := by
  have tail : ∀ m : Message, ∃ ops, (match m.json env with
      | none => pure []
      | some members => pure (JOp.set ["tmc", "message"] (.obj members) ::
          decodeLocation (env.locations s.ltn) s.ltn (if m.isEncrypted then none else some m.location)
            (if m.negative then -(m.extent : Int) else m.extent)) : Option (List JOp)) = some ops ∧
      OpsOk ops := by
    intro m
    split
    · exact ⟨_, rfl, opsOk_nil⟩
    · rename_i hj
      exact ⟨_, rfl, (opsOk_cons _ _).2 ⟨message_ok _ (json_distinct hj), decodeLocation_ok _ _ _ _⟩⟩
  unfold TMCService.printMessage
  dsimp only
  split
  · split
    · rename_i key hkey
      have : ∃ m', m.decrypt key = some m' := by
        unfold Message.decrypt
        split
        · exact ⟨_, rfl⟩
        · rw [if_pos (hk _ _ hkey)]; exact ⟨_, rfl⟩
      obtain ⟨m', hm⟩ := this
      rw [hm]
      exact tail m'
    · exact tail m
  · exact tail m

theorem tuning_fine (env : TmcEnv) (s : TMCService) (x y z : Word) (h : s.Good) :
    ∃ r, s.tuningInformation env x y z = some r ∧ r.1.Good ∧ OpsOk r.2 := by
  unfold TMCService.tuningInformation
  dsimp only
  split
  · obtain ⟨l1, h1, w1⟩ := afWF_insert afWF_new (getUint8 y 8).toNat
    obtain ⟨l2, h2, w2⟩ := afWF_insert w1 (getUint8 y 0).toNat
    rw [h1]
    simp only [Option.bind_eq_bind, Option.bind_some]
    rw [h2]
    simp only [Option.bind_some]
    rw [getRawList_wf w2]
    exact ⟨_, rfl, h, by ops_ok⟩
  · split
    · exact ⟨_, rfl, h, by ops_ok⟩
    · exact ⟨_, rfl, h, by ops_ok⟩
  · exact ⟨_, rfl, h, by ops_ok⟩
  · split
    · refine ⟨_, rfl, ⟨h.ltcc, ?_⟩, by ops_ok⟩
      simp only [set_encoding, h.ps]
    · exact ⟨_, rfl, h, by ops_ok⟩

theorem user_fine (env : TmcEnv) (hk : env.KeysOk) (s : TMCService) (x y z : Word) (h : s.Good) :
    ∃ r, s.receiveUserGroup env x y z = some r ∧ r.1.Good ∧ OpsOk r.2 := by
  unfold TMCService.receiveUserGroup
  dsimp only
  split
  · exact ⟨_, rfl, h, opsOk_nil⟩
  split
  · exact ⟨_, rfl, ⟨h.ltcc, h.ps⟩, by ops_ok⟩
  split
  · exact tuning_fine env s x y z h
  split
  · exact ⟨_, rfl, h, opsOk_nil⟩
  split
  · obtain ⟨ops, ho, hok⟩ := printMessage_fine env hk s ((Message.new s.isEncrypted).pushSingle env y z)
    rw [ho]
    exact ⟨_, rfl, h, hok⟩
  · generalize Message.pushMulti env (if getBits 3 x 0 ≠ s.message.continuityIndex then
      Message.new s.isEncrypted else s.message) x y z = m
    split
    · obtain ⟨ops, ho, hok⟩ := printMessage_fine env hk s m
      rw [ho]
      exact ⟨_, rfl, ⟨h.ltcc, h.ps⟩, hok⟩
    · exact ⟨_, rfl, ⟨h.ltcc, h.ps⟩, opsOk_nil⟩

theorem decodeTmc_fine (env : Env) (hk : env.tmc.KeysOk) (st : Station) (g : Group) (h : st.Good) :
    Fine false false st (st.decodeTmc env g) := by
  unfold Station.decodeTmc
  split
  · obtain ⟨r, hr, h1, h2⟩ := user_fine env.tmc hk st.tmc
      (BitVec.ofNat 16 (getBits 5 (g.get .b2) 0)) (g.get .b3) (g.get .b4) h.tmc
    rw [hr]
    exact fine_some ⟨h.af, h.eonAf, h.rftLen, h.rft, h.ps, h.longPs, h.radiotext, h.ptyname,
      h.fullTdc, h.eonPs, h1⟩ h2
  · exact fine_some h opsOk_nil

theorem decodeODAApp_fine (env : Env) (hk : env.tmc.KeysOk) (st : Station) (g : Group) (app : Word)
    (h : st.Good) : Fine false false st (st.decodeODAApp env g app) := by
  unfold Station.decodeODAApp
  split
  · obtain ⟨ops, ho, hok⟩ := parseDAB_fine g
    rw [ho]; exact fine_some h hok
  split
  · obtain ⟨r, hr, he, hok⟩ := parseRadioTextPlus_fine "radiotext_plus" (.inl rfl) st.radiotext g
    rw [hr]
    exact fine_some ⟨h.af, h.eonAf, h.rftLen, h.rft, h.ps, h.longPs, he.trans h.radiotext, h.ptyname,
      h.fullTdc, h.eonPs, h.tmc⟩ hok
  split
  · obtain ⟨r, hr, he, hok⟩ := parseRadioTextPlus_fine "ert_plus" (.inr rfl) st.ert g
    rw [hr]
    exact fine_some ⟨h.af, h.eonAf, h.rftLen, h.rft, h.ps, h.longPs, h.radiotext, h.ptyname,
      h.fullTdc, h.eonPs, h.tmc⟩ hok
  split
  · exact fine_some ⟨h.af, h.eonAf, h.rftLen, h.rft, h.ps, h.longPs, h.radiotext, h.ptyname,
      h.fullTdc, h.eonPs, h.tmc⟩ (parseEnhancedRT_ok _ _ _)
  split
  · exact decodeTmc_fine env hk st g h
  · exact fine_some h (by ops_ok)

theorem decodeODAGroup_fine (env : Env) (hk : env.tmc.KeysOk) (st : Station) (g : Group)
    (h : st.Good) : Fine false false st (st.decodeODAGroup env g) := by
  unfold Station.decodeODAGroup
  split
  · exact fine_some h (by ops_ok)
  · exact decodeODAApp_fine env hk st g _ h

theorem rftInfoOps_ok (g : Group) : OpsOk (Station.rftInfoOps g) := by
  simp only [Station.rftInfoOps]
  ops_ok

theorem decodeCRft_fine (files : List RFTFile) (b1 b2 b3 b4 : Word) (hl : files.length = 16)
    (h : ∀ f ∈ files, ∃ evs outs, RftInv evs outs f) :
    ∃ r, decodeCRft files b1 b2 b3 b4 = some r ∧ r.1.length = 16 ∧
      ∀ f ∈ r.1, ∃ evs outs, RftInv evs outs f := by
  unfold decodeCRft
  cases he : rftEvent b1 b2 b3 b4 with
  | none => exact ⟨_, rfl, hl, h⟩
  | some pe =>
    obtain ⟨p, e⟩ := pe
    obtain ⟨hp, hv⟩ := rftEvent_valid he
    dsimp only
    have hlt : p < files.length := by omega
    rw [List.getElem?_eq_getElem hlt]
    obtain ⟨evs, outs, inv⟩ := h files[p] (List.getElem_mem hlt)
    obtain ⟨f', o, h1, inv'⟩ := rftInv_step inv e hv
    dsimp only
    rw [h1]
    refine ⟨_, rfl, by simpa using hl, ?_⟩
    intro f hf
    rcases List.mem_or_eq_of_mem_set hf with hf | rfl
    · exact h f hf
    · exact ⟨_, _, inv'⟩

theorem decodeC_fine (st : Station) (g : Group) (h : st.Good) : Fine false false st (st.decodeC g) := by
  unfold Station.decodeC
  split
  · exact fine_some h opsOk_nil
  · obtain ⟨r, hr, hl, hi⟩ := decodeCRft_fine st.rftFiles (g.get .b1) (g.get .b2) (g.get .b3)
      (g.get .b4) h.rftLen h.rft
    dsimp only
    rw [hr]
    simp only [Option.bind_eq_bind, Option.bind_some]
    have hg : ∀ x, Station.Good { st with rftFiles := r.1, odaForPipe := x } := fun x =>
      ⟨h.af, h.eonAf, hl, hi, h.ps, h.longPs, h.radiotext, h.ptyname, h.fullTdc, h.eonPs, h.tmc⟩
    split
    · exact fine_some (hg _) ((opsOk_cons _ _).2 ⟨debugOp_ok _, opsOk_nil⟩)
    split
    · exact fine_some (hg _) (by ops_ok)
    split
    · exact fine_some (hg _) (by ops_ok)
    split
    · split
      · refine fine_some (hg _) ((opsOk_append _ _).2 ⟨by ops_ok, opsOk_ite _ _ _ ?_ ?_⟩)
        · exact rftInfoOps_ok g
        · ops_ok
      · exact fine_some (hg _) ((opsOk_cons _ _).2 ⟨debugOp_ok _, opsOk_nil⟩)
    · exact fine_some (hg _) ((opsOk_cons _ _).2 ⟨debugOp_ok _, by ops_ok⟩)

theorem clockOps_ok (o : ClockOut) : OpsOk (Station.clockOps o) := by
  cases o <;> simp only [Station.clockOps] <;> ops_ok

/-- Type 3A. -/
def Group.is3A (g : Group) : Bool := g.type.number == 3 && g.type.version == .A

/-- Type 14A or 14B. -/
def Group.is14 (g : Group) : Bool := g.type.number == 14 && g.type.version != .C

theorem dispatch_fine (env : Env) (hk : env.tmc.KeysOk) (st : Station) (g : Group) (h : st.Good) :
    Fine g.is3A g.is14 st (st.dispatch env g) := by
  have todo : ∀ {s : String}, OpsOk (Station.todoOps s) := fun {s} =>
    (opsOk_cons _ _).2 ⟨debugOp_ok (ascii s), opsOk_nil⟩
  have wk : ∀ {o}, Fine false false st o → Fine g.is3A g.is14 st o := fun h =>
    h.weaken (by simp) (by simp)
  unfold Station.dispatch
  refine fine_ite (fun _ => wk (decodeC_fine st g h)) fun hv => ?_
  refine fine_ite (fun _ => wk (decodeType0_fine env st g h)) fun _ => ?_
  refine fine_ite (fun _ => ?_) fun _ => ?_
  · obtain ⟨ops, ho, hok⟩ := decodeType1_fine st g
    rw [ho]; exact wk (fine_some h hok)
  refine fine_ite (fun _ => ?_) fun _ => ?_
  · exact wk (fine_some ⟨h.af, h.eonAf, h.rftLen, h.rft, h.ps, h.longPs,
      (decodeType2_encoding _ _ _ _).trans h.radiotext, h.ptyname,
      h.fullTdc, h.eonPs, h.tmc⟩ (rtOps_ok _ _))
  refine fine_ite (fun h3 => ?_) fun _ => ?_
  · exact (decodeType3A_fine st g h).weaken (by simp [Group.is3A, h3]) (by simp)
  refine fine_ite (fun _ => wk (fine_some h (clockOps_ok _))) fun _ => ?_
  refine fine_ite (fun _ => wk (decodeType10A_fine env st g h)) fun _ => ?_
  refine fine_ite (fun h14 => ?_) fun _ => ?_
  · exact (decodeType14_fine env st g h).weaken (by simp) (by simp [Group.is14, h14, hv])
  refine fine_ite (fun _ => ?_) fun _ => ?_
  · obtain ⟨ops, ho, hok⟩ := decodeType15B_fine g
    rw [ho]; exact wk (fine_some h hok)
  refine fine_ite (fun _ => wk (decodeODAGroup_fine env hk st g h)) fun _ => ?_
  refine fine_ite (fun _ => wk (decodeType5_fine env st g h)) fun _ => ?_
  refine fine_ite (fun _ => wk (fine_some h (decodeType6_ok g))) fun _ => ?_
  refine fine_ite (fun _ => wk (fine_some h todo)) fun _ => ?_
  refine fine_ite (fun _ => wk (decodeTmc_fine env hk st g h)) fun _ => ?_
  refine fine_ite (fun _ => wk (fine_some h todo)) fun _ => ?_
  refine fine_ite (fun _ => wk (decodeType15A_fine env st g h)) fun _ => ?_
  exact wk (decodeODAGroup_fine env hk st g h)

theorem headerOps_planned (env : Env) (st : Station) (g : Group) : OpsPlanned (st.headerOps env g) := by
  unfold Station.headerOps Station.streamOps Station.piOps Station.timeOps Station.blerOps
    Station.channelOps Station.rawOps
  have hs : ∀ k : String, leafPath [k] = true → ∀ s : Str, (JOp.set [k] (.str s)).Planned :=
    fun k h => (planned_scalar h).1
  have hi : ∀ k : String, leafPath [k] = true → ∀ i : Int, (JOp.set [k] (.int i)).Planned :=
    fun k h => (planned_scalar h).2.1
  have hc : leafPath [if st.pi &&& 0xF000 = 0x1000 then "callsign_uncertain" else "callsign"] =
      true := by split <;> decide
  intro op hop
  simp only [List.mem_append] at hop
  rcases hop with ((((hop | hop) | hop) | hop) | hop) | hop
  · split at hop
    · rw [List.mem_singleton] at hop; subst hop; exact hi _ (by decide) _
    · simp at hop
  · split at hop
    · simp at hop
    · rcases List.mem_cons.1 hop with rfl | hop
      · exact hs _ (by decide) _
      · split at hop
        · rw [List.mem_singleton] at hop; subst hop; exact hs _ hc _
        · simp at hop
  · split at hop
    · rw [List.mem_singleton] at hop; subst hop; exact hs _ (by decide) _
    · simp at hop
  · cases hb : g.bler with
    | none => simp [hb] at hop
    | some q =>
      simp only [hb, Option.map_some, Option.toList_some, List.mem_singleton] at hop
      subst hop; exact hi _ (by decide) _
  · split at hop
    · rw [List.mem_singleton] at hop; subst hop; exact hi _ (by decide) _
    · simp at hop
  · split at hop
    · rw [List.mem_singleton] at hop; subst hop; exact hs _ (by decide) _
    · simp at hop

theorem checkPI_good (st : Station) (g : Group) (h : st.Good) : (st.checkPI g).1.Good := by
  unfold Station.checkPI
  have hg : ∀ x, Station.Good { st with lastGroupHadPi := x } := fun x =>
    ⟨h.af, h.eonAf, h.rftLen, h.rft, h.ps, h.longPs, h.radiotext, h.ptyname, h.fullTdc, h.eonPs, h.tmc⟩
  repeat' split
  · exact h
  · exact hg _
  · exact hg _
  · exact h

/-- What a station does with a group, part by part. -/
theorem update_parts (env : Env) (hk : env.tmc.KeysOk) (st : Station) (g : Group) (h : st.Good) :
    ∃ st' o, st.update env g = some (st', o) ∧ st'.Good ∧
      (o = none → st.hasPi = false ∧ st' = st ∨
        st.hasPi = true ∧ (st.checkPI g).2 = false ∧ st' = (st.checkPI g).1) ∧
      ∀ ops, o = some ops → ∃ basics body, ops = st.headerOps env g ++ basics ++ body ∧
        st.hasPi = true ∧ (st.checkPI g).2 = true ∧
        (st.checkPI g).1.decodeBasics g = some basics ∧
        (if g.hasType then (st.checkPI g).1.dispatch env g else some ((st.checkPI g).1, [])) =
          some (st', body) ∧ OpsPlanned basics ∧
        (∀ op ∈ basics, ∃ k, op.key = some k ∧ k ∈ ["group", "tp", "prog_type"]) ∧ OpsOk body ∧
        Frame g.is3A g.is14 (st.checkPI g).1 st' := by
  unfold Station.update
  split
  · rename_i hpi
    exact ⟨_, _, rfl, h, fun _ => .inl ⟨by simpa using hpi, rfl⟩, by simp⟩
  rename_i hpi
  dsimp only
  split
  · rename_i hcheck
    exact ⟨_, _, rfl, checkPI_good st g h,
      fun _ => .inr ⟨by simpa using hpi, by simpa using hcheck, rfl⟩, by simp⟩
  · rename_i hcheck
    obtain ⟨basics, hb, hbp, hbk⟩ := decodeBasics_fine (st.checkPI g).1 g
    rw [hb]
    simp only [Option.bind_eq_bind, Option.bind_some]
    have key : ∀ r : Station × List JOp,
        (if g.hasType then (st.checkPI g).1.dispatch env g else some ((st.checkPI g).1, [])) =
          some r → r.1.Good → OpsOk r.2 → Frame g.is3A g.is14 (st.checkPI g).1 r.1 →
        ∃ st' o, (some (r.1, some (st.headerOps env g ++ basics ++ r.2)) :
          Option (Station × Option (List JOp))) = some (st', o) ∧ st'.Good ∧
          (o = none → st.hasPi = false ∧ st' = st ∨
            st.hasPi = true ∧ (st.checkPI g).2 = false ∧ st' = (st.checkPI g).1) ∧
          ∀ ops, o = some ops → ∃ basics' body, ops = st.headerOps env g ++ basics' ++ body ∧
        st.hasPi = true ∧ (st.checkPI g).2 = true ∧
        some basics = some basics' ∧
        (if g.hasType then (st.checkPI g).1.dispatch env g else some ((st.checkPI g).1, [])) =
          some (st', body) ∧ OpsPlanned basics' ∧
        (∀ op ∈ basics', ∃ k, op.key = some k ∧ k ∈ ["group", "tp", "prog_type"]) ∧ OpsOk body ∧
        Frame g.is3A g.is14 (st.checkPI g).1 st' := by
      intro r hr h1 h2 h3
      refine ⟨_, _, rfl, h1, by simp, ?_⟩
      intro ops ho
      have := Option.some.inj ho
      exact ⟨basics, r.2, this.symm, by simpa using hpi, by simpa using hcheck, rfl, hr, hbp, hbk, h2, h3⟩
    split
    · rename_i ht
      obtain ⟨st', ops, hd, h1, h2, h3⟩ := dispatch_fine env hk _ g (checkPI_good st g h)
      rw [if_pos ht, hd] at key
      rw [hd]
      exact key (st', ops) rfl h1 h2 h3
    · rename_i ht
      rw [if_neg ht] at key
      exact key (_, []) rfl (checkPI_good st g h) opsOk_nil
        ⟨rfl, rfl, rfl, rfl, rfl, fun _ => rfl, fun _ => ⟨rfl, rfl⟩⟩

/-- A station in good order handles every group, and is in good order afterwards. What it prints is
the object made by the operations, or the error object if a string in it is not UTF-8. -/
theorem updateAndPrint_parts (env : Env) (hk : env.tmc.KeysOk) (st : Station) (g : Group)
    (h : st.Good) : ∃ st' line, st.updateAndPrint env g = some (st', line) ∧ st'.Good ∧
      (line = none → st.hasPi = false ∧ st' = st ∨
        st.hasPi = true ∧ (st.checkPI g).2 = false ∧ st' = (st.checkPI g).1) ∧
      ∀ l, line = some l → ∃ basics body j,
        J.build (st.headerOps env g ++ basics ++ body) .null = some j ∧ l = printJson j ∧
        st.hasPi = true ∧ (st.checkPI g).2 = true ∧
        (st.checkPI g).1.decodeBasics g = some basics ∧
        (if g.hasType then (st.checkPI g).1.dispatch env g else some ((st.checkPI g).1, [])) =
          some (st', body) ∧
        (∀ op ∈ basics, ∃ k, op.key = some k ∧ k ∈ ["group", "tp", "prog_type"]) ∧ OpsOk body ∧
        Frame g.is3A g.is14 (st.checkPI g).1 st' := by
  unfold Station.updateAndPrint
  obtain ⟨st', o, ho, hg, hnone, hparts⟩ := update_parts env hk st g h
  rw [ho]
  simp only [Option.bind_eq_bind, Option.bind_some]
  cases o with
  | none => exact ⟨_, _, rfl, hg, fun _ => hnone rfl, by simp⟩
  | some ops =>
    obtain ⟨basics, body, rfl, hp, hc, hb, hd, hbp, hbk, hok, hfr⟩ := hparts ops rfl
    obtain ⟨j, hj, -⟩ := build_ok (st.headerOps env g ++ basics ++ body) (by
      intro op hop
      rw [List.mem_append, List.mem_append] at hop
      rcases hop with (hop | hop) | hop
      · exact headerOps_planned env st g op hop
      · exact hbp op hop
      · exact (hok op hop).1) .null (fitsAt_null _)
    dsimp only
    rw [hj]
    refine ⟨_, _, rfl, hg, by simp, ?_⟩
    intro l hl
    have := Option.some.inj hl
    exact ⟨basics, body, j, hj, this.symm, hp, hc, hb, hd, hbk, hok, hfr⟩

end Redsea
