import Verif.Props.GroupFields
import Verif.Props.AltFreq
import Verif.Props.Channel
import Verif.Props.GroupType

/-
C62, continued: information about other networks and open data applications.
-/

namespace Redsea

open _root_.Redsea.Spec

/-! ### 37 bits of an application -/

theorem getBits2_eq_div (n : Nat) (w1 w2 : Word) (k : Nat) :
    getBits2 n w1 w2 k = (w2.toNat + w1.toNat * 65536) / 2 ^ k % 2 ^ n := by
  unfold getBits2
  rw [Nat.shiftRight_eq_div_pow]

/-- A number that is known in its last `m` bits. -/
theorem field_of_mod (x y m n k : Nat) (h : x % 2 ^ m = y % 2 ^ m) (hnk : n + k ≤ m) :
    x / 2 ^ k % 2 ^ n = y / 2 ^ k % 2 ^ n := by
  have hm : 2 ^ m = 2 ^ k * 2 ^ n * 2 ^ (m - (n + k)) := by
    rw [← Nat.pow_add, ← Nat.pow_add]
    congr 1
    omega
  have key : ∀ z, z / 2 ^ k % 2 ^ n = z % 2 ^ m / 2 ^ k % 2 ^ n := by
    intro z
    rw [hm, Nat.mul_assoc, Nat.mod_mul_right_div_self, Nat.mod_mul_right_mod]
  rw [key x, key y, h]

/-- The fields of a group that carries 37 bits. -/
theorem carried {s : Broadcast} (v : s.Valid) {bits : Nat} (c : s.Carries bits) (n k : Nat) :
    (n + k ≤ 16 → getBits n s.block4 k = bits / 2 ^ k % 2 ^ n) ∧
    (n + k ≤ 16 → getBits n s.block3 k = bits / 2 ^ 16 / 2 ^ k % 2 ^ n) ∧
    (n + k ≤ 5 → getBits n s.block2 k = bits / 2 ^ 32 / 2 ^ k % 2 ^ n) ∧
    (n + k ≤ 32 → getBits2 n s.block3 s.block4 k = bits / 2 ^ k % 2 ^ n) ∧
    (n + k ≤ 21 → getBits2 n s.block2 s.block3 k = bits / 2 ^ 16 / 2 ^ k % 2 ^ n) := by
  have n4 : s.block4.toNat = bits % 65536 := by rw [c.block4, BitVec.toNat_ofNat]
  have n3 : s.block3.toNat = bits / 65536 % 65536 := by rw [c.block3, BitVec.toNat_ofNat]
  have hl := c.low
  have := v.low
  refine ⟨fun h => ?_, fun h => ?_, fun h => ?_, fun h => ?_, fun h => ?_⟩
  · rw [getBits_eq_div]
    exact field_of_mod _ _ 16 n k (by rw [n4]; omega) h
  · rw [getBits_eq_div]
    exact field_of_mod _ _ 16 n k (by rw [n3]; omega) h
  · rw [block2_low v n k h, c.low]
  · rw [getBits2_eq_div]
    exact field_of_mod _ _ 32 n k (by rw [n3, n4]; omega) h
  · rw [getBits2_eq_div]
    refine field_of_mod _ _ 21 n k ?_ h
    rw [n3, block2_nat v]
    omega

/-- The names of the channels are those of the frequency plan. -/
theorem dabChannels_plan : Station.dabChannels = dabPlan := by decide +kernel

theorem dabModes_eq : ∀ m < 4, Station.dabModes[m]? = some (dabMode m) := by decide

/-- The tags that are shown for a text: those with a content type and with characters in the text
(`C28_rtplus_substring_partial` tells which). -/
def shownTags (text : Str) (tags : List PlusTag) : List J :=
  tags.filterMap fun t =>
    let part := substringChars text t.start (t.length + 1)
    if part.length > 0 ∧ t.contentType ≠ 0 then
      some (.obj [("content-type", .str (utf8Str (contentTypeNames.getD t.contentType ""))),
        ("data", .str (rtrim part))])
    else none

theorem contentTypes_found : ∀ n < 64, getRTPlusContentTypeString n =
    some (utf8Str (contentTypeNames.getD n "")) := by decide +kernel

theorem rtPlusTagOps_eq (key : String) (text : Str) (t : PlusTag) (h : t.contentType < 64) :
    Station.rtPlusTagOps key text t.contentType t.start (t.length + 1) =
      some ((shownTags text [t]).map (JOp.push [key, "tags"])) := by
  unfold Station.rtPlusTagOps shownTags
  dsimp only [List.filterMap_cons, List.filterMap_nil]
  split
  · rw [contentTypes_found _ h]
    rfl
  · rfl

theorem shownTags_append (text : Str) (a b : List PlusTag) :
    shownTags text (a ++ b) = shownTags text a ++ shownTags text b := by
  unfold shownTags
  rw [List.filterMap_append]

theorem plus_bits {s : Broadcast} (v : s.Valid) {r : PlusGroup} (vr : r.Valid) (c : s.Carries r.bits) :
    getBool s.block2 4 = r.toggle ∧ getBool s.block2 3 = r.running ∧
    getBits2 6 s.block2 s.block3 13 = r.tag1.contentType ∧ getBits 6 s.block3 7 = r.tag1.start ∧
    getBits 6 s.block3 1 = r.tag1.length ∧ getBits2 6 s.block3 s.block4 11 = r.tag2.contentType ∧
    getBits 6 s.block4 5 = r.tag2.start ∧ getBits 5 s.block4 0 = r.tag2.length := by
  obtain ⟨h1, h2, h3, h4, h5, h6⟩ := vr
  have ht := r.toggle.toNat_lt
  have hr := r.running.toNat_lt
  have hbits : r.bits = r.toggle.toNat * 2 ^ 36 + r.running.toNat * 2 ^ 35 + r.tag1.contentType * 2 ^ 29 +
    r.tag1.start * 2 ^ 23 + r.tag1.length * 2 ^ 17 + r.tag2.contentType * 2 ^ 11 +
    r.tag2.start * 2 ^ 5 + r.tag2.length := rfl
  have flag : ∀ b : Bool, (b.toNat != 0) = b := by decide
  refine ⟨?_, ?_, ?_, ?_, ?_, ?_, ?_, ?_⟩
  · unfold getBool
    rw [(carried v c 1 4).2.2.1 (by omega), hbits]
    refine Eq.trans ?_ (flag r.toggle)
    congr 1
    omega
  · unfold getBool
    rw [(carried v c 1 3).2.2.1 (by omega), hbits]
    refine Eq.trans ?_ (flag r.running)
    congr 1
    omega
  · rw [(carried v c 6 13).2.2.2.2 (by omega), hbits]
    omega
  · rw [(carried v c 6 7).2.1 (by omega), hbits]
    omega
  · rw [(carried v c 6 1).2.1 (by omega), hbits]
    omega
  · rw [(carried v c 6 11).2.2.2.1 (by omega), hbits]
    omega
  · rw [(carried v c 6 5).1 (by omega), hbits]
    omega
  · rw [(carried v c 5 0).1 (by omega), hbits]
    omega

section

variable {env : Env} (hk : env.tmc.KeysOk) {o : Options} {w : Nat} {p : Word} {gs : List Group}
  {st : Station} {ls : List (Option Line)}
  (h : Station.receive env (Station.withPI o w p) gs = some (st, ls)) {g : Group} {st' : Station} {j : J}
  (hu : st.updateAndPrint env g = some (st', some (.json j))) {s : Broadcast} (v : s.Valid)
  (hg : s.HeardAs g)

include hk h hu hg

include v in
/-- The operations for a group of type 14. -/
theorem other_parts (hn : s.number = 14) (h4 : g.has .b4 = true) (tp : Bool) (low : Nat) (hlow : low < 16)
    (hl : s.low = eonLow tp low) :
    ∃ hd rest b, J.build (hd ++ [] ++ (JOp.set ["other_network", "pi"] (.str (piText s.block4)) ::
      .set ["other_network", "tp"] (.bool tp) :: rest)) .null = some j ∧ st.options = o ∧
      (s.versionB = true → rest = [.set ["other_network", "ta"] (.bool (low / 8 == 1))]) ∧
      (s.versionB = false → g.has .b3 = true →
        getBits 4 (g.get .b2) 0 = low ∧ g.get .b3 = s.block3 ∧
        Station.eonVariant env { st with lastGroupHadPi := b } g = some (st', rest)) ∧
      ∀ op ∈ rest, op.Away ["other_network", "pi"] ∧ op.Away ["other_network", "tp"] := by
  obtain ⟨b, basics, body, hbuild, hd, hok, e2, ho, -, -⟩ := fields_parts hk h hu hg
  have e4 : g.get .b4 = s.block4 := hg.block4 h4
  have f4 : getBool (g.get .b2) 4 = tp := by
    rw [e2, block2_flag v 4 (by omega), hl, eonLow]
    refine Eq.trans ?_ (toNat_beq tp)
    have := tp.toNat_lt
    congr 1
    omega
  have f3 : getBool (g.get .b2) 3 = (low / 8 == 1) := by
    rw [e2, block2_flag v 3 (by omega), hl, eonLow]
    have := tp.toNat_lt
    congr 1
    omega
  have f0 : getBits 4 (g.get .b2) 0 = low := by
    rw [e2, block2_low v 4 0 (by omega), hl, eonLow]
    have := tp.toNat_lt
    omega
  have hd' : Station.decodeType14 env { st with lastGroupHadPi := b } g = some (st', body) := by
    rw [← hd]
    unfold Station.dispatch
    rw [hg.type, hn]
    cases s.versionB <;> rfl
  unfold Station.decodeType14 at hd'
  rw [h4, e4, f4, f3, prefixedHex4_eq] at hd'
  simp only [Bool.not_true, Bool.false_eq_true, if_false] at hd'
  have hver : g.type.version = if s.versionB then .B else .A := by rw [hg.type]
  cases hvb : s.versionB with
  | true =>
    rw [hvb, if_pos rfl] at hver
    rw [if_pos hver] at hd'
    cases hd'
    refine ⟨st.headerOps env g ++ basics, _, b, ?_, ho, fun _ => rfl, by simp, ?_⟩
    · rw [List.append_nil]
      exact hbuild
    · intro op hop
      rw [List.mem_singleton.mp hop]
      exact ⟨rfl, rfl⟩
  | false =>
    rw [hvb, if_neg (by decide)] at hver
    rw [if_neg (by rw [hver]; decide)] at hd'
    by_cases h3 : g.has .b3 = true
    · rw [h3] at hd'
      simp only [Bool.not_true, Bool.false_eq_true, if_false] at hd'
      obtain ⟨r, hr, he⟩ := Option.bind_eq_some_iff.mp hd'
      cases he
      refine ⟨st.headerOps env g ++ basics, r.2, b, ?_, ho, by simp, fun _ _ => ⟨f0, hg.block3 h3, hr⟩, ?_⟩
      · rw [List.append_nil]
        exact hbuild
      · intro op hop
        have := eonVariant_paths hr op hop
        rw [f0] at this
        have all : ∀ low < 16, ∀ a ∈ variantPaths low, diverge ["other_network", "pi"] a = true ∧
            diverge ["other_network", "tp"] a = true := by decide
        exact all low hlow _ this
    · rw [Bool.not_eq_true] at h3
      rw [h3] at hd'
      simp only [Bool.not_false, if_true] at hd'
      cases hd'
      refine ⟨st.headerOps env g ++ basics, [], b, ?_, ho, by simp, by simp [h3], by simp⟩
      rw [List.append_nil]
      exact hbuild

include v in
/-- **C62**: PI code, traffic programme and traffic announcement of another network, in groups of types
14A and 14B. -/
theorem C62_other_network (hn : s.number = 14) (h4 : g.has .b4 = true) (tp : Bool) (low : Nat)
    (hlow : low < 16) (hl : s.low = eonLow tp low) :
    j.at? ["other_network", "pi"] = some (.str (piText s.block4)) ∧
    j.at? ["other_network", "tp"] = some (.bool tp) ∧
    (s.versionB = true → j.at? ["other_network", "ta"] = some (.bool (low / 8 == 1))) := by
  obtain ⟨hd, rest, b, hb, -, hB, -, away⟩ := other_parts hk h hu v hg hn h4 tp low hlow hl
  refine ⟨at_body_set hb _ _ [] _ rfl ?_, at_body_set hb _ _ [_] _ rfl fun op hop => (away op hop).2, ?_⟩
  · intro op hop
    rcases List.mem_cons.mp hop with rfl | hop
    · rfl
    · exact (away op hop).1
  · intro hvb
    rw [hB hvb] at hb
    exact at_body_set hb _ _ [_, _] [] rfl (by simp)

include v in
/-- **C62** (partial): the variants of group 14A without text and lists. Missing for the full property:
the mapped AM frequency of variant 9 (`C62_mapped_am_violated`). -/
theorem C62_other_network_variants_partial (hn : s.number = 14) (hb : s.versionB = false)
    (h3 : g.has .b3 = true) (h4 : g.has .b4 = true) (tp : Bool) (variant : Nat)
    (hvar : variant < 16) (hl : s.low = eonLow tp variant) :
    (5 ≤ variant → variant ≤ 8 → ∀ code, s.block3.toNat % 256 = code → 1 ≤ code → code ≤ 204 →
      j.at? ["other_network", "kilohertz"] = some (.int (87500 + 100 * code))) ∧
    (variant = 12 → j.at? ["other_network", "has_linkage"] = some (.bool (s.block3.toNat / 32768 == 1)) ∧
      (32768 ≤ s.block3.toNat → s.block3.toNat % 4096 ≠ 0 →
        j.at? ["other_network", "linkage_set"] = some (.nat (s.block3.toNat % 4096)))) ∧
    (variant = 13 → j.at? ["other_network", "ta"] = some (.bool (s.block3.toNat % 2 == 1)) ∧
      ∃ t, ptyName o.rbds (s.block3.toNat / 2048) = some t ∧
        j.at? ["other_network", "prog_type"] = some (.str t)) ∧
    (variant = 14 → 1 ≤ pinDay s.block3 → pinHour s.block3 ≤ 23 → pinMinute s.block3 ≤ 59 →
      j.at? ["other_network", "prog_item_number"] = some (.nat s.block3.toNat) ∧
      j.at? ["other_network", "prog_item_started", "day"] = some (.nat (pinDay s.block3)) ∧
      j.at? ["other_network", "prog_item_started", "time"] = some (.str
        (twoDigits (pinHour s.block3) ++ ascii ":" ++ twoDigits (pinMinute s.block3)))) ∧
    (variant = 15 →
      j.at? ["other_network", "broadcaster_data"] = some (.str (hexPadded 4 s.block3.toNat))) := by
  obtain ⟨hd, rest, b, hbuild, ho, -, hA, -⟩ := other_parts hk h hu v hg hn h4 tp variant hvar hl
  obtain ⟨hv, e3, hr⟩ := hA hb h3
  unfold Station.eonVariant at hr
  rw [hv, e3] at hr
  dsimp only at hr
  have hlt := s.block3.isLt
  refine ⟨?_, ?_, ?_, ?_, ?_⟩
  · intro v1 v2 code hcode c1 c2
    rw [if_neg (by omega), if_neg (by omega), if_pos (by omega), (getUint8_codes _).2, hcode] at hr
    obtain ⟨q1, q2, -⟩ := C32_fm code
    rw [if_pos (q1.mpr ⟨c1, c2⟩), (q2 ⟨c1, c2⟩).1] at hr
    rw [show rest = _ from (congrArg Prod.snd (Option.some.inj hr)).symm] at hbuild
    exact at_body_set hbuild _ _ [_, _] [] rfl (by simp)
  · intro hv12
    subst hv12
    have b15 : getBool s.block3 15 = (s.block3.toNat / 32768 == 1) := by
      rw [getBool_eq_div]
      congr 1
      omega
    have b0 : getBits 12 s.block3 0 = s.block3.toNat % 4096 := by
      rw [getBits_eq_div]
      omega
    rw [if_neg (by omega), if_neg (by omega), if_neg (by omega), if_pos rfl, b15, b0] at hr
    rw [show rest = _ from (congrArg Prod.snd (Option.some.inj hr)).symm] at hbuild
    refine ⟨at_body_set hbuild _ _ [_, _] _ rfl ?_, ?_⟩
    · intro op hop
      split at hop
      · rw [List.mem_singleton.mp hop]
        rfl
      · cases hop
    · intro l1 l2
      dsimp only at hbuild
      rw [if_pos ⟨beq_iff_eq.mpr (by omega), l2⟩] at hbuild
      exact at_body_set hbuild _ _ [_, _, _] [] rfl (by simp)
  · intro hv13
    subst hv13
    have b0 : getBool s.block3 0 = (s.block3.toNat % 2 == 1) := by
      rw [getBool_eq_div]
      congr 1
      omega
    have b11 : getBits 5 s.block3 11 = s.block3.toNat / 2048 := by
      rw [getBits_eq_div]
      omega
    rw [if_neg (by omega), if_neg (by omega), if_neg (by omega), if_neg (by omega), if_pos rfl, b0,
      b11, ptyString_eq _ _ (by omega)] at hr
    obtain ⟨t, ht, hr⟩ := Option.bind_eq_some_iff.mp hr
    rw [show rest = _ from (congrArg Prod.snd (Option.some.inj hr)).symm] at hbuild
    refine ⟨at_body_set hbuild _ _ [_, _, _] [] rfl (by simp), t, ?_, at_body_set hbuild _ _ [_, _] [_] rfl ?_⟩
    · rw [← ho]
      exact ht
    · intro op hop
      rw [List.mem_singleton.mp hop]
      rfl
  · intro hv14 hd1 hd2 hd3
    subst hv14
    obtain ⟨c1, c2⟩ := C46_pin_partial s.block3
    obtain ⟨out, hout⟩ := Option.isSome_iff_exists.mp (c1 ⟨hd1, hd2, hd3⟩)
    obtain ⟨-, -, -, -, o1, o2, o3⟩ := c2 out hout
    have hne : s.block3 ≠ 0 := by
      intro he
      rw [he] at hd1
      exact absurd hd1 (by decide)
    rw [if_neg (by omega), if_neg (by omega), if_neg (by omega), if_neg (by omega), if_neg (by omega),
      if_pos rfl, if_pos hne, hout] at hr
    rw [show rest = _ from (congrArg Prod.snd (Option.some.inj hr)).symm] at hbuild
    rw [← o3, ← o2, ← o1]
    refine ⟨at_body_set hbuild _ _ [_, _] [_, _] rfl ?_, at_body_set hbuild _ _ [_, _, _] [_] rfl ?_,
      at_body_set hbuild _ _ [_, _, _, _] [] rfl (by simp)⟩
    · intro op hop
      rcases List.mem_cons.mp hop with rfl | hop
      · rfl
      · rw [List.mem_singleton.mp hop]
        rfl
    · intro op hop
      rw [List.mem_singleton.mp hop]
      rfl
  · intro hv15
    subst hv15
    rw [if_neg (by omega), if_neg (by omega), if_neg (by omega), if_neg (by omega), if_neg (by omega),
      if_neg (by omega), if_pos rfl] at hr
    rw [show rest = _ from (congrArg Prod.snd (Option.some.inj hr)).symm] at hbuild
    exact at_body_set hbuild _ _ [_, _] [] rfl (by simp)

include v in
/-- **C62**, violated: variant 9 of group 14A maps an FM frequency to an LF or MF frequency, but
the code of the latter is always taken for an FM code: the frequency printed is never the one sent. -/
theorem C62_mapped_am_violated (hn : s.number = 14) (hb : s.versionB = false)
    (h3 : g.has .b3 = true) (h4 : g.has .b4 = true) (tp : Bool) (hl : s.low = eonLow tp 9) (code : Nat)
    (hcode : s.block3.toNat % 256 = code) (hc1 : 1 ≤ code) (hc2 : code ≤ 135) :
    ∃ x, j.at? ["other_network", "kilohertz"] = some (.int x) ∧
      x ≠ CarrierFrequency.kHz { code := code, band := .lfMf } := by
  obtain ⟨hd, rest, b, hbuild, ho, -, hA, -⟩ := other_parts hk h hu v hg hn h4 tp 9 (by omega) hl
  obtain ⟨hv, e3, hr⟩ := hA hb h3
  unfold Station.eonVariant at hr
  rw [hv, e3] at hr
  dsimp only at hr
  rw [if_neg (by omega), if_neg (by omega), if_pos (by omega), (getUint8_codes _).2, hcode] at hr
  obtain ⟨q1, q2, -⟩ := C32_fm code
  rw [if_pos (q1.mpr ⟨hc1, by omega⟩), (q2 ⟨hc1, by omega⟩).1] at hr
  rw [show rest = _ from (congrArg Prod.snd (Option.some.inj hr)).symm] at hbuild
  refine ⟨_, at_body_set hbuild _ _ [_, _] [] rfl (by simp), ?_⟩
  obtain ⟨-, l1, l2, -⟩ := C32_lf_mf code
  by_cases h15 : code ≤ 15
  · have := l1 ⟨hc1, h15⟩
    omega
  · have := l2 ⟨by omega, hc2⟩
    omega

/-- The decoder of an application is used for the groups it was announced for. -/
theorem app_parts (app : Word) (ha : assignedApp (decodedGroups gs ls) g.type = some app)
    (hf : g.type ∉ fixedTypes) : ∃ b hd body, J.build (hd ++ [] ++ body) .null = some j ∧
      KeysIn commonMembers hd ∧
      Station.decodeODAApp env { st with lastGroupHadPi := b } g app = some (st', body) ∧
      g.get .b2 = s.block2 := by
  obtain ⟨b, basics, body, hbuild, hd, hok, e2, ho, -, hkeys⟩ := fields_parts hk h hu hg
  have hst := (C47_latest_assignment env hk o w p gs st ls h g.type).trans ha
  refine ⟨b, _, body, by rw [List.append_nil]; exact hbuild, hkeys, ?_, e2⟩
  rw [← hd]
  refine (C47_application env { st with lastGroupHadPi := b } g app ?_ hf hst).symm
  rw [hg.type]
  show (if s.versionB then Version.B else .A) ≠ .C
  split <;> decide

include v in
/-- **C62**: the cross reference to a DAB ensemble, in groups announced for application 0093. -/
theorem C62_dab (ha : assignedApp (decodedGroups gs ls) g.type = some 0x0093)
    (hf : g.type ∉ fixedTypes) (h3 : g.has .b3 = true) (h4 : g.has .b4 = true)
    (mode frequency : Nat) (ensemble : Word) (hm : mode < 4) (hfr : frequency < 2 ^ 18)
    (c : s.Carries (dabBits mode frequency ensemble)) :
    j.at? ["dab", "mode"] = some (.str (ascii (dabMode mode))) ∧
    j.at? ["dab", "kilohertz"] = some (.nat (16 * frequency)) ∧
    j.at? ["dab", "ensemble_id"] = some (.str (piText ensemble)) ∧
    j.at? ["dab", "channel"] = (dabPlan.lookup (16 * frequency)).map fun n => .str (ascii n) := by
  obtain ⟨b, hd, body, hbuild, hkeys, hdec, e2⟩ := app_parts hk h hu hg _ ha hf
  have e3 : g.get .b3 = s.block3 := hg.block3 h3
  have e4 : g.get .b4 = ensemble := by
    rw [show g.get .b4 = s.block4 from hg.block4 h4, c.block4, dabBits]
    apply BitVec.eq_of_toNat_eq
    rw [BitVec.toNat_ofNat]
    have := ensemble.isLt
    omega
  have he := ensemble.isLt
  have hbits : dabBits mode frequency ensemble = mode * 2 ^ 34 + frequency * 2 ^ 16 + ensemble.toNat := rfl
  have f4 : getBool (g.get .b2) 4 = false := by
    rw [e2]
    unfold getBool
    rw [(carried v c 1 4).2.2.1 (by omega), hbits]
    have : (mode * 2 ^ 34 + frequency * 2 ^ 16 + ensemble.toNat) / 2 ^ 32 / 2 ^ 4 % 2 ^ 1 = 0 := by omega
    rw [this]
    rfl
  have fm : getBits 2 (g.get .b2) 2 = mode := by
    rw [e2, (carried v c 2 2).2.2.1 (by omega), hbits]
    omega
  have ff : getBits2 18 (g.get .b2) (g.get .b3) 0 = frequency := by
    rw [e2, e3, (carried v c 18 0).2.2.2.2 (by omega), hbits]
    omega
  unfold Station.decodeODAApp at hdec
  rw [if_pos rfl] at hdec
  obtain ⟨ops, hops, he⟩ := Option.map_eq_some_iff.mp hdec
  have he : ops = body := congrArg Prod.snd he
  subst he
  unfold Station.parseDAB at hops
  rw [f4, fm, ff, e4, dabModes_eq _ hm, dabChannels_plan, prefixedHex4_eq] at hops
  simp only [Bool.false_eq_true, if_false, Option.bind_eq_bind, Option.bind_some, Option.pure_def] at hops
  have hops := (Option.some.inj hops).symm
  cases hch : dabPlan.lookup (16 * frequency) with
  | none =>
    rw [hch] at hops
    refine ⟨at_body_set hbuild _ _ [] [_, _] hops ?_, at_body_set hbuild _ _ [_] [_] hops ?_,
      at_body_set hbuild _ _ [_, _] [] hops (by simp), ?_⟩
    · intro op hop
      simp only [List.mem_cons, List.not_mem_nil, or_false] at hop
      rcases hop with rfl | rfl <;> rfl
    · intro op hop
      rw [List.mem_singleton.mp hop]
      rfl
    · rw [at_build_other ["dab", "channel"] _ .null j ?_ hbuild]
      · rfl
      intro op hop
      rw [List.append_nil] at hop
      rcases List.mem_append.mp hop with hop | hop
      · exact keysIn_away hkeys _ _ (by decide) op hop
      · rw [hops] at hop
        simp only [Option.map_none, Option.toList_none, List.append_nil, List.cons_append, List.nil_append,
          List.mem_cons, List.not_mem_nil, or_false] at hop
        rcases hop with rfl | rfl | rfl <;> rfl
  | some ch =>
    rw [hch] at hops
    refine ⟨at_body_set hbuild _ _ [] [_, _, _] hops ?_, at_body_set hbuild _ _ [_] [_, _] hops ?_,
      at_body_set hbuild _ _ [_, _, _] [] hops (by simp), at_body_set hbuild _ _ [_, _] [_] hops ?_⟩
    · intro op hop
      simp only [List.mem_cons, List.not_mem_nil, or_false] at hop
      rcases hop with rfl | rfl | rfl <;> rfl
    · intro op hop
      simp only [List.mem_cons, List.not_mem_nil, or_false] at hop
      rcases hop with rfl | rfl <;> rfl
    · intro op hop
      rw [List.mem_singleton.mp hop]
      rfl

include v in
/-- **C62**: RadioText Plus, in groups announced for applications 4BD7 and 4BD8: the item flags, and the
tagged parts of the text, which is empty if a flag has changed. -/
theorem C62_radiotext_plus (app : Word) (key : String) (rt : RadioText)
    (happ : app = 0x4BD7 ∧ key = "radiotext_plus" ∧ rt = st.radiotext ∨
      app = 0x4BD8 ∧ key = "ert_plus" ∧ rt = st.ert)
    (ha : assignedApp (decodedGroups gs ls) g.type = some app)
    (hf : g.type ∉ fixedTypes) (h3 : g.has .b3 = true) (h4 : g.has .b4 = true)
    (r : PlusGroup) (vr : r.Valid) (c : s.Carries r.bits) :
    j.at? [key, "item_running"] = some (.bool r.running) ∧
    j.at? [key, "item_toggle"] = some (.nat r.toggle.toNat) ∧
    j.at? [key, "tags"] =
      let text := if r.toggle = rt.plus.toggle ∧ r.running = rt.plus.itemRunning then
        rt.text.lastCompleteString else []
      if shownTags text [r.tag1, r.tag2] = [] then none
      else some (.arr (shownTags text [r.tag1, r.tag2])) := by
  obtain ⟨b, hd, body, hbuild, hkeys, hdec, e2⟩ := app_parts hk h hu hg _ ha hf
  have e3 : g.get .b3 = s.block3 := hg.block3 h3
  have e4 : g.get .b4 = s.block4 := hg.block4 h4
  obtain ⟨b1, b2, b3, b4, b5, b6, b7, b8⟩ := plus_bits v vr c
  have hkey : key ∉ commonMembers := by
    rcases happ with ⟨-, hx, -⟩ | ⟨-, hx, -⟩ <;> rw [hx] <;> decide
  have hparse : ∃ rt', Station.parseRadioTextPlus key rt g = some (rt', body) := by
    unfold Station.decodeODAApp at hdec
    rcases happ with ⟨h1, h2, h3⟩ | ⟨h1, h2, h3⟩
    · rw [h1, if_neg (by decide), if_pos rfl] at hdec
      obtain ⟨x, hx, he⟩ := Option.map_eq_some_iff.mp hdec
      rw [h2, h3]
      exact ⟨x.1, hx.trans (by rw [← show x.2 = body from congrArg Prod.snd he])⟩
    · rw [h1, if_neg (by decide), if_neg (by decide), if_pos rfl] at hdec
      obtain ⟨x, hx, he⟩ := Option.map_eq_some_iff.mp hdec
      rw [h2, h3]
      exact ⟨x.1, hx.trans (by rw [← show x.2 = body from congrArg Prod.snd he])⟩
  obtain ⟨rt', hparse⟩ := hparse
  unfold Station.parseRadioTextPlus at hparse
  rw [h3, h4, e2, e3, e4, b1, b2, b3, b4, b5, b6, b7, b8] at hparse
  dsimp only at hparse
  have htext : (if (r.toggle != rt.plus.toggle || r.running != rt.plus.itemRunning) = true then
      { rt with text := rt.text.clear, plus := { toggle := r.toggle, itemRunning := r.running } }
      else rt).text.lastCompleteString =
      if r.toggle = rt.plus.toggle ∧ r.running = rt.plus.itemRunning then rt.text.lastCompleteString
      else [] := by
    cases r.toggle <;> cases rt.plus.toggle <;> cases r.running <;> cases rt.plus.itemRunning <;> rfl
  rw [htext] at hparse
  dsimp only
  generalize (if r.toggle = rt.plus.toggle ∧ r.running = rt.plus.itemRunning then
    rt.text.lastCompleteString else []) = text at *
  simp only [if_true, Bool.and_self] at hparse
  rw [rtPlusTagOps_eq _ _ _ vr.type1, rtPlusTagOps_eq _ _ _ vr.type2] at hparse
  simp only [Option.bind_eq_bind, Option.bind_some, Option.pure_def] at hparse
  have hbody := (congrArg Prod.snd (Option.some.inj hparse)).symm
  dsimp only at hbody
  rw [List.append_assoc, ← List.map_append, ← shownTags_append,
    show (if r.toggle = true then 1 else 0) = r.toggle.toNat by cases r.toggle <;> rfl] at hbody
  have tagsAway : ∀ k, k ≠ "tags" → ∀ op ∈ (shownTags text ([r.tag1] ++ [r.tag2])).map
      (JOp.push [key, "tags"]), op.Away [key, k] := by
    intro k hk op hop
    obtain ⟨x, -, rfl⟩ := List.mem_map.mp hop
    show diverge [key, k] [key, "tags"] = true
    simp [diverge, hk]
  refine ⟨at_body_set hbuild _ _ [_] _ hbody ?_, at_body_set hbuild _ _ [_, _] _ hbody ?_, ?_⟩
  · intro op hop
    rcases List.mem_cons.mp hop with rfl | hop
    · show diverge [key, "item_running"] [key, "item_toggle"] = true
      simp [diverge]
    · exact tagsAway _ (by decide) op hop
  · exact tagsAway _ (by decide)
  · rw [hbody, List.append_nil, build_append, Option.bind_eq_some_iff] at hbuild
    obtain ⟨j1, h1, hbuild⟩ := hbuild
    rw [List.cons_append, build_cons, Option.bind_eq_some_iff] at hbuild
    obtain ⟨j2, h2, hbuild⟩ := hbuild
    rw [build_append, Option.bind_eq_some_iff] at hbuild
    obtain ⟨j3, h3, h4⟩ := hbuild
    have n1 : j1.get? key = none := by
      rw [keysIn_get hkeys hkey h1]
      rfl
    have n2 : j2.at? [key, "tags"] = none := by
      obtain ⟨x, hx, hy⟩ := get_update_self key [] _ j1 j2 h2
      rw [n1] at hx
      cases hx
      rw [J.at?, hy]
      rfl
    have n3 : j3.at? [key, "tags"] = none := by
      rw [at_build_other _ _ j2 j3 ?_ h3, n2]
      intro op hop
      simp only [List.mem_cons, List.not_mem_nil, or_false] at hop
      rcases hop with rfl | rfl
      · show diverge [key, "tags"] [key, "item_running"] = true
        simp [diverge]
      · show diverge [key, "tags"] [key, "item_toggle"] = true
        simp [diverge]
    split
    · rename_i hne
      rw [show [r.tag1] ++ [r.tag2] = [r.tag1, r.tag2] from rfl, hne, List.map_nil] at h4
      cases h4
      exact n3
    · rename_i hne
      exact at_build_pushes_new _ _ hne j3 j n3 h4

end

/-! ### Groups that were heard -/

theorem block2_type {s : Broadcast} (v : s.Valid) :
    typeNumber s.block2 = s.number ∧ versionBit s.block2 = s.versionB := by
  have hp := v.pty
  have hl := v.low
  have hn := v.number
  have h1 := s.versionB.toNat_lt
  have h2 := s.tp.toNat_lt
  constructor
  · unfold typeNumber
    rw [block2_nat v]
    omega
  · unfold versionBit
    rw [BitVec.getLsbD, Nat.testBit_eq_decide_div_mod_eq, block2_nat v]
    have : (s.number * 4096 + s.versionB.toNat * 2048 + s.tp.toNat * 1024 + s.pty * 32 + s.low) / 2 ^ 11 % 2 =
        s.versionB.toNat := by omega
    rw [this]
    cases s.versionB <;> rfl

/-- **C62**: what the theorems ask for is met by every group that was delivered from a bit stream with
blocks as sent, if block 2 was received and, for version B, block 3 was received as a C' block. -/
theorem C62_heard (fec : Bool) (bs : List Bool) (bit : Bool) (g : Group)
    (hdel : deliveredAt fec bs bit = some g) (s : Broadcast) (v : s.Valid) (h2 : g.has .b2 = true)
    (e2 : g.get .b2 = s.block2) (e3 : g.has .b3 = true → g.get .b3 = s.block3)
    (e4 : g.has .b4 = true → g.get .b4 = s.block4)
    (hB : s.versionB = true → g.has .b3 = true ∧ (g.block .b3).offset = .Cprime) : s.HeardAs g := by
  obtain ⟨t1, t2⟩ := C12_group_type fec bs bit g hdel
  obtain ⟨n1, n2⟩ := t2 h2
  obtain ⟨b1, b2⟩ := block2_type v
  rw [e2] at t1 n1 n2
  rw [b1] at n1
  rw [b2] at n2 t1
  refine ⟨t1.mpr ⟨h2, ?_⟩, ?_, h2, e2, e3, e4⟩
  · cases hv : s.versionB with
    | false => exact .inl rfl
    | true => exact .inr (hB hv)
  · rw [← n1, ← n2]

/-! ### Examples -/

/-- The member at a path of the line for the last group. -/
def demoMember (gs : List Group) (g : Group) (path : List String) : Option Str :=
  match (Station.receive demoEnv (Station.withPI {} 0 0x6204) gs).bind fun r =>
    r.1.updateAndPrint demoEnv g with
  | some (_, some (.json j)) => match j.at? path with
    | some (.str t) => some t
    | some (.nat n) => some (decimal n)
    | some (.int n) => some (decimal n.toNat)
    | some (.bool b) => some (ascii (if b then "true" else "false"))
    | some (.arr l) => some (decimal l.length)
    | _ => none
  | _ => none

/-- A group that was received as sent. -/
def demoHeard (s : Broadcast) : Group := demoGroup 0x6204 s.block2 s.block3 s.block4

/-- Group 0A of a station with traffic programme, which plays music and sends the stereo bit. -/
def demoSwitching : Broadcast :=
  { number := 0, tp := true, pty := 10, low := tuningLow false true true 3, block3 := 0xE0CD, block4 := 0x2020 }

example : demoSwitching.Valid ∧ demoSwitching.HeardAs (demoHeard demoSwitching) :=
  ⟨by constructor <;> decide, by constructor <;> decide +kernel⟩

example : demoMember [] (demoHeard demoSwitching) ["tp"] = some (ascii "true") ∧
    demoMember [] (demoHeard demoSwitching) ["prog_type"] = some (ascii "Pop music") ∧
    demoMember [] (demoHeard demoSwitching) ["is_music"] = some (ascii "true") ∧
    demoMember [] (demoHeard demoSwitching) ["di", "stereo"] = some (ascii "true") := by
  decide +kernel

/-- Group 14A about network 6205: FM frequency 98.0 MHz. -/
def demoNetwork : Broadcast :=
  { number := 14, low := eonLow true 5, block3 := 0x0A69, block4 := 0x6205 }

example : demoNetwork.Valid ∧ demoNetwork.HeardAs (demoHeard demoNetwork) :=
  ⟨by constructor <;> decide, by constructor <;> decide +kernel⟩

example : demoMember [] (demoHeard demoNetwork) ["other_network", "kilohertz"] = some (ascii "98000") ∧
    demoMember [] (demoHeard demoNetwork) ["other_network", "pi"] = some (ascii "0x6205") ∧
    demoMember [] (demoHeard { demoNetwork with low := eonLow true 9, block3 := 0x0A06 })
      ["other_network", "kilohertz"] = some (ascii "88100") := by decide +kernel

/-- Announcement of application 0093 for groups of type 12A, and a group: channel 11D. -/
def demoAnnounced : Broadcast := { number := 3, low := 24, block3 := 0, block4 := 0x0093 }

def demoDab : Broadcast :=
  { number := 12, low := dabBits 1 13879 0x1001 / 2 ^ 32
    block3 := BitVec.ofNat 16 (dabBits 1 13879 0x1001 / 2 ^ 16), block4 := BitVec.ofNat 16 (dabBits 1 13879 0x1001) }

example : demoDab.Valid ∧ demoDab.Carries (dabBits 1 13879 0x1001) ∧ demoDab.HeardAs (demoHeard demoDab) ∧
    assignedApp [demoHeard demoAnnounced] ⟨12, .A⟩ = some 0x0093 :=
  ⟨by constructor <;> decide, by constructor <;> decide, by constructor <;> decide +kernel, by decide +kernel⟩

example : demoMember [demoHeard demoAnnounced] (demoHeard demoDab) ["dab", "channel"] = some (ascii "11D") ∧
    demoMember [demoHeard demoAnnounced] (demoHeard demoDab) ["dab", "ensemble_id"] = some (ascii "0x1001") := by
  decide +kernel

/-- Application 4BD7 in groups of type 11A: the tags do not refer to a complete text yet. -/
def demoPlus : PlusGroup := ⟨true, true, ⟨4, 0, 5⟩, ⟨1, 9, 3⟩⟩

def demoTagged : Broadcast :=
  { number := 11, low := demoPlus.bits / 2 ^ 32, block3 := BitVec.ofNat 16 (demoPlus.bits / 2 ^ 16)
    block4 := BitVec.ofNat 16 demoPlus.bits }

example : demoTagged.Valid ∧ demoPlus.Valid ∧ demoTagged.Carries demoPlus.bits ∧
    demoTagged.HeardAs (demoHeard demoTagged) :=
  ⟨by constructor <;> decide, by constructor <;> decide, by constructor <;> decide, by constructor <;> decide +kernel⟩

/-- With flags as before and a complete text, both tags are shown. -/
example : demoMember ([{ demoAnnounced with low := 22, block4 := 0x4BD7 }, demoTagged].map demoHeard ++
      [demoGroup 0x6204 0x2400 0x4142 0x4344, demoGroup 0x6204 0x2401 0x4546 0x202D,
       demoGroup 0x6204 0x2402 0x2048 0x494A, demoGroup 0x6204 0x2403 0x4B4C 0x2E0D])
      (demoHeard demoTagged) ["radiotext_plus", "tags"] = some (ascii "2") := by
  decide +kernel

end Redsea
