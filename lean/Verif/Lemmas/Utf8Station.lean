import Verif.Lemmas.Utf8Strings
import Verif.Lemmas.StationKeys

/-
The strings that a station prints are valid UTF-8, except for those of 15A groups, RadioText Plus and
enhanced RadioText.
-/

namespace Redsea

/-! ### Texts -/

/-- A text in the basic character set, whose last complete state is valid UTF-8. -/
def RDSString.Clean (s : RDSString) : Prop := s.encoding = .basic ∧ Utf8 s.lastCompleteString

theorem clean_new (n : Nat) : (RDSString.new n).Clean := ⟨rfl, .nil⟩

theorem clean_str {u : Ucs2Decoder} {s : RDSString} {t : Str} (h : s.encoding = .basic) (ht : s.str u = some t) :
    Utf8 t := by
  unfold RDSString.str RDSString.decode at ht
  rw [h] at ht
  rw [← Option.some.inj ht]
  exact Utf8.flatMap _ _ fun b _ => utf8_char b

theorem clean_set (u : Ucs2Decoder) {s : RDSString} (h : s.Clean) (pos : Nat) (b : Byte) : (s.set u pos b).Clean := by
  refine ⟨by rw [set_encoding]; exact h.1, ?_⟩
  unfold RDSString.set
  split
  · exact h.2
  dsimp only
  split
  · split
    · exact .nil
    · rename_i t ht
      exact clean_str (s := s.store pos b) h.1 ht
  · exact h.2

theorem clean_set2 (u : Ucs2Decoder) {s : RDSString} (h : s.Clean) (pos : Nat) (a b : Byte) :
    (s.set2 u pos a b).Clean := clean_set u (clean_set u h _ _) _ _

theorem clean_clear {s : RDSString} (h : s.Clean) : s.clear.Clean := ⟨h.1, .nil⟩

theorem clean_resize {s : RDSString} (h : s.Clean) (n : Nat) : (s.resize n).Clean := h

/-! ### Operations -/

theorem opsUtf8_nil : OpsUtf8 [] := by simp [OpsUtf8]
theorem opsUtf8_cons (op : JOp) (ops : List JOp) : OpsUtf8 (op :: ops) ↔ op.utf8 = true ∧ OpsUtf8 ops := by
  simp [OpsUtf8]
theorem opsUtf8_append (a b : List JOp) : OpsUtf8 (a ++ b) ↔ OpsUtf8 a ∧ OpsUtf8 b := by
  simp [OpsUtf8, or_imp, forall_and]
theorem opsUtf8_map {α : Type} (l : List α) (f : α → JOp) (h : ∀ a ∈ l, (f a).utf8 = true) :
    OpsUtf8 (l.map f) := by
  intro op hop
  obtain ⟨a, ha, rfl⟩ := List.mem_map.1 hop
  exact h a ha
theorem opsUtf8_ite (c : Prop) [Decidable c] (a b : List JOp) (ha : OpsUtf8 a) (hb : OpsUtf8 b) :
    OpsUtf8 (if c then a else b) := by split <;> assumption
theorem opsUtf8_toList {α : Type} (o : Option α) (f : α → JOp) (h : ∀ a, o = some a → (f a).utf8 = true) :
    OpsUtf8 (o.map f).toList := by
  cases o with
  | none => simp [OpsUtf8]
  | some a => simpa [OpsUtf8] using h a rfl
theorem set_str_utf8 (p : List String) {s : Str} (h : Utf8 s) : (JOp.set p (.str s)).utf8 = true := h.valid
theorem push_str_utf8 (p : List String) {s : Str} (h : Utf8 s) : (JOp.push p (.str s)).utf8 = true := h.valid
theorem debugOp_utf8 {s : Str} (h : Utf8 s) : (debugOp s).utf8 = true := h.valid

theorem utf8List_ints (l : List Byte) : J.utf8List (l.map fun b => J.nat b.toNat) = true := by
  induction l with
  | nil => rfl
  | cons b l ih => exact ih

theorem set_bytes_utf8 (p : List String) (l : List Byte) : (JOp.set p (Station.byteArray l)).utf8 = true :=
  utf8List_ints l

/-- Shows that the listed operations have valid strings. -/
macro "ops_utf8" : tactic => `(tactic| (
  try dsimp only
  repeat' first
    | with_reducible assumption
    | with_reducible exact opsUtf8_nil
    | with_reducible refine (opsUtf8_cons _ _).2 ⟨?_, ?_⟩
    | with_reducible refine (opsUtf8_append _ _).2 ⟨?_, ?_⟩
    | with_reducible refine opsUtf8_ite _ _ _ ?_ ?_
    | (with_reducible refine opsUtf8_map _ _ ?_; intro _ _)
    | (with_reducible refine opsUtf8_toList _ _ ?_; intro _ _)
    | with_reducible refine debugOp_utf8 ?_
    | with_reducible refine set_str_utf8 _ ?_
    | with_reducible refine push_str_utf8 _ ?_
    | with_reducible exact set_bytes_utf8 _ _
    | with_reducible exact utf8_hoursMinutes _ _
    | with_reducible exact utf8_groupType _
    | with_reducible exact utf8_hexBytes _
    | with_reducible exact utf8_printHex _
    | with_reducible exact utf8_odaRaw _
    | with_reducible exact Utf8.nil
    | with_reducible refine Utf8.append ?_ ?_
    | with_reducible exact utf8_hexPadded _ _
    | with_reducible exact utf8_decimal _
    | with_reducible exact utf8_prefixedHex4 _
    | with_reducible exact utf8_utf8Str _
    | with_reducible exact utf8_callsign _
    | with_reducible exact utf8_appName _
    | (with_reducible refine utf8_literal _ ?_; decide)
    | rfl))

/-- The texts of a station. -/
structure Station.Clean (st : Station) : Prop where
  ps : st.ps.Clean
  radiotext : st.radiotext.text.Clean
  ptyname : st.ptyname.text.Clean
  fullTdc : st.fullTdc.encoding = .basic
  eonPs : ∀ p t, st.eonPs p = some t → t.Clean
  tmc : st.tmc.ps.Clean

theorem clean_unknown (o : Options) (w : Nat) : (Station.unknown o w).Clean :=
  ⟨clean_new _, clean_new _, clean_new _, rfl, fun p t h => by simp [Station.unknown] at h, clean_new _⟩

theorem clean_withPI (o : Options) (w : Nat) (p : Word) : (Station.withPI o w p).Clean :=
  let h := clean_unknown o w
  ⟨h.ps, h.radiotext, h.ptyname, h.fullTdc, h.eonPs, h.tmc⟩

/-- A decoder keeps the texts clean and (under a condition) only prints valid strings. -/
def Sound (P : Prop) (o : Option (Station × List JOp)) : Prop :=
  ∀ st ops, o = some (st, ops) → st.Clean ∧ (P → OpsUtf8 ops)

theorem sound_some {P : Prop} {st : Station} {ops : List JOp} (h : st.Clean) (h2 : P → OpsUtf8 ops) :
    Sound P (some (st, ops)) := by
  intro st' ops' he
  cases he
  exact ⟨h, h2⟩

theorem sound_ite {P : Prop} {c : Prop} [Decidable c] {a b : Option (Station × List JOp)}
    (ha : c → Sound P a) (hb : ¬ c → Sound P b) : Sound P (if c then a else b) := by
  by_cases h : c
  · rw [if_pos h]; exact ha h
  · rw [if_neg h]; exact hb h

theorem sound_map {P : Prop} {st : Station} (h : st.Clean) {o : Option (List JOp)}
    (h2 : ∀ ops, o = some ops → P → OpsUtf8 ops) : Sound P (o.map fun ops => (st, ops)) := by
  intro st' ops' he
  obtain ⟨ops, ho, he⟩ := Option.map_eq_some_iff.mp he
  cases he
  exact ⟨h, h2 _ ho⟩

theorem Sound.weaken {P Q : Prop} {o : Option (Station × List JOp)} (h : Sound P o) (hq : Q → P) : Sound Q o :=
  fun st ops ho => ⟨(h st ops ho).1, fun q => (h st ops ho).2 (hq q)⟩

/-- What comes from libraries is valid (in terms of the check). -/
structure Env.Valid (env : Env) : Prop where
  formatTime : ∀ t, validUtf8 (env.formatTime t) = true
  what : validUtf8 env.what = true

/-- What comes from the tables of traffic messages is valid (in terms of the check). -/
structure TmcEnv.Valid (env : TmcEnv) : Prop where
  description : ∀ c e, env.events c = some e → validUtf8 e.description = true
  withQuantifier : ∀ c e, env.events c = some e → validUtf8 e.descriptionWithQuantifier = true
  supplementary : ∀ c s, env.supplementary c = some s → validUtf8 s = true
  point : ∀ t lcd p, (env.locations t).points lcd = some p → validUtf8 p.name1 = true ∧ validUtf8 p.roadName = true
  road : ∀ t lcd r, (env.locations t).roads lcd = some r → validUtf8 r.roadNumber = true ∧ validUtf8 r.name = true

section

variable {env : Env} (he : env.Valid) {st : Station} (h : st.Clean) (g : Group)

theorem afOps_utf8 (out : AfOut) : OpsUtf8 (Station.afOps out) := by
  unfold Station.afOps
  split <;> ops_utf8

include he h in
theorem decodePs_sound : (st.decodePs env g).1.Clean ∧ OpsUtf8 (st.decodePs env g).2 := by
  unfold Station.decodePs
  split
  · exact ⟨h, opsUtf8_nil⟩
  have hc := clean_set2 env.ucs2 h.ps (getBits 2 (g.get .b2) 0 * 2) (getUint8 (g.get .b4) 8)
    (getUint8 (g.get .b4) 0)
  dsimp only
  refine ⟨⟨hc, h.radiotext, h.ptyname, h.fullTdc, h.eonPs, h.tmc⟩, ?_⟩
  refine opsUtf8_ite _ _ _ ?_ (opsUtf8_ite _ _ _ ?_ opsUtf8_nil)
  · have := hc.2
    ops_utf8
  · refine (opsUtf8_cons _ _).2 ⟨?_, opsUtf8_nil⟩
    cases hs : RDSString.str env.ucs2 _ with
    | none => exact he.what
    | some t => exact (clean_str hc.1 hs).valid

include he h in
theorem decodeType0_sound : Sound True (st.decodeType0 env g) := by
  intro st' ops hd
  unfold Station.decodeType0 at hd
  obtain ⟨k, -, hd⟩ := Option.bind_eq_some_iff.mp hd
  have hflags : OpsUtf8 [JOp.set ["di", k] (.bool (getBool (g.get .b2) 2)),
      .set ["ta"] (.bool (getBool (g.get .b2) 4)), .set ["is_music"] (.bool (getBool (g.get .b2) 3))] := by
    ops_utf8
  dsimp only at hd
  split at hd
  · obtain ⟨af, -, hd⟩ := Option.bind_eq_some_iff.mp hd
    cases hd
    exact ⟨⟨h.ps, h.radiotext, h.ptyname, h.fullTdc, h.eonPs, h.tmc⟩, fun _ => hflags⟩
  split at hd
  · obtain ⟨r, -, hd⟩ := Option.bind_eq_some_iff.mp hd
    cases hd
    have hp := decodePs_sound he (st := { st with altFreq := r.1 })
      ⟨h.ps, h.radiotext, h.ptyname, h.fullTdc, h.eonPs, h.tmc⟩ g
    exact ⟨hp.1, fun _ => (opsUtf8_append _ _).2 ⟨(opsUtf8_append _ _).2 ⟨hflags, afOps_utf8 _⟩, hp.2⟩⟩
  · cases hd
    have hp := decodePs_sound he h g
    exact ⟨hp.1, fun _ => (opsUtf8_append _ _).2 ⟨hflags, hp.2⟩⟩

theorem pinOps_utf8 (pre : List String) {w : Word} {p : PinOut} (hp : decodePIN w = some p) :
    OpsUtf8 (Station.pinOps pre p) := by
  unfold decodePIN at hp
  dsimp only at hp
  split at hp
  · rw [← Option.some.inj hp]
    unfold Station.pinOps
    ops_utf8
  · cases hp

theorem slowLabel_utf8 {ops : List JOp} (hs : st.slowLabel g = some ops) : OpsUtf8 ops := by
  unfold Station.slowLabel at hs
  split at hs
  · dsimp only at hs
    split at hs
    · obtain ⟨c, hc, hs⟩ := Option.bind_eq_some_iff.mp hs
      have := utf8_country _ _ _ hc
      cases hs
      ops_utf8
    · cases hs
      exact opsUtf8_nil
  · cases hs; ops_utf8
  · cases hs; ops_utf8
  · obtain ⟨c, hc, hs⟩ := Option.bind_eq_some_iff.mp hs
    have := utf8_language _ _ hc
    cases hs
    ops_utf8
  · cases hs; ops_utf8
  · cases hs; ops_utf8
  · cases hs; ops_utf8

theorem decodeType1_utf8 {ops : List JOp} (hs : st.decodeType1 g = some ops) : OpsUtf8 ops := by
  unfold Station.decodeType1 at hs
  split at hs
  · cases hs; exact opsUtf8_nil
  have hpin : OpsUtf8 (if g.get .b4 ≠ 0 then
      ((decodePIN (g.get .b4)).map (Station.pinOps [])).getD [debugOp (ascii "invalid PIN")] else []) := by
    refine opsUtf8_ite _ _ _ ?_ opsUtf8_nil
    cases hp : decodePIN (g.get .b4) with
    | none => exact (opsUtf8_cons _ _).2 ⟨debugOp_utf8 (utf8_literal _ (by decide)), opsUtf8_nil⟩
    | some p => exact pinOps_utf8 _ hp
  dsimp only at hs
  split at hs
  · obtain ⟨l, hl, hs⟩ := Option.bind_eq_some_iff.mp hs
    cases hs
    have := slowLabel_utf8 g hl
    refine (opsUtf8_append _ _).2 ⟨(opsUtf8_append _ _).2 ⟨hpin, ?_⟩, this⟩
    ops_utf8
  · cases hs
    exact hpin

/-! ### RadioText -/

theorem update_clean (u : Ucs2Decoder) {rt : RadioText} (hr : rt.text.Clean) (pos : Nat) (a b : Byte) :
    (rt.update u pos a b).text.Clean := clean_set2 u hr _ _ _

theorem rtReceive_clean (u : Ucs2Decoder) {rt : RadioText} (hr : rt.text.Clean) (isA ch : Bool) (pos : Nat) :
    (rtReceive u rt g isA ch pos).text.Clean := by
  unfold rtReceive
  dsimp only
  have h1 : (if ch then { rt with text := rt.text.clear } else rt : RadioText).text.Clean := by
    split
    · exact clean_clear hr
    · exact hr
  generalize (if ch then { rt with text := rt.text.clear } else rt : RadioText) = r1 at h1
  have h2 : (if isA then RadioText.update u { r1 with text := r1.text.resize 64 } pos
      (getUint8 (g.get .b3) 8) (getUint8 (g.get .b3) 0) else { r1 with text := r1.text.resize 32 }).text.Clean := by
    split
    · exact update_clean u (rt := { r1 with text := r1.text.resize 64 }) (clean_resize h1 64) _ _ _
    · exact clean_resize h1 32
  split
  · exact update_clean u h2 _ _ _
  · exact h2

/-- The texts of the output. -/
def RTOut.Clean (out : RTOut) : Prop :=
  (∀ t, out.radiotext = some t → Utf8 t) ∧ ∀ t, out.partialRadiotext = some t → Utf8 t

theorem rtPrint_clean (u : Ucs2Decoder) (sp : Bool) {rt : RadioText} (hr : rt.text.Clean) (m : Option Str)
    (hm : ∀ t, m = some t → Utf8 t) {out : RTOut} (ho : out.Clean) : (rtPrint u sp rt m out).Clean := by
  unfold rtPrint
  split
  · refine ⟨fun t ht => ?_, ho.2⟩
    rw [← Option.some.inj ht]
    exact utf8_rtrim hr.2
  split
  · refine ⟨fun t ht => ?_, ho.2⟩
    rw [← Option.some.inj ht]
    exact utf8_rtrim (hm _ rfl)
  split
  · split
    · exact ho
    · rename_i t ht
      split
      · refine ⟨ho.1, fun t' ht' => ?_⟩
        rw [← Option.some.inj ht']
        exact clean_str hr.1 ht
      · exact ho
  · exact ho

theorem decodeType2_clean (u : Ucs2Decoder) (sp : Bool) {rt : RadioText} (hr : rt.text.Clean) :
    (decodeType2 u sp rt g).1.text.Clean ∧ (decodeType2 u sp rt g).2.Clean := by
  have hempty : ∀ (ab : Option Bool) (d : Bool), RTOut.Clean { rtAb := ab, debug := d } := by
    intro ab d
    refine ⟨?_, ?_⟩ <;> · intro t ht; cases ht
  unfold decodeType2
  split
  · exact ⟨hr, hempty _ _⟩
  dsimp only
  generalize getBits 4 (g.get .b2) 0 * (if (g.type.version == Version.A) = true then 4 else 2) = pos
  split
  · cases ht : rt.text.str u with
    | none => exact ⟨hr, hempty _ _⟩
    | some t =>
      refine ⟨rtReceive_clean g u ?_ _ _ _, rtPrint_clean u sp (rtReceive_clean g u ?_ _ _ _) _ ?_ (hempty _ _)⟩
      · exact hr
      · exact hr
      intro t' ht'
      split at ht'
      · rw [← Option.some.inj ht']
        exact utf8_rtrim (clean_str hr.1 ht)
      · cases ht'
  · refine ⟨rtReceive_clean g u ?_ _ _ _, rtPrint_clean u sp (rtReceive_clean g u ?_ _ _ _) _ ?_ (hempty _ _)⟩
    · exact hr
    · exact hr
    · intro t ht
      cases ht

include he in
theorem rtOps_utf8 {out : RTOut} (ho : out.Clean) : OpsUtf8 (Station.rtOps env out) := by
  unfold Station.rtOps
  refine (opsUtf8_append _ _).2 ⟨(opsUtf8_append _ _).2 ⟨(opsUtf8_append _ _).2 ⟨?_, ?_⟩, ?_⟩, ?_⟩
  · refine opsUtf8_toList _ _ fun ab _ => ?_
    cases ab <;> ops_utf8
  · exact opsUtf8_toList _ _ fun t ht => (ho.1 t ht).valid
  · exact opsUtf8_toList _ _ fun t ht => (ho.2 t ht).valid
  · refine opsUtf8_ite _ _ _ ?_ opsUtf8_nil
    exact (opsUtf8_cons _ _).2 ⟨he.what, opsUtf8_nil⟩

/-! ### Other types -/

theorem system_utf8 {s : TMCService} {w : Word} {r : TMCService × List JOp} (hs : s.receiveSystemGroup w = some r) :
    r.1.ps = s.ps ∧ OpsUtf8 r.2 := by
  unfold TMCService.receiveSystemGroup at hs
  dsimp only at hs
  split at hs
  · cases hs
    refine ⟨rfl, ?_⟩
    refine (opsUtf8_append _ _).2 ⟨(opsUtf8_append _ _).2 ⟨?_, ?_⟩, ?_⟩
    · ops_utf8
    · ops_utf8
    · exact opsUtf8_map _ _ fun t ht => (utf8_scope _ _ ht).valid
  · obtain ⟨gap, -, hs⟩ := Option.bind_eq_some_iff.mp hs
    cases hs
    refine ⟨rfl, ?_⟩
    ops_utf8
  · split at hs
    · split at hs
      · obtain ⟨c, hc, hs⟩ := Option.bind_eq_some_iff.mp hs
        have := utf8_country _ _ _ hc
        cases hs
        refine ⟨rfl, ?_⟩
        ops_utf8
      · cases hs
        refine ⟨rfl, ?_⟩
        ops_utf8
    · cases hs
      exact ⟨rfl, opsUtf8_nil⟩
  · cases hs
    exact ⟨rfl, opsUtf8_nil⟩

include h in
theorem decodeType3A_sound : Sound True (st.decodeType3A g) := by
  unfold Station.decodeType3A
  refine sound_ite (fun _ => sound_some h fun _ => opsUtf8_nil) fun _ => ?_
  refine sound_ite (fun _ => sound_some h fun _ => opsUtf8_nil) fun _ => ?_
  dsimp only
  have hc : ∀ f, Station.Clean { st with odaForGroup := f } := fun f =>
    ⟨h.ps, h.radiotext, h.ptyname, h.fullTdc, h.eonPs, h.tmc⟩
  have hops : OpsUtf8 [JOp.set ["open_data_app", "oda_group"] (.str (GroupType.ofCode (getBits 5 (g.get .b2) 0)).str),
      .set ["open_data_app", "app_name"] (.str (getAppNameString (g.get .b4).toNat))] := by
    ops_utf8
  refine sound_ite (fun _ => sound_some (hc _) fun _ => hops) fun _ => ?_
  refine sound_ite (fun _ => sound_some (hc _) fun _ => hops) fun _ => ?_
  refine sound_ite (fun _ => sound_some (hc _) fun _ => hops) fun _ => ?_
  refine sound_ite (fun _ => sound_some
    ⟨h.ps, h.radiotext, h.ptyname, h.fullTdc, h.eonPs, h.tmc⟩ fun _ => hops) fun _ => ?_
  refine sound_ite (fun _ => ?_) fun _ => ?_
  · intro st' ops hd
    obtain ⟨r, hr, hd⟩ := Option.bind_eq_some_iff.mp hd
    obtain ⟨h1, h2⟩ := system_utf8 hr
    cases hd
    exact ⟨⟨h.ps, h.radiotext, h.ptyname, h.fullTdc, h.eonPs, by rw [h1]; exact h.tmc⟩,
      fun _ => (opsUtf8_append _ _).2 ⟨hops, h2⟩⟩
  · refine sound_some (hc _) fun _ => (opsUtf8_append _ _).2 ⟨hops, ?_⟩
    ops_utf8

theorem clockOps_utf8 : OpsUtf8 (Station.clockOps (decodeType4A g)) := by
  have : decodeType4A g = .nothing ∨ decodeType4A g = .invalid ∨ ∃ t o, decodeType4A g = .time (clockString t o) := by
    unfold decodeType4A
    split
    · exact .inl rfl
    dsimp only
    split
    · exact .inr (.inl rfl)
    generalize (if getBool (g.get .b4) 5 = true then (-1 : Int) else 1) * (getBits 5 (g.get .b4) 0 : Int) = o
    split
    · exact .inr (.inr ⟨_, _, rfl⟩)
    · exact .inr (.inl rfl)
  unfold Station.clockOps
  rcases this with h | h | ⟨t, o, h⟩ <;> rw [h]
  · exact opsUtf8_nil
  · ops_utf8
  · exact (opsUtf8_cons _ _).2 ⟨(utf8_clock t o).valid, opsUtf8_nil⟩

include h in
theorem decodeType5_sound : Sound True (st.decodeType5 env g) := by
  intro st' ops hd
  unfold Station.decodeType5 at hd
  dsimp only at hd
  split at hd
  · generalize hf : (st.fullTdc.set2 env.ucs2 (getBits 5 (g.get .b2) 0 * 4) (getUint8 (g.get .b3) 8)
        (getUint8 (g.get .b3) 0)).set2 env.ucs2 (getBits 5 (g.get .b2) 0 * 4 + 2)
        (getUint8 (g.get .b4) 8) (getUint8 (g.get .b4) 0) = full at hd
    generalize htx : ((RDSString.new 4).set2 env.ucs2 0 (getUint8 (g.get .b3) 8) (getUint8 (g.get .b3) 0)).set2
        env.ucs2 2 (getUint8 (g.get .b4) 8) (getUint8 (g.get .b4) 0) = text at hd
    have henc : full.encoding = .basic := by
      rw [← hf, set2_encoding, set2_encoding]
      exact h.fullTdc
    have henc2 : text.encoding = .basic := by
      rw [← htx, set2_encoding, set2_encoding]
      rfl
    have hc : Station.Clean { st with fullTdc := full } :=
      ⟨h.ps, h.radiotext, h.ptyname, henc, h.eonPs, h.tmc⟩
    split at hd
    · obtain ⟨fo, hfo, hd⟩ := Option.bind_eq_some_iff.mp hd
      obtain ⟨t, ht, hd⟩ := Option.bind_eq_some_iff.mp hd
      obtain ⟨t2, ht2, rfl⟩ := Option.map_eq_some_iff.mp hfo
      have := clean_str henc ht2
      have := clean_str henc2 ht
      cases hd
      exact ⟨hc, fun _ => by ops_utf8⟩
    · obtain ⟨fo, hfo, hd⟩ := Option.bind_eq_some_iff.mp hd
      obtain ⟨t, ht, hd⟩ := Option.bind_eq_some_iff.mp hd
      have := clean_str henc2 ht
      cases hfo
      cases hd
      exact ⟨hc, fun _ => by ops_utf8⟩
  · obtain ⟨t, ht, hd⟩ := Option.bind_eq_some_iff.mp hd
    have ht' := clean_str (by rw [set2_encoding]; rfl) ht
    cases hd
    refine ⟨h, fun _ => ?_⟩
    ops_utf8

theorem decodeType6_utf8 : OpsUtf8 (Station.decodeType6 g) := by
  unfold Station.decodeType6
  ops_utf8

include h in
theorem decodeType10A_sound : Sound True (some (st.decodeType10A env g)) := by
  unfold Station.decodeType10A
  split
  · exact sound_some h fun _ => opsUtf8_nil
  dsimp only
  generalize h0 : (if (st.ptyname.ab != getBool (g.get .b2) 4) = true then st.ptyname.text.clear
      else st.ptyname.text) = t0
  have h1 : t0.Clean := by
    rw [← h0]
    split
    · exact clean_clear h.ptyname
    · exact h.ptyname
  generalize ht : (t0.set2 env.ucs2 (getBits 1 (g.get .b2) 0 * 4) (getUint8 (g.get .b3) 8)
    (getUint8 (g.get .b3) 0)).set2 env.ucs2 (getBits 1 (g.get .b2) 0 * 4 + 2) (getUint8 (g.get .b4) 8)
    (getUint8 (g.get .b4) 0) = t
  have h2 : t.Clean := by
    rw [← ht]
    exact clean_set2 _ (clean_set2 _ h1 _ _ _) _ _ _
  refine sound_some ⟨h.ps, h.radiotext, h2, h.fullTdc, h.eonPs, h.tmc⟩ fun _ => ?_
  exact opsUtf8_ite _ _ _ ((opsUtf8_cons _ _).2 ⟨h2.2.valid, opsUtf8_nil⟩) opsUtf8_nil

include h in
theorem eonVariant_sound : Sound True (st.eonVariant env g) := by
  unfold Station.eonVariant
  dsimp only
  refine sound_ite (fun _ => ?_) fun _ => ?_
  · have h0 : ((st.eonPs (g.get .b4)).getD (RDSString.new 8)).Clean := by
      cases hp : st.eonPs (g.get .b4) with
      | none => exact clean_new 8
      | some t => exact h.eonPs _ _ hp
    have hc := fun a b c d => clean_set env.ucs2 (clean_set env.ucs2 h0 a b) c d
    refine sound_some ⟨h.ps, h.radiotext, h.ptyname, h.fullTdc, ?_, h.tmc⟩ fun _ => ?_
    · intro p t ht
      dsimp only [mapSet] at ht
      split at ht
      · rw [← Option.some.inj ht]
        exact hc _ _ _ _
      · exact h.eonPs p t ht
    · exact opsUtf8_ite _ _ _ ((opsUtf8_cons _ _).2 ⟨(hc _ _ _ _).2.valid, opsUtf8_nil⟩) opsUtf8_nil
  refine sound_ite (fun _ => ?_) fun _ => ?_
  · intro st' ops hd
    obtain ⟨l1, -, hd⟩ := Option.bind_eq_some_iff.mp hd
    obtain ⟨l2, -, hd⟩ := Option.bind_eq_some_iff.mp hd
    split at hd
    · obtain ⟨raw, -, hd⟩ := Option.bind_eq_some_iff.mp hd
      cases hd
      refine ⟨⟨h.ps, h.radiotext, h.ptyname, h.fullTdc, h.eonPs, h.tmc⟩, fun _ => ?_⟩
      ops_utf8
    · cases hd
      exact ⟨⟨h.ps, h.radiotext, h.ptyname, h.fullTdc, h.eonPs, h.tmc⟩, fun _ => opsUtf8_nil⟩
  refine sound_ite (fun _ => sound_some h fun _ => by ops_utf8) fun _ => ?_
  refine sound_ite (fun _ => sound_some h fun _ => by ops_utf8) fun _ => ?_
  refine sound_ite (fun _ => ?_) fun _ => ?_
  · intro st' ops hd
    obtain ⟨pty, hp, hd⟩ := Option.bind_eq_some_iff.mp hd
    have := utf8_pty _ _ _ hp
    cases hd
    refine ⟨h, fun _ => ?_⟩
    ops_utf8
  refine sound_ite (fun _ => sound_some h fun _ => opsUtf8_ite _ _ _ ?_ opsUtf8_nil) fun _ => ?_
  · cases hp : decodePIN (g.get .b3) with
    | none => exact opsUtf8_nil
    | some p => exact pinOps_utf8 _ hp
  refine sound_ite (fun _ => sound_some h fun _ => by ops_utf8) fun _ => ?_
  exact sound_some h fun _ => by ops_utf8

include h in
theorem decodeType14_sound : Sound True (st.decodeType14 env g) := by
  unfold Station.decodeType14
  refine sound_ite (fun _ => sound_some h fun _ => opsUtf8_nil) fun _ => ?_
  dsimp only
  refine sound_ite (fun _ => sound_some h fun _ => by ops_utf8) fun _ => ?_
  refine sound_ite (fun _ => sound_some h fun _ => by ops_utf8) fun _ => ?_
  intro st' ops hd
  obtain ⟨r, hr, hd⟩ := Option.bind_eq_some_iff.mp hd
  obtain ⟨h1, h2⟩ := eonVariant_sound h g _ _ hr
  have h2 := h2 trivial
  cases hd
  refine ⟨h1, fun _ => ?_⟩
  ops_utf8

theorem decodeType15B_utf8 {ops : List JOp} (hs : Station.decodeType15B g = some ops) : OpsUtf8 ops := by
  unfold Station.decodeType15B at hs
  dsimp only at hs
  obtain ⟨k, -, hs⟩ := Option.bind_eq_some_iff.mp hs
  cases hs
  ops_utf8

theorem parseDAB_utf8 {ops : List JOp} (hs : Station.parseDAB g = some ops) : OpsUtf8 ops := by
  unfold Station.parseDAB at hs
  split at hs
  · cases hs
    ops_utf8
  · obtain ⟨mode, hm, hs⟩ := Option.bind_eq_some_iff.mp hs
    have hmode : Utf8 (ascii mode) := by
      have : ∀ s ∈ Station.dabModes, s.toList.all (fun c => decide (c.toNat < 0x80)) = true := by decide
      exact utf8_literal _ (this _ (List.mem_of_getElem? hm))
    have hch : ∀ f c, Station.dabChannels.lookup f = some c → Utf8 (ascii c) := by
      intro f c hc
      have hall : ∀ x ∈ Station.dabChannels, x.2.toList.all (fun c => decide (c.toNat < 0x80)) = true := by
        decide +kernel
      obtain ⟨l1, l2, hl, -⟩ := List.lookup_eq_some_iff.mp hc
      exact utf8_literal _ (hall (f, c) (by rw [hl]; simp))
    cases hs
    refine (opsUtf8_append _ _).2 ⟨(opsUtf8_append _ _).2 ⟨?_, ?_⟩, ?_⟩
    · ops_utf8
    · exact opsUtf8_toList _ _ fun c hc => (hch _ c hc).valid
    · ops_utf8

/-! ### Traffic messages -/

variable (ht : env.tmc.Valid)

theorem decodeLocation_utf8 {tenv : TmcEnv} (ht : tenv.Valid) (t ltn : Nat) (location : Option Word) (e : Int) :
    OpsUtf8 (decodeLocation (tenv.locations t) ltn location e) := by
  unfold decodeLocation
  split
  · exact opsUtf8_nil
  split
  · exact opsUtf8_nil
  split
  · exact opsUtf8_nil
  rename_i lcd point hp
  dsimp only
  have hwalk : ∀ b n lcd, ∀ p ∈ walkPoints (tenv.locations t) b n lcd,
      validUtf8 p.name1 = true ∧ validUtf8 p.roadName = true := by
    intro b n
    induction n with
    | zero => intro lcd p hp; simp [walkPoints] at hp
    | succ n ih =>
      intro lcd p hp
      unfold walkPoints at hp
      split at hp
      · simp at hp
      · rename_i q hq
        rcases List.mem_cons.mp hp with rfl | hp
        · exact ht.point _ _ _ hq
        · exact ih _ p hp
  refine (opsUtf8_append _ _).2 ⟨(opsUtf8_append _ _).2 ⟨(opsUtf8_cons _ _).2 ⟨?_, opsUtf8_nil⟩, ?_⟩, ?_⟩
  · show J.utf8List _ = true
    generalize walkPoints _ _ _ _ = l
    induction l with
    | nil => rfl
    | cons p l ih => exact ih
  · split
    · rename_i first last hf hl
      have h1 := hwalk _ _ _ _ (List.mem_of_head? hf)
      have h2 := hwalk _ _ _ _ (List.mem_of_getLast? hl)
      refine opsUtf8_ite _ _ _ ?_ opsUtf8_nil
      exact (opsUtf8_cons _ _).2 ⟨h1.1, (opsUtf8_cons _ _).2 ⟨h2.1, opsUtf8_nil⟩⟩
    · exact opsUtf8_nil
  · split
    · exact opsUtf8_nil
    · rename_i road hr
      have h1 := ht.road _ _ _ hr
      have h2 := ht.point _ _ _ hp
      refine (opsUtf8_append _ _).2 ⟨opsUtf8_ite _ _ _ ?_ opsUtf8_nil,
        opsUtf8_ite _ _ _ ?_ (opsUtf8_ite _ _ _ ?_ opsUtf8_nil)⟩
      · exact (opsUtf8_cons _ _).2 ⟨h1.1, opsUtf8_nil⟩
      · exact (opsUtf8_cons _ _).2 ⟨h1.2, opsUtf8_nil⟩
      · exact (opsUtf8_cons _ _).2 ⟨h2.2, opsUtf8_nil⟩

theorem sentences_utf8 {tenv : TmcEnv} (ht : tenv.Valid) (m : Message) : ∀ s ∈ m.sentences tenv, Utf8 s := by
  intro s hs
  unfold Message.sentences at hs
  rcases List.mem_append.mp hs with hs | hs
  · obtain ⟨⟨c, i⟩, -, hs⟩ := List.mem_flatMap.mp hs
    unfold Message.eventSentence at hs
    dsimp only at hs
    split at hs
    · simp at hs
    · rename_i e hev
      split at hs
      · rw [List.mem_singleton.mp hs]
        exact utf8_ucfirst (utf8_replaceQ (utf8_quantifier _ _) (utf8_of_valid _ (ht.withQuantifier _ _ hev)))
      · rw [List.mem_singleton.mp hs]
        exact utf8_ucfirst (utf8_of_valid _ (ht.description _ _ hev))
  · obtain ⟨c, -, hs⟩ := List.mem_flatMap.mp hs
    cases hsup : tenv.supplementary c with
    | none => rw [hsup] at hs; simp at hs
    | some t =>
      rw [hsup] at hs
      simp only [Option.map_some, Option.toList_some, List.mem_singleton] at hs
      rw [hs]
      exact utf8_ucfirst (utf8_of_valid _ (ht.supplementary _ _ hsup))

theorem utf8Members_append (a b : List (String × J)) :
    J.utf8Members (a ++ b) = (J.utf8Members a && J.utf8Members b) := by
  induction a with
  | nil => rfl
  | cons x a ih => simp [J.utf8Members, ih, Bool.and_assoc]

theorem utf8Members_toList {α : Type} (o : Option α) (f : α → String × J) (h : ∀ a, (f a).2.utf8 = true) :
    J.utf8Members (o.map f).toList = true := by
  cases o with
  | none => rfl
  | some a => simpa [J.utf8Members] using h a

theorem utf8List_nats (l : List Nat) : J.utf8List (l.map J.nat) = true := by
  induction l with
  | nil => rfl
  | cons a l ih => exact ih

theorem listMember_utf8 (k : String) (l : List Nat) : J.utf8Members (Message.listMember k l) = true := by
  unfold Message.listMember
  split
  · rfl
  · simp [J.utf8Members, J.utf8, utf8List_nats]

theorem json_utf8 {tenv : TmcEnv} (ht : tenv.Valid) (m : Message) (l : List (String × J)) (hl : m.json tenv = some l) :
    J.utf8Members l = true := by
  unfold Message.json at hl
  split at hl
  · cases hl
  rw [← Option.some.inj hl]
  simp only [utf8Members_append, Bool.and_eq_true]
  refine ⟨⟨⟨⟨⟨⟨⟨⟨⟨⟨⟨listMember_utf8 _ _, listMember_utf8 _ _⟩, ?_⟩, ?_⟩, listMember_utf8 _ _⟩, ?_⟩, ?_⟩, ?_⟩, ?_⟩,
    ?_⟩, ?_⟩, ?_⟩
  · exact utf8Members_toList _ _ fun _ => rfl
  · split
    · rfl
    · have : Utf8 (joinStr (ascii ". ") (m.sentences tenv) ++ ascii ".") :=
        (utf8_join _ (utf8_literal _ (by decide)) _ (sentences_utf8 ht m)).append (utf8_literal _ (by decide))
      simpa [J.utf8Members, J.utf8] using this.valid
  · exact utf8Members_toList _ _ fun _ => ((utf8_decimal _).append (utf8_literal _ (by decide))).valid
  · split <;> rfl
  · split <;> rfl
  · have h1 : Utf8 (if m.both then ascii "both" else ascii "single") := by
      split <;> exact utf8_literal _ (by decide)
    have h2 : Utf8 m.extentString := by
      unfold Message.extentString
      utf8
    simpa [J.utf8Members, J.utf8] using ⟨h1.valid, h2.valid⟩
  · exact utf8Members_toList _ _ fun _ => (utf8_time _).valid
  · exact utf8Members_toList _ _ fun _ => (utf8_time _).valid
  · simpa [J.utf8Members, J.utf8] using (utf8_urgency _).valid

theorem printMessage_utf8 {tenv : TmcEnv} (ht : tenv.Valid) {s : TMCService} {m : Message} {ops : List JOp}
    (hp : s.printMessage tenv m = some ops) : OpsUtf8 ops := by
  have tail : ∀ m : Message, (match m.json tenv with
      | none => pure []
      | some members => pure (JOp.set ["tmc", "message"] (.obj members) ::
          decodeLocation (tenv.locations s.ltn) s.ltn (if m.isEncrypted then none else some m.location)
            (if m.negative then -(m.extent : Int) else m.extent)) : Option (List JOp)) = some ops →
      OpsUtf8 ops := by
    intro m hm
    cases hj : m.json tenv with
    | none =>
      rw [hj] at hm
      cases hm
      exact opsUtf8_nil
    | some members =>
      rw [hj] at hm
      cases hm
      exact (opsUtf8_cons _ _).2 ⟨json_utf8 ht m members hj, decodeLocation_utf8 ht _ _ _ _⟩
  unfold TMCService.printMessage at hp
  dsimp only at hp
  split at hp
  · split at hp
    · obtain ⟨m', -, hp⟩ := Option.bind_eq_some_iff.mp hp
      exact tail m' hp
    · exact tail m hp
  · exact tail m hp

theorem tuning_utf8 {tenv : TmcEnv} {s : TMCService} (hs : s.ps.Clean) {x y z : Word} {r : TMCService × List JOp}
    (hr : s.tuningInformation tenv x y z = some r) : r.1.ps.Clean ∧ OpsUtf8 r.2 := by
  unfold TMCService.tuningInformation at hr
  dsimp only at hr
  split at hr
  · obtain ⟨l1, -, hr⟩ := Option.bind_eq_some_iff.mp hr
    obtain ⟨l2, -, hr⟩ := Option.bind_eq_some_iff.mp hr
    obtain ⟨l3, -, hr⟩ := Option.bind_eq_some_iff.mp hr
    rw [← Option.some.inj hr]
    refine ⟨hs, ?_⟩
    ops_utf8
  · split at hr
    · rw [← Option.some.inj hr]
      refine ⟨hs, ?_⟩
      ops_utf8
    · rw [← Option.some.inj hr]
      refine ⟨hs, ?_⟩
      ops_utf8
  · rw [← Option.some.inj hr]
    refine ⟨hs, (opsUtf8_append _ _).2 ⟨by ops_utf8, ?_⟩⟩
    exact opsUtf8_map _ _ fun t ht => (utf8_scope _ _ ht).valid
  · split at hr
    · rw [← Option.some.inj hr]
      generalize ht : RDSString.set _ _ _ _ = t
      have h1 : t.Clean := by
        rw [← ht]
        exact clean_set _ (clean_set _ (clean_set _ (clean_set _ hs _ _) _ _) _ _) _ _
      exact ⟨h1, opsUtf8_ite _ _ _ ((opsUtf8_cons _ _).2 ⟨h1.2.valid, opsUtf8_nil⟩) opsUtf8_nil⟩
    · rw [← Option.some.inj hr]
      refine ⟨hs, ?_⟩
      ops_utf8

theorem user_utf8 {tenv : TmcEnv} {s : TMCService} (hs : s.ps.Clean) {x y z : Word} {r : TMCService × List JOp}
    (hr : s.receiveUserGroup tenv x y z = some r) : r.1.ps.Clean ∧ (tenv.Valid → OpsUtf8 r.2) := by
  unfold TMCService.receiveUserGroup at hr
  dsimp only at hr
  split at hr
  · cases hr; exact ⟨hs, fun _ => opsUtf8_nil⟩
  split at hr
  · cases hr
    refine ⟨hs, fun _ => ?_⟩
    ops_utf8
  split at hr
  · obtain ⟨h1, h2⟩ := tuning_utf8 hs hr
    exact ⟨h1, fun _ => h2⟩
  split at hr
  · cases hr; exact ⟨hs, fun _ => opsUtf8_nil⟩
  split at hr
  · obtain ⟨out, ho, hr⟩ := Option.bind_eq_some_iff.mp hr
    cases hr
    exact ⟨hs, fun ht => printMessage_utf8 ht ho⟩
  · generalize Message.pushMulti _ _ _ _ _ = m at hr
    split at hr
    · obtain ⟨out, ho, hr⟩ := Option.bind_eq_some_iff.mp hr
      cases hr
      exact ⟨hs, fun ht => printMessage_utf8 ht ho⟩
    · cases hr
      exact ⟨hs, fun _ => opsUtf8_nil⟩

include h in
theorem decodeTmc_sound : Sound env.tmc.Valid (st.decodeTmc env g) := by
  unfold Station.decodeTmc
  refine sound_ite (fun _ => ?_) fun _ => sound_some h fun _ => opsUtf8_nil
  intro st' ops hd
  obtain ⟨r, hr, hd⟩ := Option.bind_eq_some_iff.mp hd
  obtain ⟨h1, h2⟩ := user_utf8 h.tmc hr
  cases hd
  exact ⟨⟨h.ps, h.radiotext, h.ptyname, h.fullTdc, h.eonPs, h1⟩, h2⟩

/-! ### Open data -/

theorem plus_clean {key : String} {rt : RadioText} (hr : rt.text.Clean) {r : RadioText × List JOp}
    (hp : Station.parseRadioTextPlus key rt g = some r) : r.1.text.Clean := by
  unfold Station.parseRadioTextPlus at hp
  dsimp only at hp
  generalize hrt : (if (getBool (g.get .b2) 4 != rt.plus.toggle ||
      getBool (g.get .b2) 3 != rt.plus.itemRunning) = true then
    { rt with text := rt.text.clear, plus := { toggle := getBool (g.get .b2) 4,
                                               itemRunning := getBool (g.get .b2) 3 } }
    else rt) = rt' at hp
  have hc : rt'.text.Clean := by
    rw [← hrt]
    split
    · exact clean_clear hr
    · exact hr
  split at hp
  · obtain ⟨t1, -, hp⟩ := Option.bind_eq_some_iff.mp hp
    split at hp
    · obtain ⟨t2, -, hp⟩ := Option.bind_eq_some_iff.mp hp
      rw [← Option.some.inj hp]
      exact hc
    · rw [← Option.some.inj hp]
      exact hc
  · obtain ⟨t1, -, hp⟩ := Option.bind_eq_some_iff.mp hp
    split at hp
    · obtain ⟨t2, -, hp⟩ := Option.bind_eq_some_iff.mp hp
      rw [← Option.some.inj hp]
      exact hc
    · rw [← Option.some.inj hp]
      exact hc

/-- What an application may be for its strings to be valid. -/
def PlainApp (env : Env) (app : Word) : Prop :=
  app ≠ 0x4BD7 ∧ app ≠ 0x4BD8 ∧ app ≠ 0x6552 ∧ (app = 0xCD46 ∨ app = 0xCD47 → env.tmc.Valid)

include h in
theorem decodeODAApp_sound (app : Word) : Sound (PlainApp env app) (st.decodeODAApp env g app) := by
  unfold Station.decodeODAApp
  refine sound_ite (fun _ => sound_map h fun ops ho _ => parseDAB_utf8 g ho) fun _ => ?_
  refine sound_ite (fun ha => ?_) fun _ => ?_
  · intro st' ops hd
    obtain ⟨r, hr, hd⟩ := Option.map_eq_some_iff.mp hd
    cases hd
    exact ⟨⟨h.ps, plus_clean g h.radiotext hr, h.ptyname, h.fullTdc, h.eonPs, h.tmc⟩, fun hp => absurd ha hp.1⟩
  refine sound_ite (fun ha => ?_) fun _ => ?_
  · intro st' ops hd
    obtain ⟨r, hr, hd⟩ := Option.map_eq_some_iff.mp hd
    cases hd
    exact ⟨⟨h.ps, h.radiotext, h.ptyname, h.fullTdc, h.eonPs, h.tmc⟩, fun hp => absurd ha hp.2.1⟩
  refine sound_ite (fun ha => ?_) fun _ => ?_
  · exact sound_some ⟨h.ps, h.radiotext, h.ptyname, h.fullTdc, h.eonPs, h.tmc⟩ fun hp => absurd ha hp.2.2.1
  refine sound_ite (fun ha => (decodeTmc_sound h g).weaken fun hp => hp.2.2.2 ha) fun _ => ?_
  exact sound_some h fun _ => by ops_utf8

include h in
theorem decodeODAGroup_sound :
    Sound (∀ app, st.odaForGroup g.type = some app → PlainApp env app) (st.decodeODAGroup env g) := by
  unfold Station.decodeODAGroup
  split
  · exact sound_some h fun _ => by ops_utf8
  · rename_i app ha
    exact (decodeODAApp_sound h g app).weaken fun hp => hp app ha

/-! ### Type C -/

theorem rftInfoOps_utf8 : OpsUtf8 (Station.rftInfoOps g) := by
  unfold Station.rftInfoOps
  dsimp only
  repeat' split
  all_goals ops_utf8

theorem rft_utf8 {files : List RFTFile} {b1 b2 b3 b4 : Word} {r : List RFTFile × Option (Nat × Str)}
    (hr : decodeCRft files b1 b2 b3 b4 = some r) : ∀ f, r.2 = some f → Utf8 f.2 := by
  unfold decodeCRft at hr
  split at hr
  · cases hr
    intro f hf
    cases hf
  split at hr
  · cases hr
  obtain ⟨⟨f', out⟩, he, hr⟩ := Option.bind_eq_some_iff.mp hr
  have hout : ∀ t, out = some t → Utf8 t := by
    intro t ht
    unfold RFTFile.event at he
    split at he
    · obtain ⟨f1, -, he⟩ := Option.bind_eq_some_iff.mp he
      obtain ⟨c, -, he⟩ := Option.bind_eq_some_iff.mp he
      split at he
      · obtain ⟨⟨f2, text⟩, hb, he⟩ := Option.bind_eq_some_iff.mp he
        cases he
        cases ht
        unfold RFTFile.getBase64Data at hb
        dsimp only at hb
        split at hb
        · cases hb
          exact .nil
        · obtain ⟨bytes, -, hb⟩ := Option.bind_eq_some_iff.mp hb
          cases hb
          exact utf8_base64 _
      · cases he
        cases ht
    · cases he
      cases ht
    · obtain ⟨f1, -, he⟩ := Option.bind_eq_some_iff.mp he
      cases he
      cases ht
  cases hr
  intro f hf
  obtain ⟨t, ht, rfl⟩ := Option.map_eq_some_iff.mp hf
  exact hout t ht

include h in
theorem decodeC_sound : Sound True (st.decodeC g) := by
  unfold Station.decodeC
  refine sound_ite (fun _ => sound_some h fun _ => opsUtf8_nil) fun _ => ?_
  intro st' ops hd
  obtain ⟨files, hf, hd⟩ := Option.bind_eq_some_iff.mp hd
  have hfile := rft_utf8 hf
  have hc : Station.Clean { st with rftFiles := files.1 } :=
    ⟨h.ps, h.radiotext, h.ptyname, h.fullTdc, h.eonPs, h.tmc⟩
  have hseg : ∀ p, (JOp.set p (Station.segmentData g)).utf8 = true := fun p => set_bytes_utf8 p _
  dsimp only at hd
  split at hd
  · cases hd
    exact ⟨hc, fun _ => by ops_utf8⟩
  split at hd
  · cases hd
    refine ⟨hc, fun _ => (opsUtf8_append _ _).2 ⟨(opsUtf8_append _ _).2 ⟨?_, ?_⟩, ?_⟩⟩
    · ops_utf8
    · refine (opsUtf8_cons _ _).2 ⟨rfl, (opsUtf8_cons _ _).2 ⟨rfl, (opsUtf8_cons _ _).2 ⟨rfl,
        (opsUtf8_cons _ _).2 ⟨hseg _, opsUtf8_nil⟩⟩⟩⟩
    · exact opsUtf8_toList _ _ fun f hf => (hfile f hf).valid
  split at hd
  · cases hd
    exact ⟨hc, fun _ => by ops_utf8⟩
  split at hd
  · split at hd
    · cases hd
      refine ⟨⟨h.ps, h.radiotext, h.ptyname, h.fullTdc, h.eonPs, h.tmc⟩, fun _ => ?_⟩
      have := rftInfoOps_utf8 g
      ops_utf8
    · cases hd
      exact ⟨hc, fun _ => by ops_utf8⟩
  · cases hd
    exact ⟨hc, fun _ => by ops_utf8⟩

/-! ### All groups -/

/-- What is needed for the strings of a group to be valid. -/
def PlainGroup (env : Env) (st : Station) (g : Group) : Prop :=
  g.type.version ≠ .C → g.type ∉ fixedTypes →
    (∀ app, st.odaForGroup g.type = some app → PlainApp env app) ∧
    (st.odaForGroup g.type = none → g.type ≠ ⟨15, .A⟩ ∧ (g.type = ⟨8, .A⟩ → env.tmc.Valid))

include he h in
theorem dispatch_sound : Sound (PlainGroup env st g) (st.dispatch env g) := by
  unfold Station.dispatch
  dsimp only
  refine sound_ite (fun _ => (decodeC_sound h g).weaken fun _ => trivial) fun hC => ?_
  refine sound_ite (fun _ => (decodeType0_sound he h g).weaken fun _ => trivial) fun n0 => ?_
  refine sound_ite (fun _ => sound_map h fun ops ho _ => decodeType1_utf8 g ho) fun n1 => ?_
  refine sound_ite (fun _ => ?_) fun n2 => ?_
  · obtain ⟨h1, h2⟩ := decodeType2_clean g env.ucs2 st.options.showPartial h.radiotext
    exact sound_some ⟨h.ps, h1, h.ptyname, h.fullTdc, h.eonPs, h.tmc⟩ fun _ => rtOps_utf8 he h2
  refine sound_ite (fun _ => (decodeType3A_sound h g).weaken fun _ => trivial) fun n3 => ?_
  refine sound_ite (fun _ => sound_some h fun _ => clockOps_utf8 g) fun n4 => ?_
  refine sound_ite (fun _ => (decodeType10A_sound h g).weaken fun _ => trivial) fun n10 => ?_
  refine sound_ite (fun _ => (decodeType14_sound h g).weaken fun _ => trivial) fun n14 => ?_
  refine sound_ite (fun _ => sound_map h fun ops ho _ => decodeType15B_utf8 g ho) fun n15 => ?_
  have hfix : g.type ∉ fixedTypes := by
    intro hm
    have hm' : g.type = ⟨0, .A⟩ ∨ g.type = ⟨0, .B⟩ ∨ g.type = ⟨1, .A⟩ ∨ g.type = ⟨1, .B⟩ ∨ g.type = ⟨2, .A⟩ ∨
        g.type = ⟨2, .B⟩ ∨ g.type = ⟨3, .A⟩ ∨ g.type = ⟨4, .A⟩ ∨ g.type = ⟨10, .A⟩ ∨ g.type = ⟨14, .A⟩ ∨
        g.type = ⟨14, .B⟩ ∨ g.type = ⟨15, .B⟩ := by
      simpa [fixedTypes] using hm
    rcases hm' with e | e | e | e | e | e | e | e | e | e | e | e <;> simp [e] at *
  refine sound_ite (fun _ => (decodeODAGroup_sound h g).weaken fun hp => (hp hC hfix).1) fun hoda => ?_
  have hnone : st.odaForGroup g.type = none := by simpa using hoda
  refine sound_ite (fun _ => (decodeType5_sound h g).weaken fun _ => trivial) fun _ => ?_
  refine sound_ite (fun _ => sound_some h fun _ => decodeType6_utf8 g) fun _ => ?_
  refine sound_ite (fun _ => sound_some h fun _ => ?_) fun _ => ?_
  · unfold Station.todoOps; ops_utf8
  refine sound_ite (fun h8 => (decodeTmc_sound h g).weaken fun hp => ((hp hC hfix).2 hnone).2 ?_) fun _ => ?_
  · cases ht : g.type with
    | mk n v => rw [ht] at h8; rw [show n = 8 from h8.1, show v = .A from h8.2]
  refine sound_ite (fun _ => sound_some h fun _ => ?_) fun _ => ?_
  · unfold Station.todoOps; ops_utf8
  refine sound_ite (fun h15 => ?_) fun _ => ?_
  · intro st' ops hd
    rw [← show _ = st' from congrArg Prod.fst (Option.some.inj hd)]
    refine ⟨⟨h.ps, h.radiotext, h.ptyname, h.fullTdc, h.eonPs, h.tmc⟩, fun hp => ?_⟩
    refine absurd ?_ ((hp hC hfix).2 hnone).1
    cases ht : g.type with
    | mk n v => rw [ht] at h15; rw [show n = 15 from h15.1, show v = .A from h15.2]
  · exact (decodeODAGroup_sound h g).weaken fun hp => (hp hC hfix).1

theorem decodeBasics_utf8 {ops : List JOp} (hs : st.decodeBasics g = some ops) : OpsUtf8 ops := by
  unfold Station.decodeBasics at hs
  split at hs
  · cases hs
    ops_utf8
  split at hs
  · obtain ⟨pty, hp, hs⟩ := Option.bind_eq_some_iff.mp hs
    have := utf8_pty _ _ _ hp
    cases hs
    ops_utf8
  split at hs
  · obtain ⟨pty, hp, hs⟩ := Option.bind_eq_some_iff.mp hs
    have := utf8_pty _ _ _ hp
    cases hs
    ops_utf8
  · cases hs
    exact opsUtf8_nil

include he in
theorem headerOps_utf8 : OpsUtf8 (st.headerOps env g) := by
  unfold Station.headerOps Station.streamOps Station.piOps Station.timeOps Station.blerOps Station.channelOps
    Station.rawOps
  have := utf8_of_valid _ (he.formatTime (g.time.getD 0))
  ops_utf8

include he h in
theorem update_sound {hk : env.tmc.KeysOk} (hgood : st.Good) {st' : Station} {line : Option Line}
    (hu : st.updateAndPrint env g = some (st', line)) :
    st'.Clean ∧ ((g.hasType = true → PlainGroup env st g) → ∀ l, line = some l → ∃ j, l = .json j ∧ j.utf8 = true) := by
  obtain ⟨st1, line1, hu1, -, hnone, hsome⟩ := updateAndPrint_parts env hk st g hgood
  rw [hu] at hu1
  cases hu1
  have hcheck : (st.checkPI g).1.Clean := by
    unfold Station.checkPI
    repeat' split
    all_goals exact ⟨h.ps, h.radiotext, h.ptyname, h.fullTdc, h.eonPs, h.tmc⟩
  have hoda : (st.checkPI g).1.odaForGroup = st.odaForGroup := by
    unfold Station.checkPI
    repeat' split
    all_goals rfl
  cases line with
  | none =>
    refine ⟨?_, fun _ l hl => by cases hl⟩
    rcases hnone rfl with ⟨-, hs⟩ | ⟨-, -, hs⟩
    · rw [hs]; exact h
    · rw [hs]; exact hcheck
  | some l =>
    obtain ⟨basics, body, j, hb, hl, -, -, hba, hd, -, -, -⟩ := hsome l rfl
    have hbody : st'.Clean ∧ ((g.hasType = true → PlainGroup env st g) → OpsUtf8 body) := by
      split at hd
      · rename_i ht
        have := dispatch_sound he hcheck g _ _ hd
        refine ⟨this.1, fun hp => this.2 ?_⟩
        unfold PlainGroup
        rw [hoda]
        exact hp ht
      · cases hd
        exact ⟨hcheck, fun _ => opsUtf8_nil⟩
    refine ⟨hbody.1, fun hp l' hl' => ?_⟩
    cases hl'
    have hj := build_utf8 _ ((opsUtf8_append _ _).2 ⟨(opsUtf8_append _ _).2 ⟨headerOps_utf8 he g,
      decodeBasics_utf8 g hba⟩, hbody.2 hp⟩) _ _ rfl hb
    refine ⟨j, ?_, hj⟩
    rw [hl]
    unfold printJson
    rw [if_pos hj]

end

end Redsea
