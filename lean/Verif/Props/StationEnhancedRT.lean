import Verif.Lemmas.StationRadiotext

/-
C63: the enhanced RadioText (eRT) of a station is printed as sent.
-/

namespace Redsea

open _root_.Redsea.Spec

/-- Block 3 was received in every group of enhanced RadioText. -/
def ErtBlocks (ds : List Group) : Prop :=
  ∀ before x after, ds = before ++ x :: after → appGroup 0x6552 before x = true → x.block3.isReceived = true

/-- All announcements of enhanced RadioText tell the same encoding. -/
def ErtEncoding (utf8 : Bool) (ds : List Group) : Prop :=
  ∀ x ∈ ds, ∀ u, ertAnnounced x = some u → u = utf8

/-- The encoding of a text. -/
def ertEncoding (utf8 : Bool) : Encoding := if utf8 then .utf8 else .ucs2

theorem ErtBlocks.init {ds : List Group} {g : Group} (h : ErtBlocks (ds ++ [g])) : ErtBlocks ds := by
  intro before x after hd
  exact h before x (after ++ [g]) (by rw [hd]; simp)

theorem ErtEncoding.init {u : Bool} {ds : List Group} {g : Group} (h : ErtEncoding u (ds ++ [g])) :
    ErtEncoding u ds := fun x hx => h x (by simp [hx])

/-- An empty text of 64 bytes. -/
def ertEmpty (e : Encoding) : RDSString := { RDSString.new 64 with encoding := e }

theorem clears_encoding (ucs2 : Ucs2Decoder) (e0 e : Encoding) (h : List TextOp) (hc : ∀ op ∈ h, op = .clear) :
    ((ertEmpty e0).ops ucs2 h).setEncoding e = (ertEmpty e).ops ucs2 h := by
  induction h using snocInduction with
  | nil => rfl
  | snoc h o ih =>
    rw [RDSString.ops_snoc, RDSString.ops_snoc, ← ih (fun op ho => hc op (by simp [ho])), hc o (by simp)]
    rfl

/-- An application is only assigned by an announcement. -/
theorem ert_announced {ds : List Group} {t : GroupType} (h : assignedApp ds t = some 0x6552) :
    ∃ x ∈ ds, ertAnnounced x ≠ none := by
  unfold assignedApp at h
  obtain ⟨a, ha, hs⟩ := Option.map_eq_some_iff.mp h
  have hm := List.mem_of_getLast? ha
  obtain ⟨x, hx, hox⟩ := List.mem_filterMap.mp (List.mem_filter.mp hm).1
  refine ⟨x, hx, ?_⟩
  unfold odaAnnounced at hox
  unfold ertAnnounced
  split at hox
  · rename_i hc
    have : x.block4.data = 0x6552 := by
      rw [← Option.some.inj hox] at hs
      exact hs
    rw [if_pos]
    · simp
    · simp only [RtUsable, Bool.and_eq_true]
      exact ⟨hc.1, hc.2.1, hc.2.2, this⟩
  · cases hox

/-- What is known of the text. -/
structure ErtKnown (ucs2 : Ucs2Decoder) (utf8 : Bool) (ds : List Group) (rt : RadioText) : Prop where
  text : ∃ e0, rt.text = (ertEmpty e0).ops ucs2 (history ertOps ds) ∧
    ((∃ x ∈ ds, ertAnnounced x ≠ none) → e0 = ertEncoding utf8) ∧
    ((∀ x ∈ ds, ertAnnounced x = none) → ∀ op ∈ history ertOps ds, op = .clear)

/-- The flags of eRT+. -/
def ErtFlags (ds : List Group) (rt : RadioText) : Prop :=
  (rt.plus.toggle, rt.plus.itemRunning) = lastPlus 0x4BD8 ds

theorem ertKnown_skip {ucs2 : Ucs2Decoder} {u : Bool} {ds : List Group} {rt : RadioText} {g : Group}
    (known : ErtKnown ucs2 u ds rt) (ho : ertOps ds g = []) (ha : ertAnnounced g = none) :
    ErtKnown ucs2 u (ds ++ [g]) rt := by
  obtain ⟨e0, h1, h2, h3⟩ := known.text
  refine ⟨e0, ?_, ?_, ?_⟩
  · rw [history_snoc, ho, List.append_nil]; exact h1
  · rintro ⟨x, hx, hxa⟩
    rcases List.mem_append.mp hx with hx | hx
    · exact h2 ⟨x, hx, hxa⟩
    · rw [List.mem_singleton.mp hx] at hxa
      exact absurd ha hxa
  · intro hall
    rw [history_snoc, ho, List.append_nil]
    exact h3 (fun x hx => hall x (by simp [hx]))

theorem ertAnnounced_iff (g : Group) (ht : g.hasType = true) :
    ertAnnounced g = if g.type = ⟨3, .A⟩ ∧ g.has .b3 = true ∧ g.has .b4 = true ∧ g.get .b4 = 0x6552 then
      some (getBool (g.get .b3) 0) else none := by
  unfold ertAnnounced
  by_cases hc : g.type = ⟨3, .A⟩ ∧ g.has .b3 = true ∧ g.has .b4 = true ∧ g.get .b4 = 0x6552
  · rw [if_pos hc, if_pos ⟨ht, hc.1, (usable_iff g).mpr ⟨hc.2.1, hc.2.2.1⟩, hc.2.2.2⟩, getBool_eq_div]
    simp [Group.get, Group.block]
  · rw [if_neg hc, if_neg]
    rintro ⟨-, h1, h2, h3⟩
    obtain ⟨h4, h5⟩ := (usable_iff g).mp h2
    exact hc ⟨h1, h4, h5, h3⟩

theorem ertNext (env : Env) (o : Options) (u : Bool) (ds : List Group) (s : Slots) (g : Group)
    (ht : g.hasType = true) (hb : ErtBlocks (ds ++ [g])) (he : ErtEncoding u (ds ++ [g]))
    (known : ErtKnown env.ucs2 u ds s.ert) (flags : ErtFlags ds s.ert) :
    ErtKnown env.ucs2 u (ds ++ [g]) (slotsNext env o (assignedApp ds g.type) s g).ert ∧
    ErtFlags (ds ++ [g]) (slotsNext env o (assignedApp ds g.type) s g).ert := by
  rw [slotsNext_ert]
  have hann := ertAnnounced_iff g ht
  by_cases h3 : g.type = ⟨3, .A⟩ ∧ g.has .b3 = true ∧ g.has .b4 = true ∧ g.get .b4 = 0x6552
  · -- an announcement
    rw [if_pos h3] at hann ⊢
    have hu := he g (by simp) _ hann
    have ha : ∀ app, appGroup app ds g = false := by
      intro app
      cases hx : appGroup app ds g with
      | false => rfl
      | true =>
        refine absurd ?_ ((appGroup_iff _ _ _).mp hx).2.2.1
        rw [h3.1]; decide
    have hops : ertOps ds g = [] := by rw [ertOps, ha, ha]; rfl
    refine ⟨⟨ertEncoding u, ?_, fun _ => rfl, ?_⟩, ?_⟩
    · obtain ⟨e0, h1, h2, h4⟩ := known.text
      rw [history_snoc, hops, List.append_nil]
      dsimp only
      rw [hu, show (if u = true then Encoding.utf8 else Encoding.ucs2) = ertEncoding u from rfl]
      by_cases hany : ∃ x ∈ ds, ertAnnounced x ≠ none
      · rw [h1, h2 hany]
        have : ((ertEmpty (ertEncoding u)).ops env.ucs2 (history ertOps ds)).encoding = ertEncoding u :=
          (ops_encoding _ _ _).1
        unfold RDSString.setEncoding
        generalize (ertEmpty (ertEncoding u)).ops env.ucs2 (history ertOps ds) = s0 at this
        rw [← this]
      · rw [h1]
        refine clears_encoding _ _ _ _ (h4 fun x hx => ?_)
        by_contra hc
        exact hany ⟨x, hx, hc⟩
    · intro hall
      rw [hall g (by simp)] at hann
      cases hann
    · unfold ErtFlags
      rw [lastPlus_snoc, ha]
      exact flags
  rw [if_neg h3] at hann ⊢
  by_cases h6 : g.type.version ≠ .C ∧ g.type ∉ fixedTypes ∧ assignedApp ds g.type = some 0x6552
  · -- characters
    rw [if_pos h6]
    have ha : appGroup 0x6552 ds g = true := (appGroup_iff _ _ _).mpr ⟨ht, h6⟩
    have ha8 : appGroup 0x4BD8 ds g = false := by
      cases hx : appGroup 0x4BD8 ds g with
      | false => rfl
      | true =>
        have := ((appGroup_iff _ _ _).mp hx).2.2.2
        rw [h6.2.2] at this
        exact absurd (Option.some.inj this) (by decide)
    have hb3 := hb ds g [] rfl ha
    obtain ⟨e0, h1, h2, -⟩ := known.text
    have hany := ert_announced h6.2.2
    refine ⟨⟨e0, ?_, fun _ => h2 hany, ?_⟩, ?_⟩
    · rw [history_snoc, RDSString.ops_append, ← h1, ertOps, ha, hb3, if_pos rfl, if_pos rfl,
        RDSString.ops_append, ← set2_twoChars]
      unfold Station.parseEnhancedRT RadioText.update
      dsimp only
      have e4 : g.has .b4 = g.block4.isReceived := rfl
      rw [e4, low_bits, Nat.mul_comm]
      cases g.block4.isReceived with
      | false => rfl
      | true => simp only [if_true]; rw [set2_twoChars (pos := 4 * _ + 2)]; rfl
    · intro hall
      obtain ⟨x, hx, hxa⟩ := hany
      exact absurd (hall x (by simp [hx])) hxa
    · unfold ErtFlags
      rw [lastPlus_snoc, ha8]
      have : (Station.parseEnhancedRT env s.ert g).1.plus = s.ert.plus := by
        unfold Station.parseEnhancedRT RadioText.update
        cases g.has .b4 <;> rfl
      rw [this]
      exact flags
  rw [if_neg h6]
  have ha6 : appGroup 0x6552 ds g = false := by
    cases hx : appGroup 0x6552 ds g with
    | false => rfl
    | true => exact absurd ((appGroup_iff _ _ _).mp hx).2 h6
  by_cases h8 : g.type.version ≠ .C ∧ g.type ∉ fixedTypes ∧ assignedApp ds g.type = some 0x4BD8
  · -- flags
    rw [if_pos h8]
    have ha : appGroup 0x4BD8 ds g = true := (appGroup_iff _ _ _).mpr ⟨ht, h8⟩
    obtain ⟨p1, -, -, p4⟩ := plusNext_facts s.ert g
    have hops : ertOps ds g = if plusFlags g ≠ (s.ert.plus.toggle, s.ert.plus.itemRunning) then [.clear]
        else [] := by rw [ertOps, ha6, ha, show _ = _ from flags]; rfl
    obtain ⟨e0, h1, h2, h4⟩ := known.text
    refine ⟨⟨e0, ?_, ?_, ?_⟩, ?_⟩
    · rw [p4 env.ucs2, history_snoc, hops, RDSString.ops_append, h1]
    · rintro ⟨x, hx, hxa⟩
      rcases List.mem_append.mp hx with hx | hx
      · exact h2 ⟨x, hx, hxa⟩
      · rw [List.mem_singleton.mp hx] at hxa
        exact absurd hann hxa
    · intro hall op hop
      rw [history_snoc, hops] at hop
      rcases List.mem_append.mp hop with hop | hop
      · exact h4 (fun x hx => hall x (by simp [hx])) op hop
      · split at hop
        · exact List.mem_singleton.mp hop
        · cases hop
    · unfold ErtFlags
      rw [lastPlus_snoc, ha, p1]
      rfl
  rw [if_neg h8]
  have ha8 : appGroup 0x4BD8 ds g = false := by
    cases hx : appGroup 0x4BD8 ds g with
    | false => rfl
    | true => exact absurd ((appGroup_iff _ _ _).mp hx).2 h8
  refine ⟨ertKnown_skip known (by rw [ertOps, ha6, ha8]; rfl) hann, ?_⟩
  unfold ErtFlags
  rw [lastPlus_snoc, ha8]
  exact flags

theorem ert_known {env : Env} (hk : env.tmc.KeysOk) {o : Options} {w : Nat} {p : Word} {gs : List Group}
    {st : Station} {ls : List (Option Line)}
    (h : Station.receive env (Station.withPI o w p) gs = some (st, ls)) (u : Bool)
    (hb : ErtBlocks (decodedGroups gs ls)) (he : ErtEncoding u (decodedGroups gs ls)) :
    ErtKnown env.ucs2 u (decodedGroups gs ls) st.ert := by
  have := slots_induction hk (fun ds s => ErtBlocks ds → ErtEncoding u ds →
      ErtKnown env.ucs2 u ds s.ert ∧ ErtFlags ds s.ert) ?_ ?_ ?_ gs st ls h
  · exact (this hb he).1
  · intro _ _
    refine ⟨⟨.basic, rfl, ?_, ?_⟩, rfl⟩
    · rintro ⟨x, hx, -⟩
      cases hx
    · intro _ op hop
      cases hop
  · intro ds s g ht ih hb he
    obtain ⟨h1, h2⟩ := ih hb.init he.init
    have ha : ∀ app, appGroup app ds g = false := fun app => by simp [appGroup, ht]
    refine ⟨ertKnown_skip h1 (by rw [ertOps, ha, ha]; rfl) ?_, ?_⟩
    · unfold ertAnnounced
      rw [if_neg (by rw [ht]; simp)]
    · unfold ErtFlags
      rw [lastPlus_snoc, ha]
      exact h2
  · intro ds s g ht ih hb he
    obtain ⟨h1, h2⟩ := ih hb.init he.init
    exact ertNext env o u ds s g ht hb he h1 h2

theorem own_ert {g : Group} {app : Option Word} (h : "enhanced_radiotext" ∈ ownMembers g app) :
    g.hasType = true ∧ g.type.version ≠ .C ∧ g.type ∉ fixedTypes ∧ app = some 0x6552 := by
  obtain ⟨ht, h | h | h | h | h⟩ := own_text h (by decide)
  · exact absurd h.2 (by decide)
  · exact absurd h.2 (by decide)
  · exact absurd h.2 (by decide)
  · exact ⟨ht, h.1, h.2.1, h.2.2.1⟩
  · exact absurd h.2.2 (by decide)

/-- The enhanced RadioText that is printed. -/
theorem ert_member {env : Env} (hk : env.tmc.KeysOk) {o : Options} {w : Nat} {p : Word}
    {gs : List Group} {st : Station} {ls : List (Option Line)}
    (h : Station.receive env (Station.withPI o w p) gs = some (st, ls)) {g : Group} {st' : Station} {j : J}
    (hu : st.updateAndPrint env g = some (st', some (.json j))) (u : Bool)
    (hb : ErtBlocks (decodedGroups gs ls ++ [g])) (he : ErtEncoding u (decodedGroups gs ls ++ [g])) :
    let s := (ertEmpty (ertEncoding u)).ops env.ucs2 (history ertOps (decodedGroups gs ls ++ [g]))
    j.at? ["enhanced_radiotext"] =
      if appGroup 0x6552 (decodedGroups gs ls) g = true ∧ s.isComplete = true then
        some (.str (rtrim s.lastCompleteString)) else none := by
  obtain ⟨hd, body, hbd, hkd, hkb, hrec, hdec, hdisp, -, hoda⟩ := text_parts hk h hu
  have known := ert_known hk hrec u (by rw [hdec]; exact hb) (by rw [hdec]; exact he)
  rw [hdec] at known
  dsimp only
  by_cases ha : appGroup 0x6552 (decodedGroups gs ls) g = true
  · obtain ⟨ht, hC, hf, happ⟩ := (appGroup_iff _ _ _).mp ha
    obtain ⟨e0, h1, h2, -⟩ := known.text
    have he0 := h2 (by
      obtain ⟨x, hx, hxa⟩ := ert_announced happ
      exact ⟨x, by simp [hx], hxa⟩)
    rw [he0] at h1
    rw [← h1]
    obtain ⟨b, hd0⟩ := hdisp ht
    have hd1 : Station.decodeODAApp env { st with lastGroupHadPi := b } g 0x6552 = some (st', body) := by
      have happ' : st.odaForGroup g.type = some 0x6552 := by rw [hoda]; exact happ
      have := C47_application env { st with lastGroupHadPi := b } g 0x6552 hC hf happ'
      rw [← this]
      exact hd0
    have hd2 : some ({ ({ st with lastGroupHadPi := b } : Station) with
          ert := (Station.parseEnhancedRT env st.ert g).1 }, (Station.parseEnhancedRT env st.ert g).2) =
        some (st', body) := hd1
    have hbody := some_snd hd2
    have hst : st'.ert = (Station.parseEnhancedRT env st.ert g).1 := by rw [(some_fst hd2).symm]
    have hbody2 : body = if st'.ert.text.isComplete then
        [.set ["enhanced_radiotext"] (.str (rtrim st'.ert.text.lastCompleteString))] else [] := by
      rw [hbody, hst]
      rfl
    by_cases hcm : st'.ert.text.isComplete = true
    · rw [if_pos ⟨ha, hcm⟩]
      rw [if_pos hcm] at hbody2
      rw [hbody2] at hbd
      exact member_set (pre := []) hbd (by simp)
    · rw [if_neg (fun hx => hcm hx.2)]
      rw [if_neg hcm] at hbody2
      refine member_none hbd hkd (by decide) ?_
      rw [hbody2]
      simp
  · rw [if_neg (fun hx => ha hx.1)]
    refine member_none hbd hkd (by decide) (keysIn_away hkb "enhanced_radiotext" [] (fun hx => ha ?_))
    exact (appGroup_iff _ _ _).mpr (own_ert hx)

/-- **C63** (partial), enhanced RadioText. If block 3 was received in all groups of the application,
and all announcements tell the same encoding: a printed text is the decoding of a whole text of at most
64 bytes, each the latest received for its position, without blanks at its end. Missing for the full
property: block 3 is used even if it was not received (see `C49_enhanced_radiotext_violated`), texts of
more than 64 bytes, and changes of the encoding. -/
theorem C63_enhanced_radiotext_partial (env : Env) (hk : env.tmc.KeysOk) (o : Options) (w : Nat) (p : Word)
    (gs : List Group) (st : Station) (ls : List (Option Line))
    (h : Station.receive env (Station.withPI o w p) gs = some (st, ls)) (g : Group) (st' : Station) (j : J)
    (hu : st.updateAndPrint env g = some (st', some (.json j))) (u : Bool)
    (hb : ErtBlocks (decodedGroups gs ls ++ [g])) (he : ErtEncoding u (decodedGroups gs ls ++ [g])) (v : J)
    (hj : j.at? ["enhanced_radiotext"] = some v) :
    appGroup 0x6552 (decodedGroups gs ls) g = true ∧ ∃ bs t, WholeText 64 bs ∧
      (∀ i b, bs[i]? = some b → LatestByte (history ertOps (decodedGroups gs ls ++ [g])) i b) ∧
      (if u then t = bs.map display else env.ucs2 (bs.map display) = some t) ∧ v = .str (rtrim t) := by
  rw [ert_member hk h hu u hb he] at hj
  split at hj
  · rename_i hc
    obtain ⟨bs, h1, h2, -, h3⟩ := C24_complete_text_latest_bytes env.ucs2 64 (by decide) (ertEncoding u)
      (history ertOps (decodedGroups gs ls ++ [g])) hc.2
    refine ⟨hc.1, bs, _, h1, h2, ?_, (Option.some.inj hj).symm⟩
    cases u with
    | true => exact (Option.some.inj h3).symm
    | false => exact h3
  · cases hj

/-- **C63** (partial), enhanced RadioText is printed when it was received in order. -/
theorem C63_enhanced_radiotext_complete_partial (env : Env) (hk : env.tmc.KeysOk) (o : Options) (w : Nat)
    (p : Word) (gs : List Group) (st : Station) (ls : List (Option Line))
    (h : Station.receive env (Station.withPI o w p) gs = some (st, ls)) (g : Group) (st' : Station) (j : J)
    (hu : st.updateAndPrint env g = some (st', some (.json j))) (u : Bool)
    (hb : ErtBlocks (decodedGroups gs ls ++ [g])) (hn : ErtEncoding u (decodedGroups gs ls ++ [g]))
    (hg : appGroup 0x6552 (decodedGroups gs ls) g = true) (earlier : List TextOp) (bs : List Byte)
    (hw : WholeText 64 bs) (t : Str)
    (ht : if u then t = bs.map display else env.ucs2 (bs.map display) = some t)
    (later : List (Nat × Byte)) (hl : ∀ x ∈ later, bs.length ≤ x.1)
    (he : history ertOps (decodedGroups gs ls ++ [g]) =
      earlier ++ (inOrder 0 bs ++ later.map fun x => .recv x.1 x.2)) :
    j.at? ["enhanced_radiotext"] = some (.str (rtrim t)) := by
  rw [ert_member hk h hu u hb hn, he, RDSString.ops_append]
  have inv : TextInv env.ucs2 64 (ertEncoding u) earlier ((ertEmpty (ertEncoding u)).ops env.ucs2 earlier) :=
    textInv env.ucs2 64 (by decide) (ertEncoding u) earlier
  obtain ⟨h1, -, h3⟩ := C25_characters_after_the_end env.ucs2
    ((ertEmpty (ertEncoding u)).ops env.ucs2 earlier) bs (by rw [inv.len]; exact hw) t
    (by
      rw [inv.enc]
      cases u with
      | true => rw [show t = _ from ht]; rfl
      | false => exact ht) later hl
  rw [if_pos ⟨hg, h1⟩, h3]

/-! ### Examples -/

/-- Announcement of enhanced RadioText in UTF-8 for groups of type 12A. -/
def demoErtAnnounced : Group := demoGroup 0x6204 0x3018 0x0001 0x6552

/-- "Tämä", ended by a carriage return. -/
def demoErt : List Group := [demoGroup 0x6204 0xC000 0x54C3 0xA46D, demoGroup 0x6204 0xC001 0xC3A4 0x0D20]

example : history ertOps (demoErtAnnounced :: demoErt) =
      inOrder 0 [0x54, 0xC3, 0xA4, 0x6D, 0xC3, 0xA4, 0x0D] ++ [.recv 7 0x20] ∧
    WholeText 64 [0x54, 0xC3, 0xA4, 0x6D, 0xC3, 0xA4, 0x0D] ∧
    demoMember [demoErtAnnounced, demoGroup 0x6204 0xC000 0x54C3 0xA46D]
      (demoGroup 0x6204 0xC001 0xC3A4 0x0D20) ["enhanced_radiotext"] =
      some [0x54, 0xC3, 0xA4, 0x6D, 0xC3, 0xA4] := by
  unfold WholeText
  decide +kernel

example : ErtBlocks (demoErtAnnounced :: demoErt) := by
  intro before x after hd _
  have : x ∈ demoErtAnnounced :: demoErt := by rw [hd]; simp
  have all : ∀ x ∈ demoErtAnnounced :: demoErt, x.block3.isReceived = true := by decide +kernel
  exact all x this

example : ErtEncoding true (demoErtAnnounced :: demoErt) := by
  have all : ∀ x ∈ demoErtAnnounced :: demoErt, ertAnnounced x = none ∨ ertAnnounced x = some true := by
    decide +kernel
  intro x hx u hu
  rcases all x hx with h | h <;> rw [h] at hu
  · cases hu
  · exact (Option.some.inj hu).symm

end Redsea
