import Verif.Lemmas.TypeC
import Verif.Props.TmcStation

/-
C77: type C groups and the files sent in them, for a station.
-/

namespace Redsea

open _root_.Redsea.Spec

/-! ### Events -/

/-- **C77**, events. The blocks of a type C group are a file transfer event for a pipe exactly if they have
been put together as one: segment data, file information or checksum. -/
theorem C77_event (b1 b2 b3 b4 : Word) (pipe : Nat) (e : RftEvent) :
    rftEvent b1 b2 b3 b4 = some (pipe, e) ↔ FileEvent (b1, b2, b3, b4) pipe e := by
  constructor
  · intro h
    have hb1 := b1.isLt
    have hb2 := b2.isLt
    have hb3 := b3.isLt
    have hb4 := b4.isLt
    unfold rftEvent at h
    dsimp only at h
    split at h
    · cases h
    split at h
    · rename_i hc
      obtain ⟨h0, hf⟩ := hc
      have hlt : getBits 6 b1 8 < 64 := by rw [getBits_eq_div]; omega
      obtain ⟨p1, p2⟩ := pipe_of_fn _ hlt
      have hf := p1.mp hf
      rw [p2] at h
      cases h
      rw [getBits_eq_div] at h0 hf
      have ht : (getBool b1 7).toNat = getBits 1 b1 7 := by
        rw [getBool_eq_div, getBits_eq_div]
        have : b1.toNat / 2 ^ 7 % 2 < 2 := Nat.mod_lt _ (by decide)
        rcases (by omega : b1.toNat / 2 ^ 7 % 2 = 0 ∨ b1.toNat / 2 ^ 7 % 2 = 1) with hx | hx
        · rw [hx]; rfl
        · rw [hx]; rfl
      have e3 := bytes_of_word b3
      have e4 := bytes_of_word b4
      have eb1 : BitVec.ofNat 16 (2 ^ 13 + 2 ^ 8 * (getBits 6 b1 8 % 16) + 2 ^ 7 * (getBool b1 7).toNat +
          getBits2 15 b1 b2 8 / 2 ^ 8) = b1 := by
        apply BitVec.eq_of_toNat_eq
        rw [BitVec.toNat_ofNat, ht, getBits_eq_div, getBits_eq_div, getBits2_eq_div]
        omega
      have eb2 : BitVec.ofNat 16 (2 ^ 8 * (getBits2 15 b1 b2 8 % 2 ^ 8) + (getUint8 b2 0).toNat) = b2 := by
        apply BitVec.eq_of_toNat_eq
        rw [BitVec.toNat_ofNat, (getUint8_codes b2).2, getBits2_eq_div]
        omega
      have hs : segmentWords (getBits 6 b1 8 % 16) (getBool b1 7) (getBits2 15 b1 b2 8) (getUint8 b2 0)
          (getUint8 b3 8) (getUint8 b3 0) (getUint8 b4 8) (getUint8 b4 0) = (b1, b2, b3, b4) := by
        unfold segmentWords
        rw [eb1, eb2, ← e3, ← e4]
      have := FileEvent.segment (getBits 6 b1 8 % 16) (getBool b1 7) (getBits2 15 b1 b2 8) (getUint8 b2 0)
          (getUint8 b3 8) (getUint8 b3 0) (getUint8 b4 8) (getUint8 b4 0) (Nat.mod_lt _ (by decide))
          (Nat.mod_lt _ (by decide))
      rw [hs, ← e3, ← e4, ht] at this
      exact this
    split at h
    · cases h
    split at h
    · rename_i hc
      split at h
      · rename_i hm
        split at h
        · rename_i hch
          have hm : getBits 2 b1 6 = 0 := by omega
          have eb1 : BitVec.ofNat 16 (2 ^ 15 + getBits 6 b1 0) = b1 := by
            apply BitVec.eq_of_toNat_eq
            obtain ⟨h0, hf⟩ := hc
            rw [getBits_eq_div] at h0 hf hm
            rw [BitVec.toNat_ofNat, getBits_eq_div]
            omega
          split at h
          · rename_i hv
            cases h
            have eb3 : BitVec.ofNat 16 (2 ^ 11 * (getBool b3 11).toNat + 2 ^ 8 * getBits 3 b3 8 +
                2 ^ 2 * getBits 6 b3 2 + getBits2 18 b3 b4 0 / 2 ^ 16) = b3 := by
              apply BitVec.eq_of_toNat_eq
              have ht : (getBool b3 11).toNat = b3.toNat / 2 ^ 11 % 2 := by
                rw [getBool_eq_div]
                have : b3.toNat / 2 ^ 11 % 2 < 2 := Nat.mod_lt _ (by decide)
                rcases (by omega : b3.toNat / 2 ^ 11 % 2 = 0 ∨ b3.toNat / 2 ^ 11 % 2 = 1) with hx | hx
                · rw [hx]; rfl
                · rw [hx]; rfl
              rw [getBits_eq_div] at hv
              rw [BitVec.toNat_ofNat, ht, getBits_eq_div, getBits_eq_div, getBits2_eq_div]
              omega
            have eb4 : BitVec.ofNat 16 (getBits2 18 b3 b4 0 % 2 ^ 16) = b4 := by
              apply BitVec.eq_of_toNat_eq
              rw [BitVec.toNat_ofNat, getBits2_eq_div]
              omega
            have := FileEvent.info (getBits 6 b1 0) b2 (getBool b3 11) (getBits 3 b3 8) (getBits 6 b3 2)
              (getBits2 18 b3 b4 0) hch (Nat.mod_lt _ (by decide)) (Nat.mod_lt _ (by decide))
              (Nat.mod_lt _ (by decide))
            unfold fileInfoWords assignmentWords at this
            rw [eb1, eb3, eb4] at this
            exact this
          split at h
          · rename_i hv
            cases h
            have eb3 : BitVec.ofNat 16 (2 ^ 12 + 2 ^ 9 * getBits 3 b3 9 + getBits 9 b3 0) = b3 := by
              apply BitVec.eq_of_toNat_eq
              rw [getBits_eq_div] at hv
              rw [BitVec.toNat_ofNat, getBits_eq_div, getBits_eq_div]
              omega
            have := FileEvent.crc (getBits 6 b1 0) b2 (getBits 3 b3 9) (getBits 9 b3 0) b4 hch
              (Nat.mod_lt _ (by decide)) (Nat.mod_lt _ (by decide))
            unfold fileCrcWords assignmentWords at this
            rw [eb1, eb3] at this
            exact this
          · cases h
        · cases h
      · cases h
    · cases h
  · intro h
    generalize hw : (b1, b2, b3, b4) = ws at h
    cases h with
    | segment pipe toggle address d0 d1 d2 d3 d4 hp ha =>
      rw [rftEvent_segment pipe toggle address d0 d1 d2 d3 d4 hp ha hw.symm]
      cases hw
      rfl
    | info pipe app crc version id size hp hv hi hs =>
      cases hw
      obtain ⟨f1, -, -, f4, f5⟩ := info_fields crc hv hi hs rfl rfl
      rw [rftEvent_assignment (by omega : pipe < 64) (assign_word (by omega)), if_pos hp,
        if_pos f1, f4, f5]
    | crc pipe app mode chunk crc hp hm hc =>
      cases hw
      obtain ⟨f1, f2, f3⟩ := crc_fields hm hc rfl
      rw [rftEvent_assignment (by omega : pipe < 64) (assign_word (by omega)), if_pos hp,
        if_neg (by rw [f1]; decide), if_pos f1, f2, f3]

/-! ### The state of the station -/

theorem typeCPart_eq {before : List Group} {g : Group} {w : CWords} (h : typeCPart before g = [w]) :
    g.hasType = true ∧ g.type.version = .C ∧
    (!g.has .b1 || !g.has .b2 || !g.has .b3 || !g.has .b4) = false ∧
    g.get .b1 = w.1 ∧ g.get .b2 = w.2.1 ∧ g.get .b3 = w.2.2.1 ∧ g.get .b4 = w.2.2.2 := by
  unfold typeCPart at h
  split at h
  · rename_i hc
    obtain ⟨h1, h2, h3, h4, h5, h6⟩ := hc
    cases h
    refine ⟨h1, h2, ?_, rfl, rfl, rfl, rfl⟩
    show (!g.block1.isReceived || !g.block2.isReceived || !g.block3.isReceived || !g.block4.isReceived) = false
    rw [h3, h4, h5, h6]
    rfl
  · cases h

theorem typeCPart_cases (before : List Group) (g : Group) :
    (typeCPart before g = [] ∧ (g.hasType = true → g.type.version = .C →
      (!g.has .b1 || !g.has .b2 || !g.has .b3 || !g.has .b4) = true)) ∨
    ∃ w, typeCPart before g = [w] := by
  unfold typeCPart
  split
  · exact .inr ⟨_, rfl⟩
  · rename_i hc
    refine .inl ⟨rfl, fun h1 h2 => ?_⟩
    show (!g.block1.isReceived || !g.block2.isReceived || !g.block3.isReceived || !g.block4.isReceived) = true
    by_contra hx
    have hx : (!g.block1.isReceived || !g.block2.isReceived || !g.block3.isReceived || !g.block4.isReceived) =
        false := by simpa using hx
    simp only [Bool.or_eq_false_iff, Bool.not_eq_false'] at hx
    exact hc ⟨h1, h2, hx.1.1.1, hx.1.1.2, hx.1.2, hx.2⟩

/-- What a type C group does to the station. -/
theorem decodeC_step {st st' : Station} {g : Group} {ops : List JOp} {w : CWords}
    (hall : (!g.has .b1 || !g.has .b2 || !g.has .b3 || !g.has .b4) = false)
    (h1 : g.get .b1 = w.1) (h2 : g.get .b2 = w.2.1) (h3 : g.get .b3 = w.2.2.1) (h4 : g.get .b4 = w.2.2.2)
    (h : st.decodeC g = some (st', ops)) :
    (∃ o, decodeCRft st.rftFiles w.1 w.2.1 w.2.2.1 w.2.2.2 = some (st'.rftFiles, o)) ∧
    ∀ c, c < 64 → st'.odaForPipe c = (channelAssigned c w).or (st.odaForPipe c) := by
  unfold Station.decodeC at h
  rw [hall] at h
  simp only [Bool.false_eq_true, if_false] at h
  obtain ⟨f, hf, h⟩ := Option.bind_eq_some_iff.mp h
  rw [h1, h2, h3, h4] at hf
  have hb1 := w.1.isLt
  have hno : ∀ c, c < 64 → ¬ (getBits 2 (g.get .b1) 14 = 2 ∧ getBits 6 (g.get .b1) 8 = 0 ∧
      getBits 2 (g.get .b1) 6 = 0 ∧ getBits 6 (g.get .b1) 0 = c) → channelAssigned c w = none := by
    intro c hc hn
    unfold channelAssigned
    rw [if_neg]
    intro hw
    apply hn
    rw [h1]
    exact assignment_fields hc (by rw [hw]; exact assign_word hc)
  have hkeep : ∀ {st1 : Station} {ops1 : List JOp},
      (some (({ st with rftFiles := f.1 } : Station), ops1) = some (st', ops)) →
      ¬ (getBits 2 (g.get .b1) 14 = 2 ∧ getBits 6 (g.get .b1) 8 = 0 ∧ getBits 2 (g.get .b1) 6 = 0) →
      (∃ o, decodeCRft st.rftFiles w.1 w.2.1 w.2.2.1 w.2.2.2 = some (st'.rftFiles, o)) ∧
      ∀ c, c < 64 → st'.odaForPipe c = (channelAssigned c w).or (st.odaForPipe c) := by
    intro st1 ops1 he hn
    cases he
    refine ⟨⟨f.2, hf⟩, fun c hc => ?_⟩
    rw [hno c hc (fun hx => hn ⟨hx.1, hx.2.1, hx.2.2.1⟩)]
    rfl
  split at h
  · rename_i hc
    exact hkeep (st1 := st) h (by omega)
  split at h
  · rename_i hc
    exact hkeep (st1 := st) h (by omega)
  split at h
  · rename_i hc
    exact hkeep (st1 := st) h (by omega)
  split at h
  · rename_i hc
    split at h
    · rename_i hm
      cases h
      refine ⟨⟨f.2, hf⟩, fun c hc' => ?_⟩
      show mapSet st.odaForPipe (getBits 6 (g.get .b1) 0) (some (g.get .b2)) c = _
      unfold mapSet
      by_cases he : c = getBits 6 (g.get .b1) 0
      · have hw : w.1 = BitVec.ofNat 16 (2 ^ 15 + c) := by
          apply BitVec.eq_of_toNat_eq
          rw [assign_word hc']
          rw [h1, getBits_eq_div] at he
          rw [h1, getBits_eq_div, getBits_eq_div] at hc
          rw [h1, getBits_eq_div] at hm
          omega
        unfold channelAssigned
        rw [if_pos he, if_pos hw, h2]
        rfl
      · rw [if_neg he, hno c hc' (fun hx => he hx.2.2.2.symm)]
        rfl
    · rename_i hm
      exact hkeep (st1 := st) h (by omega)
  · rename_i hc
    exact hkeep (st1 := st) h (fun hx => hc ⟨hx.1, hx.2.1⟩)

/-- A type C group with missing blocks. -/
theorem decodeC_missing {st : Station} {g : Group}
    (hall : (!g.has .b1 || !g.has .b2 || !g.has .b3 || !g.has .b4) = true) :
    st.decodeC g = some (st, []) := by
  unfold Station.decodeC
  rw [if_pos hall]

/-- **C77**, files and channels. For every sequence of groups of a station: its files are those of the decoder
that has got all complete type C groups, in order; the application of every channel is the one assigned
last. Nothing else has any effect on them. -/
theorem C77_files_and_channels (env : Env) (hk : env.tmc.KeysOk) (o : Options) (w : Nat) (p : Word)
    (gs : List Group) (st : Station) (ls : List (Option Line))
    (h : Station.receive env (Station.withPI o w p) gs = some (st, ls)) :
    (∃ outs, decodeCRun (history typeCPart (decodedGroups gs ls)) = some (st.rftFiles, outs)) ∧
    ∀ c, c < 64 → st.odaForPipe c = channelApp (history typeCPart (decodedGroups gs ls)) c := by
  have key := receive_induction hk (fun ds st =>
    (∃ outs, decodeCRun (history typeCPart ds) = some (st.rftFiles, outs)) ∧
    ∀ c, c < 64 → st.odaForPipe c = channelApp (history typeCPart ds) c)
    (o := o) (w := w) (p := p) ⟨⟨[], rfl⟩, fun _ _ => rfl⟩ (by
      intro ds st g st' l hgood ⟨⟨outs, i1⟩, i2⟩ hu
      obtain ⟨b, hnone, hsome⟩ := update_step hk hgood hu
      have hsame : st'.typeC = st.typeC → typeCPart ds g = [] ∨ l = none →
          (∃ outs, decodeCRun (history typeCPart (ds ++ if l.isSome = true then [g] else [])) =
            some (st'.rftFiles, outs)) ∧
          ∀ c, c < 64 → st'.odaForPipe c =
            channelApp (history typeCPart (ds ++ if l.isSome = true then [g] else [])) c := by
        intro hs hn
        have e1 : st'.rftFiles = st.rftFiles := congrArg Prod.snd hs
        have e2 : st'.odaForPipe = st.odaForPipe := congrArg Prod.fst hs
        have e3 : history typeCPart (ds ++ if l.isSome = true then [g] else []) = history typeCPart ds := by
          rcases hn with hn | hn
          · split
            · rw [history_snoc, hn, List.append_nil]
            · rw [List.append_nil]
          · rw [hn]
            simp
        rw [e1, e2, e3]
        exact ⟨⟨outs, i1⟩, i2⟩
      cases hl : l with
      | none =>
        rw [← hl]
        refine hsame ?_ (.inr hl)
        rcases hnone hl with hs | hs <;> rw [hs]
        rfl
      | some l1 =>
        obtain ⟨basics, body, j, -, -, hd, -, -, -⟩ := hsome l1 hl
        by_cases ht : g.hasType = true
        · rw [if_pos ht] at hd
          by_cases hC : g.type.version = .C
          · unfold Station.dispatch at hd
            dsimp only at hd
            rw [if_pos hC] at hd
            rcases typeCPart_cases ds g with ⟨he, hm⟩ | ⟨w, he⟩
            · rw [decodeC_missing (hm ht hC)] at hd
              rw [← hl]
              refine hsame ?_ (.inl he)
              rw [show st' = _ from (congrArg Prod.fst (Option.some.inj hd)).symm]
              rfl
            · obtain ⟨-, -, hall, h1, h2, h3, h4⟩ := typeCPart_eq he
              obtain ⟨⟨o1, s1⟩, s2⟩ := decodeC_step hall h1 h2 h3 h4 hd
              simp only [Option.isSome_some, if_true]
              rw [history_snoc, he]
              refine ⟨⟨outs ++ [o1], ?_⟩, fun c hc => ?_⟩
              · rw [decodeCRun_snoc, i1]
                have s1 : decodeCRft st.rftFiles w.1 w.2.1 w.2.2.1 w.2.2.2 = some (st'.rftFiles, o1) := s1
                simp only [Option.bind_some, s1, Option.map_some]
              · rw [s2 c hc]
                have i2 : Station.odaForPipe { st with lastGroupHadPi := b } c = _ := i2 c hc
                rw [i2]
                unfold channelApp
                rw [List.filterMap_append, List.getLast?_append]
                congr 1
                cases hcw : channelAssigned c w with
                | none => simp [hcw]
                | some a => simp [hcw]
          · rw [← hl]
            have hx := dispatch_typeC (st := { st with lastGroupHadPi := b }) hC hd
            have hy : Station.typeC { st with lastGroupHadPi := b } = st.typeC := rfl
            refine hsame (hx.trans hy) (.inl ?_)
            unfold typeCPart
            rw [if_neg (fun hx => hC hx.2.1)]
        · rw [if_neg ht] at hd
          rw [← hl]
          refine hsame ?_ (.inl ?_)
          · rw [show st' = _ from (congrArg Prod.fst (Option.some.inj hd)).symm]
            rfl
          · unfold typeCPart
            rw [if_neg (fun hx => ht hx.1)]) gs st ls h
  exact key.1

/-! ### A file sent is a file printed -/

theorem announced_transfer {file : List Byte} {t : Nat} {pre post : List RftEvent}
    (hs : announcedSize pre = file.length) (ht : TransferOf file t post) :
    announcedSize (pre ++ post) = file.length := by
  unfold announcedSize at hs ⊢
  rw [List.filterMap_append, List.getLast?_append]
  cases hl : (post.filterMap sizeIn).getLast? with
  | none => exact hs
  | some n =>
    have hm := List.mem_of_getLast? hl
    obtain ⟨e, he, hn⟩ := List.mem_filterMap.mp hm
    have := ht e he
    cases e with
    | segment t a b2 b3 b4 => exact absurd hn (by simp [sizeIn])
    | crc m a c => exact absurd hn (by simp [sizeIn])
    | info size c =>
      have this : size = file.length := this
      have hn : (if size ≤ 163840 then some size else none) = some n := hn
      split at hn
      · rw [← Option.some.inj hn]
        exact this
      · cases hn

/-- If a window of equal toggle bits reaches from before a transfer into it, it has no segments from before. -/
theorem window_in_transfer {t : Nat} {pre c rest : List RftEvent} (hpre : lastToggle (pre ++ c) ≠ some t)
    (hc : SameToggle t (c ++ rest)) : ∀ a, ∀ e ∈ c, ¬ CarriesSegment a e := by
  intro a e he hce
  apply hpre
  unfold lastToggle
  rw [List.filterMap_append, List.getLast?_append]
  have hne : c.filterMap toggleIn ≠ [] := by
    intro hx
    have := List.filterMap_eq_nil_iff.mp hx e he
    cases e with
    | segment => cases this
    | info => exact hce
    | crc => exact hce
  obtain ⟨n, hn⟩ : ∃ n, (c.filterMap toggleIn).getLast? = some n :=
    ⟨_, List.getLast?_eq_some_getLast hne⟩
  obtain ⟨e', he', hn'⟩ := List.mem_filterMap.mp (List.mem_of_getLast? hn)
  have := hc e' (List.mem_append_left _ he')
  cases e' with
  | info => cases hn'
  | crc => cases hn'
  | segment t' _ _ _ _ =>
    have this : t' = t := this
    cases hn'
    rw [hn, this]
    rfl

theorem carries_segment (t a : Nat) (b2 b3 b4 : Word) : CarriesSegment a (.segment t a b2 b3 b4) := rfl

/-- Only segments complete a file. -/
theorem event_prints {f f' : RFTFile} {e : RftEvent} {text : Str} (hv : ValidEvent e)
    (h : f.event e = some (f', some text)) : ∃ t a b2 b3 b4, e = .segment t a b2 b3 b4 := by
  cases e with
  | segment t a b2 b3 b4 => exact ⟨t, a, b2, b3, b4, rfl⟩
  | info n c => simp [RFTFile.event] at h
  | crc m a c =>
    have hv' : a < kMaxNumCRCs := hv
    simp [RFTFile.event, RFTFile.receiveCRC, hv', Buf.write, Buf.resize] at h

theorem last_in_suffix {α : Type} {l pr po : List α} {e : α} (h : l ++ [e] = pr ++ po) (hne : po ≠ []) :
    e ∈ po := by
  rw [← List.dropLast_concat_getLast hne, ← List.append_assoc] at h
  rw [(List.append_inj' h rfl).2 |> List.singleton_inj.mp]
  exact List.getLast_mem hne

/-- While a segment is still missing nothing is printed. -/
theorem transfer_quiet (file : List Byte) (t a : Nat) (pre post : List RftEvent)
    (hv : ∀ x ∈ pre ++ post, ValidEvent x) (hneed : 5 * a < file.length)
    (hsize : announcedSize pre = file.length) (hstart : lastToggle pre ≠ some t)
    (htr : TransferOf file t post) (hnew : ∀ e ∈ post, ¬ CarriesSegment a e) :
    ∃ f outs, rftRun (pre ++ post) = some (f, outs) ∧ ∀ o ∈ outs.drop pre.length, o = none := by
  induction post using snocInduction with
  | nil =>
    obtain ⟨f, outs, h1, i⟩ := rftRun_inv (pre ++ []) hv
    refine ⟨f, outs, h1, ?_⟩
    rw [List.drop_eq_nil_of_le (by rw [i.len]; simp)]
    simp
  | snoc post e ih =>
    obtain ⟨f, outs, h1, hq⟩ := ih (fun x hx => hv x (by
        rw [← List.append_assoc]; exact List.mem_append_left _ hx))
      (fun x hx => htr x (List.mem_append_left _ hx)) (fun x hx => hnew x (List.mem_append_left _ hx))
    have hve : ValidEvent e := hv e (by simp)
    obtain ⟨f0, outs0, h2, i⟩ := rftRun_inv (pre ++ post) (fun x hx => hv x (by
        rw [← List.append_assoc]; exact List.mem_append_left _ hx))
    rw [h1] at h2
    simp only [Option.some.injEq, Prod.mk.injEq] at h2
    obtain ⟨rfl, rfl⟩ := h2
    obtain ⟨f', o, h3, -⟩ := rftInv_step i e hve
    refine ⟨f', outs ++ [o], ?_, ?_⟩
    · rw [← List.append_assoc, rftRun_snoc, h1]
      simp only [Option.bind_some, h3, Option.map_some]
    · have hlen : pre.length ≤ outs.length := by rw [i.len]; simp
      rw [List.drop_append_of_le_length hlen]
      intro x hx
      rcases List.mem_append.mp hx with hx | hx
      · exact hq x hx
      · rw [List.mem_singleton] at hx
        subst hx
        cases hx : x with
        | none => rfl
        | some text =>
          exfalso
          rw [hx] at h3
          obtain ⟨t', a', b2, b3, b4, he⟩ := event_prints hve h3
          have htr' : t' = t ∧ PartOfFile file a' (segmentBytes b2 b3 b4) := by
            have := htr e (by simp)
            rw [he] at this
            exact this
          obtain ⟨bytes, pr, po, t1, -, hl, -, hsplit, -, htog, hseg⟩ :=
            C35_printed_file_is_consistent (pre ++ post) e (by rw [List.append_assoc]; exact hv) f f' outs text h1 h3
          rw [announced_transfer hsize (fun x hx => htr x (List.mem_append_left _ hx))] at hl
          obtain ⟨seg, ⟨bf, tt, c2, c3, c4, af, hpo, -, -⟩, -⟩ := hseg (5 * a) (by omega)
          have ha : 5 * a / 5 = a := by omega
          rw [ha] at hpo
          have hmem : RftEvent.segment tt a c2 c3 c4 ∈ po := by rw [hpo]; simp
          have hlast : e ∈ po := last_in_suffix hsplit (List.ne_nil_of_mem hmem)
          have ht1 : t1 = t := by
            have := htog e hlast
            rw [he] at this
            have this : t' = t1 := this
            omega
          rw [ht1] at htog
          rw [List.append_assoc] at hsplit
          rcases List.append_eq_append_iff.mp hsplit with ⟨c, hc1, hc2⟩ | ⟨c, hc1, hc2⟩
          · exact hnew _ (by rw [hc2]; exact List.mem_append_right _ hmem) (carries_segment _ _ _ _ _)
          · rw [hc1] at hstart
            rw [hc2] at htog hmem
            rcases List.mem_append.mp hmem with hm | hm
            · exact window_in_transfer hstart htog a _ hm (carries_segment _ _ _ _ _)
            · exact hnew _ hm (carries_segment _ _ _ _ _)

/-- **C77**, a whole file. A file has been announced on a pipe (with its size), and its transfer begins: the
toggle bit is not that of the latest segment before. When its last missing segment arrives, after all the
other segments in any order and possibly more than once, exactly the file is printed, in Base64. -/
theorem C77_transfer (file : List Byte) (t a : Nat) (b2 b3 b4 : Word) (pre post : List RftEvent)
    (hv : ∀ x ∈ pre ++ post ++ [.segment t a b2 b3 b4], ValidEvent x) (hneed : 5 * a < file.length)
    (hsize : announcedSize pre = file.length) (hstart : lastToggle pre ≠ some t)
    (htr : TransferOf file t (post ++ [.segment t a b2 b3 b4]))
    (hnew : ∀ e ∈ post, ¬ CarriesSegment a e)
    (hall : ∀ i, 5 * i < file.length → i = a ∨ ∃ e ∈ post, CarriesSegment i e) :
    ∃ f outs f' text, rftRun (pre ++ post) = some (f, outs) ∧
      f.event (.segment t a b2 b3 b4) = some (f', some text) ∧ b64Decode text = some file := by
  have htp : TransferOf file t post := fun x hx => htr x (List.mem_append_left _ hx)
  obtain ⟨f, outs, h1, hq⟩ := transfer_quiet file t a pre post
    (fun x hx => hv x (List.mem_append_left _ hx)) hneed hsize hstart htp hnew
  have hann := announced_transfer hsize htp
  have htog : SameToggle t post := by
    intro e he
    have := htp e he
    cases e with
    | segment => exact this.1
    | info => trivial
    | crc => trivial
  obtain ⟨f', text, h2⟩ := C35_complete_file_is_printed (pre ++ post) t a b2 b3 b4 hv f outs h1 pre post rfl hq
    htog (by omega) (by rw [hann]; exact hall)
  refine ⟨f, outs, f', text, h1, h2, ?_⟩
  obtain ⟨bytes, pr, po, t1, hdec, hl, -, hsplit, -, htog', hseg⟩ :=
    C35_printed_file_is_consistent (pre ++ post) _ hv f f' outs text h1 h2
  rw [hdec]
  congr 1
  have hlast : RftEvent.segment t a b2 b3 b4 ∈ po := by
    obtain ⟨seg, ⟨bf, tt, c2, c3, c4, af, hpo, -, -⟩, -⟩ := hseg 0 (by omega)
    exact last_in_suffix hsplit (by rw [hpo]; simp)
  have ht1 : t1 = t := by
    have : t = t1 := htog' _ hlast
    exact this.symm
  rw [ht1] at htog'
  have hin : ∀ tt i c2 c3 c4, RftEvent.segment tt i c2 c3 c4 ∈ po →
      RftEvent.segment tt i c2 c3 c4 ∈ post ++ [.segment t a b2 b3 b4] := by
    intro tt i c2 c3 c4 hm
    rw [List.append_assoc] at hsplit
    rcases List.append_eq_append_iff.mp hsplit with ⟨c, hc1, hc2⟩ | ⟨c, hc1, hc2⟩
    · rw [hc2]
      exact List.mem_append_right _ hm
    · rw [hc2] at hm htog'
      rw [hc1] at hstart
      rcases List.mem_append.mp hm with hm | hm
      · exact absurd (carries_segment _ _ _ _ _) (window_in_transfer hstart htog' i _ hm)
      · exact hm
  rw [hann] at hl
  apply List.ext_getElem?
  intro k
  by_cases hk : k < bytes.length
  · obtain ⟨seg, ⟨bf, tt, c2, c3, c4, af, hpo, -, hb⟩, hbk⟩ := hseg k hk
    have hm := htr _ (hin tt (k / 5) c2 c3 c4 (by rw [hpo]; simp))
    have hm : PartOfFile file (k / 5) (segmentBytes c2 c3 c4) := hm.2
    have := hm (k % 5) (by omega) (by omega)
    rw [hbk, hb, this]
    congr 1
    omega
  · rw [List.getElem?_eq_none (by omega), List.getElem?_eq_none (by omega)]

/-! ### Members printed -/

section members

variable {env : Env} (hk : env.tmc.KeysOk) {o : Options} {w : Nat} {p : Word} {gs : List Group}
  {st : Station} {ls : List (Option Line)}
  (h : Station.receive env (Station.withPI o w p) gs = some (st, ls)) {g : Group} {st' : Station} {j : J}
  (hu : st.updateAndPrint env g = some (st', some (.json j)))

include hk h hu in
theorem typeC_parts {ws : CWords} (hw : typeCPart (decodedGroups gs ls) g = [ws]) : ∃ b hd body,
    J.build (hd ++ body) .null = some j ∧ KeysIn commonMembers hd ∧
    Station.decodeC { st with lastGroupHadPi := b } g = some (st', body) := by
  obtain ⟨ht, hC, -⟩ := typeCPart_eq hw
  obtain ⟨-, hgood⟩ := receive_facts hk h
  obtain ⟨b, basics, body, hb, -, hd, -, hkb⟩ := printed_parts hk hgood ht hu
  refine ⟨b, _, body, hb, keys_append (header_keys env st g) (keys_mono hkb (by simp [commonMembers])), ?_⟩
  unfold Station.dispatch at hd
  dsimp only at hd
  rw [if_pos hC] at hd
  exact hd

theorem body_none {hd body : List JOp} {j : J} (hb : J.build (hd ++ body) .null = some j)
    (hkeys : KeysIn commonMembers hd) {k : String} {q : List String} (hn : k ∉ commonMembers)
    (hp : (body.all fun op => diverge (k :: q) op.path) = true) : j.at? (k :: q) = none := by
  rw [at_build_other (k :: q) (hd ++ body) .null j ?_ hb]
  · rfl
  · intro op hop
    rcases List.mem_append.mp hop with hx | hx
    · exact keysIn_away hkeys k q hn op hx
    · exact away_all hp op hx

include hk h hu in
theorem segment_body (pipe : Nat) (toggle : Bool) (address : Nat) (d0 d1 d2 d3 d4 : Byte) (hp : pipe < 16)
    (ha : address < 2 ^ 15)
    (hw : typeCPart (decodedGroups gs ls) g = [segmentWords pipe toggle address d0 d1 d2 d3 d4]) :
    ∃ hd body f outs f' out, J.build (hd ++ body) .null = some j ∧ KeysIn commonMembers hd ∧
      rftRun (eventsFor pipe (history typeCPart (decodedGroups gs ls))) = some (f, outs) ∧
      f.event (.segment toggle.toNat address (segmentWords pipe toggle address d0 d1 d2 d3 d4).2.1
        (bytePair d1 d2) (bytePair d3 d4)) = some (f', out) ∧
      body = ((channelApp (history typeCPart (decodedGroups gs ls)) pipe).map fun a =>
          JOp.set ["open_data_app", "app_name"] (.str (getAppNameString a.toNat))).toList ++
        [.set ["rft", "data", "pipe"] (.nat pipe), .set ["rft", "data", "toggle"] (.nat toggle.toNat),
         .set ["rft", "data", "byte_address"] (.nat (5 * address)),
         .set ["rft", "data", "segment_data"] (bytesAsArray [d0, d1, d2, d3, d4])] ++
        (out.map fun t => JOp.set ["rft", "data", "file_contents"] (.str t)).toList := by
  obtain ⟨b, hd, body, hb, hkeys, hdec⟩ := typeC_parts hk h hu hw
  obtain ⟨-, -, hall, h1, h2, h3, h4⟩ := typeCPart_eq hw
  obtain ⟨⟨outs0, hfiles⟩, hoda⟩ := C77_files_and_channels env hk o w p gs st ls h
  have n1 := segment_block1 toggle hp ha d0 d1 d2 d3 d4
  have n2 := segment_block2 pipe address toggle d0 d1 d2 d3 d4
  have hev := rftEvent_segment pipe toggle address d0 d1 d2 d3 d4 hp ha
    (b1 := (segmentWords pipe toggle address d0 d1 d2 d3 d4).1)
    (b2 := (segmentWords pipe toggle address d0 d1 d2 d3 d4).2.1) (b3 := bytePair d1 d2)
    (b4 := bytePair d3 d4) rfl
  have h3 : g.get .b3 = bytePair d1 d2 := h3
  have h4 : g.get .b4 = bytePair d3 d4 := h4
  generalize (segmentWords pipe toggle address d0 d1 d2 d3 d4).1 = b1 at *
  generalize (segmentWords pipe toggle address d0 d1 d2 d3 d4).2.1 = b2 at *
  obtain ⟨files, outs1, f, outs, f', out, hrun, r1, r2, r3⟩ :=
    C35_pipes_are_separate (history typeCPart (decodedGroups gs ls)) b1 b2 (bytePair d1 d2) (bytePair d3 d4)
      pipe _ hev
  rw [hfiles] at hrun
  simp only [Option.some.injEq, Prod.mk.injEq] at hrun
  refine ⟨hd, body, f, outs, f', out, hb, hkeys, r1, r2, ?_⟩
  rw [← hrun.1] at r3
  obtain ⟨⟨fs, out1⟩, r4, r5⟩ := Option.map_eq_some_iff.mp r3
  have r5 : out1 = out.map fun t => (pipe, t) := r5
  unfold Station.decodeC at hdec
  rw [hall] at hdec
  simp only [Bool.false_eq_true, if_false] at hdec
  obtain ⟨fr, hf, hdec⟩ := Option.bind_eq_some_iff.mp hdec
  rw [h1, h2, h3, h4] at hf
  have hf : decodeCRft st.rftFiles b1 b2 (bytePair d1 d2) (bytePair d3 d4) = some fr := hf
  rw [r4] at hf
  have hfr := Option.some.inj hf
  have := toggle.toNat_lt
  have := d0.isLt
  have e1 : getBits 2 b1 14 = 0 := by rw [getBits_eq_div, n1]; omega
  have e2 : getBits 6 b1 8 = 32 + pipe := by rw [getBits_eq_div, n1]; omega
  have e3 : getBits 1 b1 7 = toggle.toNat := by rw [getBits_eq_div, n1]; omega
  have e4 : getBits2 15 b1 b2 8 = address := by rw [getBits2_eq_div, n1, n2]; omega
  obtain ⟨p1, p2⟩ := pipe_of_fn (32 + pipe) (by omega)
  have p3 : (32 + pipe) % 16 = pipe := by omega
  rw [h1, h2, e1, e2, e3, e4, if_neg (by omega), if_pos ⟨rfl, p1.mpr (by omega)⟩, p2, p3] at hdec
  have hbody : body = _ := (congrArg Prod.snd (Option.some.inj hdec)).symm
  rw [hbody]
  have hsd : Station.segmentData g = bytesAsArray [d0, d1, d2, d3, d4] := by
    unfold Station.segmentData
    rw [h2, h3, h4, bytePair_hi, bytePair_lo, bytePair_hi, bytePair_lo, uint8_lo_of n2]
    rfl
  have hod : Station.odaForPipe { ({ st with lastGroupHadPi := b } : Station) with rftFiles := fr.1 } pipe =
      channelApp (history typeCPart (decodedGroups gs ls)) pipe := hoda pipe (by omega)
  have hmul : address * 5 = 5 * address := Nat.mul_comm _ _
  dsimp only at hod ⊢
  rw [hsd, hod, hmul, ← hfr]
  dsimp only
  rw [r5]
  cases out <;> rfl

include hk h hu in
/-- **C77**: data of a file. Printed are pipe, toggle bit, address in bytes, the five bytes, and the name of the
application assigned last to the channel of that number. -/
theorem C77_segment (pipe : Nat) (toggle : Bool) (address : Nat) (d0 d1 d2 d3 d4 : Byte) (hp : pipe < 16)
    (ha : address < 2 ^ 15)
    (hw : typeCPart (decodedGroups gs ls) g = [segmentWords pipe toggle address d0 d1 d2 d3 d4]) :
    j.at? ["rft", "data", "pipe"] = some (.nat pipe) ∧
    j.at? ["rft", "data", "toggle"] = some (.nat toggle.toNat) ∧
    j.at? ["rft", "data", "byte_address"] = some (.nat (5 * address)) ∧
    j.at? ["rft", "data", "segment_data"] = some (bytesAsArray [d0, d1, d2, d3, d4]) ∧
    j.at? ["open_data_app", "app_name"] =
      (channelApp (history typeCPart (decodedGroups gs ls)) pipe).map fun a => .str (getAppNameString a.toNat) := by
  obtain ⟨hd, body, f, outs, f', out, hb, hkeys, -, -, hbody⟩ :=
    segment_body hk h hu pipe toggle address d0 d1 d2 d3 d4 hp ha hw
  generalize channelApp (history typeCPart (decodedGroups gs ls)) pipe = ca at hbody ⊢
  cases out <;> cases ca
  · exact ⟨tmc_set hb [] _ hbody rfl, tmc_set hb [_] _ hbody rfl, tmc_set hb [_, _] _ hbody rfl,
      tmc_set hb [_, _, _] _ hbody rfl, body_none hb hkeys (by decide) (by rw [hbody]; rfl)⟩
  · exact ⟨tmc_set hb [_] _ hbody rfl, tmc_set hb [_, _] _ hbody rfl, tmc_set hb [_, _, _] _ hbody rfl,
      tmc_set hb [_, _, _, _] _ hbody rfl, tmc_set hb [] _ hbody rfl⟩
  · exact ⟨tmc_set hb [] _ hbody rfl, tmc_set hb [_] _ hbody rfl, tmc_set hb [_, _] _ hbody rfl,
      tmc_set hb [_, _, _] _ hbody rfl, body_none hb hkeys (by decide) (by rw [hbody]; rfl)⟩
  · exact ⟨tmc_set hb [_] _ hbody rfl, tmc_set hb [_, _] _ hbody rfl, tmc_set hb [_, _, _] _ hbody rfl,
      tmc_set hb [_, _, _, _] _ hbody rfl, tmc_set hb [] _ hbody rfl⟩

theorem file_member {hd body : List JOp} {j : J} {a : Option Word} {x1 x2 x3 x4 : J} {out : Option Str}
    (hb : J.build (hd ++ body) .null = some j) (hkeys : KeysIn commonMembers hd)
    (hbody : body = (a.map fun a =>
          JOp.set ["open_data_app", "app_name"] (.str (getAppNameString a.toNat))).toList ++
        [.set ["rft", "data", "pipe"] x1, .set ["rft", "data", "toggle"] x2,
         .set ["rft", "data", "byte_address"] x3, .set ["rft", "data", "segment_data"] x4] ++
        (out.map fun t => JOp.set ["rft", "data", "file_contents"] (.str t)).toList) :
    j.at? ["rft", "data", "file_contents"] = out.map .str := by
  cases out with
  | none =>
    refine body_none hb hkeys (by decide) ?_
    rw [hbody]
    cases a <;> rfl
  | some t =>
    cases a with
    | none => exact tmc_set hb [_, _, _, _] [] hbody rfl
    | some a => exact tmc_set hb [_, _, _, _, _] [] hbody rfl

include hk h hu in
/-- **C77**, soundness of the printed file. If a segment prints file contents, they decode (as Base64) to as many
bytes as announced last on that pipe, and every byte comes from the latest segment for its address among the
segments received on that pipe with the same toggle bit. -/
theorem C77_file_sound (pipe : Nat) (toggle : Bool) (address : Nat) (d0 d1 d2 d3 d4 : Byte) (hp : pipe < 16)
    (ha : address < 2 ^ 15)
    (hw : typeCPart (decodedGroups gs ls) g = [segmentWords pipe toggle address d0 d1 d2 d3 d4])
    (v : J) (hv : j.at? ["rft", "data", "file_contents"] = some v) :
    ∃ text bytes pre post, v = .str text ∧ b64Decode text = some bytes ∧
      bytes.length = announcedSize (eventsFor pipe (history typeCPart (decodedGroups gs ls))) ∧
      0 < bytes.length ∧
      eventsFor pipe (history typeCPart (decodedGroups gs ls) ++
        [segmentWords pipe toggle address d0 d1 d2 d3 d4]) = pre ++ post ∧
      SameToggle toggle.toNat post ∧
      ∀ k, k < bytes.length → ∃ seg, LatestSegment post (k / 5) seg ∧ bytes[k]? = seg[k % 5]? := by
  obtain ⟨hd, body, f, outs, f', out, hb, hkeys, hrun, hev, hbody⟩ :=
    segment_body hk h hu pipe toggle address d0 d1 d2 d3 d4 hp ha hw
  rw [file_member hb hkeys hbody] at hv
  obtain ⟨text, rfl, rfl⟩ := Option.map_eq_some_iff.mp hv
  have he := rftEvent_segment pipe toggle address d0 d1 d2 d3 d4 hp ha
    (b1 := (segmentWords pipe toggle address d0 d1 d2 d3 d4).1)
    (b2 := (segmentWords pipe toggle address d0 d1 d2 d3 d4).2.1)
    (b3 := (segmentWords pipe toggle address d0 d1 d2 d3 d4).2.2.1)
    (b4 := (segmentWords pipe toggle address d0 d1 d2 d3 d4).2.2.2) rfl
  have hevs : eventsFor pipe (history typeCPart (decodedGroups gs ls) ++
        [segmentWords pipe toggle address d0 d1 d2 d3 d4]) =
      eventsFor pipe (history typeCPart (decodedGroups gs ls)) ++
        [.segment toggle.toNat address (segmentWords pipe toggle address d0 d1 d2 d3 d4).2.1
          (bytePair d1 d2) (bytePair d3 d4)] := by
    unfold eventsFor
    rw [List.filterMap_append]
    congr 1
    rw [List.filterMap_cons, he]
    simp only [if_pos, List.filterMap_nil]
    rfl
  have hval := eventsFor_valid pipe (history typeCPart (decodedGroups gs ls) ++
        [segmentWords pipe toggle address d0 d1 d2 d3 d4])
  rw [hevs] at hval ⊢
  obtain ⟨bytes, pre, post, t, g1, g2, g3, g4, -, g5, g6⟩ :=
    C35_printed_file_is_consistent _ _ hval f f' outs text hrun hev
  refine ⟨text, bytes, pre, post, rfl, g1, g2, g3, g4, ?_, g6⟩
  have hne : post ≠ [] := by
    obtain ⟨seg, ⟨bf, tt, c2, c3, c4, af, hpo, -, -⟩, -⟩ := g6 0 g3
    rw [hpo]
    simp
  have : toggle.toNat = t := g5 _ (last_in_suffix g4 hne)
  rw [this]
  exact g5

include hk h hu in
/-- **C77**, a whole file at the station. When the last missing segment of a file arrives (see `C77_transfer`), the
line printed contains the file. -/
theorem C77_file_received (file : List Byte) (pipe : Nat) (toggle : Bool) (address : Nat)
    (d0 d1 d2 d3 d4 : Byte) (hp : pipe < 16) (ha : address < 2 ^ 15)
    (hw : typeCPart (decodedGroups gs ls) g = [segmentWords pipe toggle address d0 d1 d2 d3 d4])
    (pre post : List RftEvent)
    (hevs : eventsFor pipe (history typeCPart (decodedGroups gs ls)) = pre ++ post)
    (hneed : 5 * address < file.length) (hsize : announcedSize pre = file.length)
    (hstart : lastToggle pre ≠ some toggle.toNat) (htr : TransferOf file toggle.toNat post)
    (hlast : PartOfFile file address [d0, d1, d2, d3, d4])
    (hnew : ∀ e ∈ post, ¬ CarriesSegment address e)
    (hall : ∀ i, 5 * i < file.length → i = address ∨ ∃ e ∈ post, CarriesSegment i e) :
    ∃ text, j.at? ["rft", "data", "file_contents"] = some (.str text) ∧ b64Decode text = some file := by
  obtain ⟨hd, body, f, outs, f', out, hb, hkeys, hrun, hev, hbody⟩ :=
    segment_body hk h hu pipe toggle address d0 d1 d2 d3 d4 hp ha hw
  have hbytes : segmentBytes (segmentWords pipe toggle address d0 d1 d2 d3 d4).2.1 (bytePair d1 d2)
      (bytePair d3 d4) = [d0, d1, d2, d3, d4] := by
    unfold segmentBytes
    rw [← getUint8_lo, ← getUint8_hi, ← getUint8_lo, ← getUint8_hi, ← getUint8_lo, bytePair_hi, bytePair_lo,
      bytePair_hi, bytePair_lo, uint8_lo_of (segment_block2 pipe address toggle d0 d1 d2 d3 d4)]
  have hval := eventsFor_valid pipe (history typeCPart (decodedGroups gs ls))
  rw [hevs] at hval hrun
  obtain ⟨f1, outs1, f2, text, k1, k2, k3⟩ := C77_transfer file toggle.toNat address
    (segmentWords pipe toggle address d0 d1 d2 d3 d4).2.1 (bytePair d1 d2) (bytePair d3 d4) pre post
    (by
      intro x hx
      rcases List.mem_append.mp hx with hx | hx
      · exact hval x hx
      · rw [List.mem_singleton] at hx
        rw [hx]
        exact ha) hneed hsize hstart
    (by
      intro x hx
      rcases List.mem_append.mp hx with hx | hx
      · exact htr x hx
      · rw [List.mem_singleton] at hx
        rw [hx]
        exact ⟨rfl, by rw [hbytes]; exact hlast⟩) hnew hall
  rw [hrun] at k1
  simp only [Option.some.injEq, Prod.mk.injEq] at k1
  rw [← k1.1, hev] at k2
  simp only [Option.some.injEq, Prod.mk.injEq] at k2
  refine ⟨text, ?_, k3⟩
  rw [file_member hb hkeys hbody, k2.2]
  rfl

include hk h hu in
/-- **C77**: data for the application on a channel. -/
theorem C77_channel_data (channel : Nat) (hc : channel < 64) (d0 d1 d2 d3 d4 d5 d6 : Byte)
    (hw : typeCPart (decodedGroups gs ls) g = [channelDataWords channel d0 d1 d2 d3 d4 d5 d6]) :
    j.at? ["open_data_app", "channel"] = some (.nat channel) ∧
    j.at? ["open_data_app", "app_data"] = some (bytesAsArray [d0, d1, d2, d3, d4, d5, d6]) ∧
    j.at? ["rft"] = none := by
  obtain ⟨b, hd, body, hb, hkeys, hdec⟩ := typeC_parts hk h hu hw
  obtain ⟨-, -, hall, h1, h2, h3, h4⟩ := typeCPart_eq hw
  have n1 := channelData_block1 hc d0 d1 d2 d3 d4 d5 d6
  generalize (channelDataWords channel d0 d1 d2 d3 d4 d5 d6).1 = b1 at *
  have h2 : g.get .b2 = bytePair d1 d2 := h2
  have h3 : g.get .b3 = bytePair d3 d4 := h3
  have h4 : g.get .b4 = bytePair d5 d6 := h4
  unfold Station.decodeC at hdec
  rw [hall] at hdec
  simp only [Bool.false_eq_true, if_false] at hdec
  obtain ⟨fr, -, hdec⟩ := Option.bind_eq_some_iff.mp hdec
  have := d0.isLt
  have e1 : getBits 2 b1 14 = 1 := by rw [getBits_eq_div, n1]; omega
  have e2 : getBits 6 b1 8 = channel := by rw [getBits_eq_div, n1]; omega
  have n1' : b1.toNat = 2 ^ 8 * (2 ^ 6 + channel) + d0.toNat := by rw [n1]; omega
  rw [h1, h2, h3, h4, e1, e2, if_neg (by omega), if_neg (by omega), if_pos rfl, uint8_lo_of n1', bytePair_hi,
    bytePair_lo, bytePair_hi, bytePair_lo, bytePair_hi, bytePair_lo] at hdec
  have hbody := (congrArg Prod.snd (Option.some.inj hdec)).symm
  dsimp only at hbody
  exact ⟨tmc_set hb [] _ hbody rfl, tmc_set hb [_] _ hbody rfl,
    body_none hb hkeys (by decide) (by rw [hbody]; rfl)⟩

include hk h hu in
theorem assignment_body (channel : Nat) (hc : channel < 64) (app b3 b4 : Word)
    (hw : typeCPart (decodedGroups gs ls) g = [assignmentWords channel app b3 b4]) :
    ∃ hd body, J.build (hd ++ body) .null = some j ∧ KeysIn commonMembers hd ∧
      g.get .b3 = b3 ∧ g.get .b4 = b4 ∧
      body = [.set ["open_data_app", "channel"] (.nat channel), .set ["open_data_app", "oda_aid"] (.nat app.toNat),
           .set ["open_data_app", "app_name"] (.str (getAppNameString app.toNat))] ++
          (if channel < 16 then Station.rftInfoOps g
           else [.set ["open_data_app", "app_data"]
             (bytesAsArray [getUint8 b3 8, getUint8 b3 0, getUint8 b4 8, getUint8 b4 0])]) := by
  obtain ⟨b, hd, body, hb, hkeys, hdec⟩ := typeC_parts hk h hu hw
  obtain ⟨-, -, hall, h1, h2, h3, h4⟩ := typeCPart_eq hw
  refine ⟨hd, body, hb, hkeys, h3, h4, ?_⟩
  obtain ⟨e1, e2, e3, e4⟩ := assignment_fields hc (assignment_block1 hc app b3 b4)
  generalize (assignmentWords channel app b3 b4).1 = b1 at *
  have h2 : g.get .b2 = app := h2
  have h3 : g.get .b3 = b3 := h3
  have h4 : g.get .b4 = b4 := h4
  unfold Station.decodeC at hdec
  rw [hall] at hdec
  simp only [Bool.false_eq_true, if_false] at hdec
  obtain ⟨fr, -, hdec⟩ := Option.bind_eq_some_iff.mp hdec
  rw [h1, h2, h3, h4, e1, e2, e3, e4, if_neg (by omega), if_neg (by omega), if_neg (by omega),
    if_pos ⟨rfl, rfl⟩, if_pos rfl] at hdec
  exact (congrArg Prod.snd (Option.some.inj hdec)).symm

theorem rftInfo_paths (g : Group) :
    ((Station.rftInfoOps g).all fun op => diverge ["open_data_app", "channel"] op.path) = true ∧
    ((Station.rftInfoOps g).all fun op => diverge ["open_data_app", "oda_aid"] op.path) = true ∧
    ((Station.rftInfoOps g).all fun op => diverge ["open_data_app", "app_name"] op.path) = true := by
  unfold Station.rftInfoOps
  dsimp only
  refine ⟨?_, ?_, ?_⟩
  all_goals
    split
    · rfl
    split
    · split
      · rfl
      split
      · rfl
      · rfl
    split
    · rfl
    · rfl

include hk h hu in
/-- **C77**: assignment of an application to a channel: channel, application code and name. -/
theorem C77_assignment (channel : Nat) (hc : channel < 64) (app b3 b4 : Word)
    (hw : typeCPart (decodedGroups gs ls) g = [assignmentWords channel app b3 b4]) :
    j.at? ["open_data_app", "channel"] = some (.nat channel) ∧
    j.at? ["open_data_app", "oda_aid"] = some (.nat app.toNat) ∧
    j.at? ["open_data_app", "app_name"] = some (.str (getAppNameString app.toNat)) := by
  obtain ⟨hd, body, hb, hkeys, -, -, hbody⟩ := assignment_body hk h hu channel hc app b3 b4 hw
  obtain ⟨p1, p2, p3⟩ := rftInfo_paths g
  by_cases hch : channel < 16
  · rw [if_pos hch] at hbody
    exact ⟨tmc_set hb [] (_ :: _ :: Station.rftInfoOps g) hbody (by simp only [List.all_cons, p1]; rfl),
      tmc_set hb [_] (_ :: Station.rftInfoOps g) hbody (by simp only [List.all_cons, p2]; rfl),
      tmc_set hb [_, _] (Station.rftInfoOps g) hbody p3⟩
  · rw [if_neg hch] at hbody
    exact ⟨tmc_set hb [] _ hbody rfl, tmc_set hb [_] _ hbody rfl, tmc_set hb [_, _] _ hbody rfl⟩

include hk h hu in
/-- **C77**: the application data in the assignment of a channel that is not a pipe for files. -/
theorem C77_assignment_data (channel : Nat) (hc : channel < 64) (hch : 16 ≤ channel) (app : Word)
    (d0 d1 d2 d3 : Byte)
    (hw : typeCPart (decodedGroups gs ls) g = [assignmentWords channel app (bytePair d0 d1) (bytePair d2 d3)]) :
    j.at? ["open_data_app", "app_data"] = some (bytesAsArray [d0, d1, d2, d3]) ∧ j.at? ["rft"] = none := by
  obtain ⟨hd, body, hb, hkeys, -, -, hbody⟩ := assignment_body hk h hu channel hc app _ _ hw
  rw [if_neg (by omega), bytePair_hi, bytePair_lo, bytePair_hi, bytePair_lo] at hbody
  exact ⟨tmc_set hb [_, _, _] _ hbody rfl, body_none hb hkeys (by decide) (by rw [hbody]; rfl)⟩

include hk h hu in
/-- **C77**: information on a file. -/
theorem C77_file_info (pipe : Nat) (hp : pipe < 16) (app : Word) (crc : Bool) (version id size : Nat)
    (hv : version < 8) (hi : id < 64) (hs : size < 2 ^ 18)
    (hw : typeCPart (decodedGroups gs ls) g = [fileInfoWords pipe app crc version id size]) :
    j.at? ["rft", "file_info", "version"] = some (.nat version) ∧
    j.at? ["rft", "file_info", "id"] = some (.nat id) ∧
    j.at? ["rft", "file_info", "size"] = some (.nat size) ∧
    j.at? ["rft", "file_info", "has_crc"] = some (.bool crc) ∧
    j.at? ["rft", "crc_info"] = none ∧ j.at? ["rft", "data"] = none := by
  obtain ⟨hd, body, hb, hkeys, h3, h4, hbody⟩ := assignment_body hk h hu pipe (by omega) app _ _ hw
  obtain ⟨f1, f2, f3, f4, f5⟩ := info_fields crc hv hi hs h3 h4
  rw [if_pos hp] at hbody
  unfold Station.rftInfoOps at hbody
  dsimp only at hbody
  rw [f1, f2, f3, f4, f5, if_pos rfl] at hbody
  exact ⟨tmc_set hb [_, _, _] _ hbody rfl, tmc_set hb [_, _, _, _] _ hbody rfl,
    tmc_set hb [_, _, _, _, _] _ hbody rfl, tmc_set hb [_, _, _, _, _, _] _ hbody rfl,
    body_none hb hkeys (by decide) (by rw [hbody]; rfl), body_none hb hkeys (by decide) (by rw [hbody]; rfl)⟩

include hk h hu in
/-- **C77**: the checksum of a whole file. -/
theorem C77_file_crc (pipe : Nat) (hp : pipe < 16) (app : Word) (chunk : Nat) (crc : Word)
    (hc : chunk < 512) (hw : typeCPart (decodedGroups gs ls) g = [fileCrcWords pipe app 0 chunk crc]) :
    j.at? ["rft", "crc_info", "file_crc16"] = some (.nat crc.toNat) ∧
    j.at? ["rft", "crc_info", "chunk_crc16"] = none := by
  obtain ⟨hd, body, hb, hkeys, h3, h4, hbody⟩ := assignment_body hk h hu pipe (by omega) app _ _ hw
  obtain ⟨f1, f2, f3⟩ := crc_fields (by omega : 0 < 8) hc h3
  rw [if_pos hp] at hbody
  unfold Station.rftInfoOps at hbody
  dsimp only at hbody
  rw [f1, f2, f3, h4, if_neg (by decide), if_pos rfl, if_pos rfl] at hbody
  exact ⟨tmc_set hb [_, _, _] _ hbody rfl, body_none hb hkeys (by decide) (by rw [hbody]; rfl)⟩

include hk h hu in
/-- **C77**: the checksum of a chunk of a file (mode 6 is not defined). -/
theorem C77_chunk_crc (pipe : Nat) (hp : pipe < 16) (app : Word) (mode chunk : Nat) (crc : Word)
    (hm : mode < 8) (h0 : mode ≠ 0) (h6 : mode ≠ 6) (hc : chunk < 512)
    (hw : typeCPart (decodedGroups gs ls) g = [fileCrcWords pipe app mode chunk crc]) :
    j.at? ["rft", "crc_info", "chunk_crc16"] = some (.nat crc.toNat) ∧
    j.at? ["rft", "crc_info", "chunk_address"] = some (.nat chunk) ∧
    j.at? ["rft", "crc_info", "crc_mode"] = some (.nat mode) ∧
    j.at? ["rft", "crc_info", "file_crc16"] = none := by
  obtain ⟨hd, body, hb, hkeys, h3, h4, hbody⟩ := assignment_body hk h hu pipe (by omega) app _ _ hw
  obtain ⟨f1, f2, f3⟩ := crc_fields hm hc h3
  rw [if_pos hp] at hbody
  unfold Station.rftInfoOps at hbody
  dsimp only at hbody
  rw [f1, f2, f3, h4, if_neg (by decide), if_pos rfl, if_neg h0, if_pos h6] at hbody
  exact ⟨tmc_set hb [_, _, _] _ hbody rfl, tmc_set hb [_, _, _, _] _ hbody rfl,
    tmc_set hb [_, _, _, _, _] _ hbody rfl, body_none hb hkeys (by decide) (by rw [hbody]; rfl)⟩

include hk h hu in
/-- **C77**: other variants of the assignment of a pipe: 28 bits of data in hexadecimal, for variants 2 to 7 data
about the file, for variants 8 to 15 other data. -/
theorem C77_variant_data (pipe : Nat) (hp : pipe < 16) (app : Word) (variant data : Nat)
    (hv : variant < 16) (h2 : 2 ≤ variant) (hd : data < 2 ^ 28)
    (hw : typeCPart (decodedGroups gs ls) g = [variantWords pipe app variant data]) :
    j.at? ["open_data_app", if variant < 8 then "file_oda_data" else "non_file_oda_data"] =
      some (.str (hexPadded 7 data)) ∧
    j.at? ["open_data_app", if variant < 8 then "non_file_oda_data" else "file_oda_data"] = none ∧
    j.at? ["rft"] = none := by
  obtain ⟨hd', body, hb, hkeys, h3, h4, hbody⟩ := assignment_body hk h hu pipe (by omega) app _ _ hw
  obtain ⟨f1, f2⟩ := variant_fields hv hd h3 h4
  rw [if_pos hp] at hbody
  unfold Station.rftInfoOps at hbody
  dsimp only at hbody
  rw [f1, f2, if_neg (by omega), if_neg (by omega)] at hbody
  by_cases h8 : variant < 8
  · rw [if_neg (by omega)] at hbody
    rw [if_pos h8, if_pos h8]
    exact ⟨tmc_set hb [_, _, _] _ hbody rfl, body_none hb hkeys (by decide) (by rw [hbody]; rfl),
      body_none hb hkeys (by decide) (by rw [hbody]; rfl)⟩
  · rw [if_pos (by omega)] at hbody
    rw [if_neg h8, if_neg h8]
    exact ⟨tmc_set hb [_, _, _] _ hbody rfl, body_none hb hkeys (by decide) (by rw [hbody]; rfl),
      body_none hb hkeys (by decide) (by rw [hbody]; rfl)⟩

end members

/-! ### Examples -/

/-- A type C group on stream 1, as received. -/
def demoC (w : CWords) : Group :=
  { demoGroup w.1 w.2.1 w.2.2.1 w.2.2.2 with type := ⟨0, .C⟩, hasType := true, dataStream := 1 }

example : typeCPart [] (demoC (channelDataWords 33 1 2 3 4 5 6 7)) = [channelDataWords 33 1 2 3 4 5 6 7] := by
  decide +kernel

/-- Application FF7F (station logo) on channel 5, announcing a file of 7 bytes; its second segment; another group;
its first segment. -/
def demoFile : List Group := [demoC (fileInfoWords 5 0xFF7F true 3 42 7),
  demoC (segmentWords 5 true 1 0x46 0x47 0 0 0), demoGroup 0x6204 0x0408 0xE0CD 0x2020]

def demoLast : CWords := segmentWords 5 true 0 0x41 0x42 0x43 0x44 0x45

example : demoMember [] (demoC (fileInfoWords 5 0xFF7F true 3 42 7)) ["rft", "file_info", "id"] =
      some (ascii "42") ∧
    demoMember [] (demoC (fileInfoWords 5 0xFF7F true 3 42 7)) ["open_data_app", "channel"] =
      some (ascii "5") ∧
    demoMember [] (demoC (fileCrcWords 5 0xFF7F 2 300 0xABCD)) ["rft", "crc_info", "chunk_address"] =
      some (ascii "300") ∧
    demoMember [] (demoC (fileCrcWords 5 0xFF7F 0 0 0xABCD)) ["rft", "crc_info", "file_crc16"] =
      some (ascii "43981") ∧
    demoMember [] (demoC (variantWords 5 0xFF7F 9 0xABCDE)) ["open_data_app", "non_file_oda_data"] =
      some (ascii "00ABCDE") ∧
    demoMember [] (demoC (channelDataWords 33 1 2 3 4 5 6 7)) ["open_data_app", "channel"] =
      some (ascii "33") := by decide +kernel

/-- The hypotheses of `C77_file_received` for that file. -/
example : typeCPart demoFile (demoC demoLast) = [demoLast] ∧
    eventsFor 5 (history typeCPart demoFile) = [.info 7 true] ++ [.segment 1 1 0x0146 0x4700 0] ∧
    announcedSize [.info 7 true] = (ascii "ABCDEFG").length ∧ lastToggle [.info 7 true] ≠ some 1 ∧
    channelApp (history typeCPart demoFile) 5 = some 0xFF7F := by decide +kernel

example : TransferOf (ascii "ABCDEFG") 1 [.segment 1 1 0x0146 0x4700 0] ∧
    PartOfFile (ascii "ABCDEFG") 0 [0x41, 0x42, 0x43, 0x44, 0x45] := by
  have hl : (ascii "ABCDEFG").length = 7 := by decide
  constructor
  · intro e he
    rw [List.mem_singleton] at he
    subst he
    refine ⟨rfl, ?_⟩
    intro i h5 hi
    rw [hl] at hi
    have : i = 0 ∨ i = 1 := by omega
    rcases this with rfl | rfl <;> decide
  · intro i h5 hi
    have : i = 0 ∨ i = 1 ∨ i = 2 ∨ i = 3 ∨ i = 4 := by omega
    rcases this with rfl | rfl | rfl | rfl | rfl <;> decide

example : demoMember demoFile (demoC demoLast) ["rft", "data", "file_contents"] =
      some (asBase64 (ascii "ABCDEFG")) ∧
    demoMember demoFile (demoC demoLast) ["rft", "data", "byte_address"] = some (ascii "0") ∧
    demoMember demoFile (demoC demoLast) ["open_data_app", "app_name"] =
      some (getAppNameString 0xFF7F) ∧
    demoMember (demoFile.take 1) (demoC demoLast) ["rft", "data", "file_contents"] = none := by decide +kernel

end Redsea
