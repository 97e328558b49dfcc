import Verif.Spec.Rft
import Verif.Lemmas.ListAux
import Verif.Lemmas.RadioText

namespace Redsea

open Spec

/-- The file of a pipe after a history of events, and what each event printed. -/
def rftRun (evs : List RftEvent) : Option (RFTFile × List (Option Str)) :=
  evs.foldl (fun s e => s.bind fun (f, outs) => (f.event e).map fun (f, o) => (f, outs ++ [o]))
    (some ({}, []))

theorem rftRun_snoc (evs : List RftEvent) (e : RftEvent) :
    rftRun (evs ++ [e]) = (rftRun evs).bind fun (f, outs) =>
      (f.event e).map fun (f, o) => (f, outs ++ [o]) := by simp [rftRun]

/-- Buffer sizes and bounds. -/
structure RftWF (f : RFTFile) : Prop where
  sizes : f.data.size = f.received.size
  alloc : f.received.size = 0 ∨ f.received.size = kMaxNumSegments
  bound : f.expectedSize ≤ 163840
  notPrinted : f.isPrinted = false
  inb : ∀ a, f.received.get a = true → a < f.received.size

theorem LatestSegment.mono {evs : List RftEvent} {a : Nat} {bytes : List Byte}
    (h : LatestSegment evs a bytes) (e : RftEvent) (he : ¬ CarriesSegment a e) :
    LatestSegment (evs ++ [e]) a bytes := by
  obtain ⟨before, t, b2, b3, b4, after, h1, h2, h3⟩ := h
  refine ⟨before, t, b2, b3, b4, after ++ [e], by simp [h1], ?_, h3⟩
  intro x hx
  rw [List.mem_append, List.mem_singleton] at hx
  rcases hx with hx | rfl
  · exact h2 x hx
  · exact he

theorem LatestSegment.last (evs : List RftEvent) (t a : Nat) (b2 b3 b4 : Word) :
    LatestSegment (evs ++ [.segment t a b2 b3 b4]) a (segmentBytes b2 b3 b4) :=
  ⟨evs, t, b2, b3, b4, [], rfl, by simp, rfl⟩

/-- Window of events the buffers stand for. -/
structure RftWindow (evs : List RftEvent) (outs : List (Option Str)) (f : RFTFile)
    (pre post : List RftEvent) : Prop where
  split : evs = pre ++ post
  quiet : ∀ o ∈ outs.drop pre.length, o = none
  toggle : SameToggle f.prevToggle post
  data : ∀ a, f.received.get a = true → LatestSegment post a (f.data.get a).bytes

structure RftInv (evs : List RftEvent) (outs : List (Option Str)) (f : RFTFile) : Prop where
  wf : RftWF f
  len : outs.length = evs.length
  size : f.expectedSize = announcedSize evs
  window : ∃ pre post, RftWindow evs outs f pre post
  /-- every segment of a window is noted as received -/
  noted : ∀ pre post t a, evs = pre ++ post → (∀ o ∈ outs.drop pre.length, o = none) →
    SameToggle t post → (∃ e ∈ post, CarriesSegment a e) →
    f.prevToggle = t ∧ (a < kMaxNumSegments → f.received.get a = true)

theorem rftSegment_bytes (b2 b3 b4 : Word) :
    (RFTFile.rftSegment b2 b3 b4).bytes = segmentBytes b2 b3 b4 := by
  simp only [RFTFile.rftSegment, RFTSegment.bytes, segmentBytes, getUint8_hi, getUint8_lo]

/-- A segment is stored; nothing is said about the address being valid. -/
theorem receive_eq {f : RFTFile} (wf : RftWF f) (toggle address : Nat) (b2 b3 b4 : Word)
    (ha : address < kMaxNumSegments) :
    ∃ f', f.receive toggle address b2 b3 b4 = some f' ∧ RftWF f' ∧ f'.prevToggle = toggle ∧
      f'.received.size = kMaxNumSegments ∧ f'.expectedSize = f.expectedSize ∧
      (∀ a, f'.received.get a = true ↔ a = address ∨ (toggle = f.prevToggle ∧ a < f.received.size ∧
        f.received.get a = true)) ∧
      (∀ a, (f'.data.get a) = if a = address then RFTFile.rftSegment b2 b3 b4
        else if a < f.data.size then f.data.get a else {}) := by
  obtain ⟨sizes, alloc, bound, np, inb⟩ := wf
  have hp : (f.prepare toggle).data.size = kMaxNumSegments ∧
      (f.prepare toggle).received.size = kMaxNumSegments ∧ (f.prepare toggle).prevToggle = toggle ∧
      (f.prepare toggle).expectedSize = f.expectedSize ∧ (f.prepare toggle).isPrinted = false ∧
      (∀ a, (f.prepare toggle).received.get a = true ↔ toggle = f.prevToggle ∧ a < f.received.size ∧
        f.received.get a = true) ∧
      (∀ a, (f.prepare toggle).data.get a = if a < f.data.size then f.data.get a else {}) := by
    by_cases ht : toggle = f.prevToggle
    · simp only [RFTFile.prepare, Buf.resize, ne_eq, ht, not_true_eq_false, if_false, np, true_and,
        implies_true, and_true]
      intro a
      by_cases h : a < f.received.size <;> simp [h]
    · simp only [RFTFile.prepare, RFTFile.clear, Buf.resize, ne_eq, ht, not_false_eq_true, if_true,
        true_and, false_and, implies_true, and_true]
      simp
  generalize hpe : f.prepare toggle = p at hp
  obtain ⟨p1, p2, p3, p4, p5, p6, p7⟩ := hp
  have hr : f.receive toggle address b2 b3 b4 = some { p with
      data := ⟨p.data.size, fun j => if j = address then RFTFile.rftSegment b2 b3 b4 else p.data.get j⟩
      received := ⟨p.received.size, fun j => if j = address then true else p.received.get j⟩ } := by
    simp only [RFTFile.receive, hpe, ha, if_true, Buf.write, p1, p2, Option.bind_eq_bind,
      Option.bind_some]
    rfl
  refine ⟨_, hr, ⟨?_, ?_, ?_, ?_, ?_⟩, p3, p2, p4, ?_, ?_⟩
  · exact p1.trans p2.symm
  · exact .inr p2
  · rw [p4]; exact bound
  · exact p5
  · intro a h
    dsimp only at h ⊢
    rw [p2]
    by_cases haa : a = address
    · rw [haa]; exact ha
    · rw [if_neg haa] at h
      have := (p6 a).1 h
      rcases alloc with h0 | h0 <;> rw [h0] at this <;> omega
  · intro a
    dsimp only
    by_cases haa : a = address
    · simp [haa]
    · rw [if_neg haa, p6]; simp [haa]
  · intro a
    dsimp only
    rw [p7]

theorem allReceived_spec (f : RFTFile) (n : Nat) (hn : n ≤ f.received.size) (k : Nat) (hk : k ≤ n) :
    ∃ r, f.allReceived n k = some r ∧ (r = true ↔ ∀ i, n - k ≤ i → i < n → f.received.get i = true) := by
  induction k with
  | zero => exact ⟨true, rfl, by simp; intro i h1 h2; omega⟩
  | succ k ih =>
    obtain ⟨r, h1, h2⟩ := ih (by omega)
    rw [RFTFile.allReceived, Buf.read, if_pos (by omega)]
    cases hg : f.received.get (n - (k + 1)) with
    | false =>
      refine ⟨false, rfl, ?_⟩
      simp only [Bool.false_eq_true, false_iff]
      intro hall
      rw [hall (n - (k + 1)) (Nat.le_refl _) (by omega)] at hg
      cases hg
    | true =>
      refine ⟨r, h1, h2.trans ⟨fun h i hi1 hi2 => ?_, fun h i hi1 hi2 => h i (by omega) hi2⟩⟩
      by_cases he : i = n - (k + 1)
      · rw [he]; exact hg
      · exact h i (by omega) hi2

theorem hasNewCompleteFile_spec {f : RFTFile} (wf : RftWF f) (hs : f.received.size = kMaxNumSegments) :
    ∃ r, f.hasNewCompleteFile = some r ∧ (r = true ↔ 0 < f.expectedSize ∧
      ∀ i, i < (f.expectedSize + 4) / 5 → f.received.get i = true) := by
  have hb := wf.bound
  have hk : kMaxNumSegments = 32768 := rfl
  by_cases h0 : f.expectedSize = 0
  · exact ⟨false, by simp [RFTFile.hasNewCompleteFile, h0], by simp [h0]⟩
  · obtain ⟨r, h1, h2⟩ := allReceived_spec f ((f.expectedSize + 4) / 5) (by omega) _ (Nat.le_refl _)
    refine ⟨r, ?_, ?_⟩
    · have h0' : (f.expectedSize == 0) = false := by simpa using h0
      simp only [RFTFile.hasNewCompleteFile, wf.notPrinted, h0', hs, hk, divideRoundingUp]
      exact h1
    · rw [h2]
      constructor
      · intro h; exact ⟨by omega, fun i hi => h i (by omega) hi⟩
      · intro h i _ hi; exact h.2 i hi

theorem dataBytes_eq {f : RFTFile} (h : f.expectedSize ≤ 5 * f.data.size) :
    f.dataBytes f.expectedSize = some ((List.range f.expectedSize).map fun k =>
      ((f.data.get (k / 5)).bytes).getD (k % 5) 0) := by rw [RFTFile.dataBytes, if_pos h]

/-- A segment event. -/
theorem segment_event {f : RFTFile} (wf : RftWF f) (toggle address : Nat) (b2 b3 b4 : Word)
    (ha : address < kMaxNumSegments) :
    ∃ f1 f' out, f.receive toggle address b2 b3 b4 = some f1 ∧
      f.event (.segment toggle address b2 b3 b4) = some (f', out) ∧ RftWF f' ∧
      f'.prevToggle = toggle ∧ f'.expectedSize = f.expectedSize ∧
      ((out = none ∧ f' = f1 ∧ ¬ (0 < f.expectedSize ∧
          ∀ i, i < (f.expectedSize + 4) / 5 → f1.received.get i = true)) ∨
       (∃ bytes, out = some (asBase64 bytes) ∧ bytes.length = f.expectedSize ∧ 0 < f.expectedSize ∧
        (∀ a, f'.received.get a = false) ∧
        ∀ k, k < f.expectedSize → f1.received.get (k / 5) = true ∧
          bytes[k]? = (f1.data.get (k / 5)).bytes[k % 5]?)) := by
  obtain ⟨f1, h1, wf1, htog, hsz, hes, hrec, hdata⟩ := receive_eq wf toggle address b2 b3 b4 ha
  obtain ⟨r, hr, hrs⟩ := hasNewCompleteFile_spec wf1 hsz
  rw [hes] at hrs
  cases hrc : r with
  | false =>
    refine ⟨f1, f1, none, h1, ?_, wf1, htog, hes, .inl ⟨rfl, rfl, ?_⟩⟩
    · simp only [RFTFile.event, h1, hr, hrc, Option.bind_eq_bind, Option.bind_some]
      rfl
    · rw [← hrs, hrc]; simp
  | true =>
    have hall := hrs.1 hrc
    have hk : kMaxNumSegments = 32768 := rfl
    have hds : f1.data.size = kMaxNumSegments := wf1.sizes.trans hsz
    have hdb := dataBytes_eq (f := { f1 with isPrinted := true }) (by
      dsimp only; rw [hds, hk]; have := wf1.bound; omega)
    dsimp only at hdb
    have hev : f.event (.segment toggle address b2 b3 b4) =
        some (RFTFile.clear { f1 with isPrinted := true },
          some (asBase64 ((List.range f1.expectedSize).map fun k =>
            ((f1.data.get (k / 5)).bytes).getD (k % 5) 0))) := by
      simp only [RFTFile.event, h1, hr, hrc, Option.bind_eq_bind, Option.bind_some, if_true,
        RFTFile.getBase64Data, hds, hk, hdb]
      rfl
    refine ⟨f1, _, _, h1, hev, ?_, ?_, ?_, .inr ⟨_, rfl, ?_, hall.1, ?_, ?_⟩⟩
    · exact ⟨wf1.sizes, wf1.alloc, wf1.bound, rfl, fun a h => by simp [RFTFile.clear] at h⟩
    · exact htog
    · exact hes
    · rw [List.length_map, List.length_range, hes]
    · intro a; rfl
    · intro k hk2
      refine ⟨hall.2 _ (by omega), ?_⟩
      rw [List.getElem?_map, List.getElem?_range (by omega)]
      have hlt : k % 5 < (f1.data.get (k / 5)).bytes.length := by
        simp only [RFTSegment.bytes, List.length_cons, List.length_nil]; omega
      rw [List.getElem?_eq_getElem hlt]
      simp [List.getD_eq_getElem?_getD, List.getElem?_eq_getElem hlt]

/-- Events as the decoder makes them. -/
def ValidEvent : RftEvent → Prop
  | .segment _ address _ _ _ => address < kMaxNumSegments
  | .info _ _ => True
  | .crc _ address _ => address < kMaxNumCRCs

theorem rftWF_init : RftWF {} := ⟨rfl, .inl rfl, by decide, rfl, by simp⟩

theorem announcedSize_snoc (evs : List RftEvent) (e : RftEvent) :
    announcedSize (evs ++ [e]) = (sizeIn e).getD (announcedSize evs) := by
  rw [announcedSize, List.filterMap_append]
  cases h : sizeIn e with
  | none => simp [h, announcedSize]
  | some n => simp [h]

theorem rftInv_init : RftInv [] [] {} := by
  refine ⟨rftWF_init, rfl, rfl, ⟨[], [], rfl, by simp, by simp [SameToggle], by simp⟩, ?_⟩
  intro pre post t a h _ _ ⟨e, he, _⟩
  have : post = [] := by
    have := congrArg List.length h; simp at this
    exact List.length_eq_zero_iff.1 (by omega)
  rw [this] at he
  simp at he

theorem drop_snoc_none {outs : List (Option Str)} {n : Nat} {o : Option Str} (h : n ≤ outs.length) :
    (∀ x ∈ (outs ++ [o]).drop n, x = none) ↔ (∀ x ∈ outs.drop n, x = none) ∧ o = none := by
  rw [List.drop_append_of_le_length h]
  simp only [List.mem_append, List.mem_singleton]
  constructor
  · intro hh; exact ⟨fun x hx => hh x (.inl hx), hh o (.inr rfl)⟩
  · rintro ⟨h1, h2⟩ x (hx | rfl)
    · exact h1 x hx
    · exact h2

/-- An event that is not a segment. -/
theorem rftInv_other {evs : List RftEvent} {outs : List (Option Str)} {f f' : RFTFile} {e : RftEvent}
    (i : RftInv evs outs f) (hwf : RftWF f') (hne : ∀ a, ¬ CarriesSegment a e)
    (h1 : f'.received = f.received) (h2 : f'.data = f.data) (h3 : f'.prevToggle = f.prevToggle)
    (h4 : f'.expectedSize = announcedSize (evs ++ [e])) :
    RftInv (evs ++ [e]) (outs ++ [none]) f' := by
  have htrue : ∀ t, (match e with | .segment toggle _ _ _ _ => toggle = t | _ => True) := by
    intro t
    cases e with
    | segment tt a _ _ _ => exact absurd rfl (hne a)
    | info => trivial
    | crc => trivial
  refine ⟨hwf, by simp [i.len], h4, ?_, ?_⟩
  · obtain ⟨pre, post, w⟩ := i.window
    refine ⟨pre, post ++ [e], by rw [w.split, List.append_assoc], ?_, ?_, ?_⟩
    · have : pre.length ≤ outs.length := by rw [i.len, w.split]; simp
      exact (drop_snoc_none this).2 ⟨w.quiet, rfl⟩
    · intro x hx
      rw [List.mem_append, List.mem_singleton] at hx
      rcases hx with hx | rfl
      · have := w.toggle x hx; rw [h3]; exact this
      · exact htrue _
    · intro a ha
      rw [h1] at ha
      rw [h2]
      exact LatestSegment.mono (w.data a ha) e (hne a)
  · intro pre post t a hsp hq hst ⟨x, hx, hxa⟩
    rw [h3, h1]
    rcases List.eq_nil_or_concat post with rfl | ⟨post, y, rfl⟩
    · simp at hx
    · rw [List.concat_eq_append] at *
      rw [← List.append_assoc] at hsp
      obtain ⟨hsp2, hye⟩ := List.append_inj' hsp rfl
      simp only [List.cons.injEq, and_true] at hye
      subst hye
      have hlen : pre.length ≤ outs.length := by rw [i.len, hsp2]; simp
      refine i.noted pre post t a hsp2 ((drop_snoc_none hlen).1 hq).1
        (fun z hz => hst z (List.mem_append_left _ hz)) ⟨x, ?_, hxa⟩
      rw [List.mem_append, List.mem_singleton] at hx
      rcases hx with hx | rfl
      · exact hx
      · exact absurd hxa (hne a)

theorem rftInv_step {evs : List RftEvent} {outs : List (Option Str)} {f : RFTFile}
    (i : RftInv evs outs f) (e : RftEvent) (hv : ValidEvent e) :
    ∃ f' o, f.event e = some (f', o) ∧ RftInv (evs ++ [e]) (outs ++ [o]) f' := by
  cases e with
  | info n c =>
    refine ⟨_, none, rfl, rftInv_other i ?_ (by simp [CarriesSegment]) ?_ ?_ ?_ ?_⟩
    · have wf := i.wf
      have hb : kMaxNumSegments * 5 = 163840 := rfl
      refine ⟨?_, ?_, ?_, ?_, ?_⟩ <;> simp only [RFTFile.setSize, RFTFile.setCRCFlag, hb] <;> split
      · exact wf.sizes
      · exact wf.sizes
      · exact wf.alloc
      · exact wf.alloc
      · assumption
      · exact wf.bound
      · exact wf.notPrinted
      · exact wf.notPrinted
      · exact wf.inb
      · exact wf.inb
    · simp only [RFTFile.setSize, RFTFile.setCRCFlag]; split <;> rfl
    · simp only [RFTFile.setSize, RFTFile.setCRCFlag]; split <;> rfl
    · simp only [RFTFile.setSize, RFTFile.setCRCFlag]; split <;> rfl
    · have hb : kMaxNumSegments * 5 = 163840 := rfl
      rw [announcedSize_snoc, sizeIn]
      simp only [RFTFile.setSize, RFTFile.setCRCFlag, hb]
      split
      · rfl
      · exact i.size
  | crc m a c =>
    have hv' : a < kMaxNumCRCs := hv
    have hev : f.event (.crc m a c) = some ({ f with crcChunks := ⟨kMaxNumCRCs, fun j =>
        if j = a then { mode := m, addressRaw := a, crc := c, received := true }
        else if j < f.crcChunks.size then f.crcChunks.get j else {}⟩ }, none) := by
      simp only [RFTFile.event, RFTFile.receiveCRC, hv', if_true, Buf.write, Buf.resize,
        Option.bind_eq_bind, Option.bind_some]
      rfl
    refine ⟨_, none, hev, rftInv_other i ?_ (by simp [CarriesSegment]) ?_ ?_ ?_ ?_⟩
    · have wf := i.wf
      exact ⟨wf.sizes, wf.alloc, wf.bound, wf.notPrinted, wf.inb⟩
    · rfl
    · rfl
    · rfl
    · rw [announcedSize_snoc]; exact i.size
  | segment t a b2 b3 b4 =>
    have ha : a < kMaxNumSegments := hv
    obtain ⟨f1, f', out, hf1, hev, hwf', htog, hes, hout⟩ := segment_event i.wf t a b2 b3 b4 ha
    obtain ⟨f1', hf1', -, -, -, -, hrec, hdata⟩ := receive_eq i.wf t a b2 b3 b4 ha
    rw [hf1] at hf1'
    cases hf1'
    refine ⟨f', out, hev, hwf', by simp [i.len], ?_, ?_, ?_⟩
    · rw [announcedSize_snoc, hes]; exact i.size
    · rcases hout with ⟨ho, rfl, -⟩ | ⟨bytes, ho, -, -, hcl, -⟩
      · by_cases ht : t = f.prevToggle
        · obtain ⟨pre, post, w⟩ := i.window
          refine ⟨pre, post ++ [.segment t a b2 b3 b4], by rw [w.split, List.append_assoc], ?_, ?_, ?_⟩
          · have : pre.length ≤ outs.length := by rw [i.len, w.split]; simp
            exact (drop_snoc_none this).2 ⟨w.quiet, ho⟩
          · intro x hx
            rw [List.mem_append, List.mem_singleton] at hx
            rcases hx with hx | rfl
            · have := w.toggle x hx; rw [htog, ht]; exact this
            · exact htog.symm
          · intro b hb
            rw [hdata b]
            by_cases hba : b = a
            · subst hba
              rw [if_pos rfl, rftSegment_bytes]
              exact LatestSegment.last _ _ _ _ _ _
            · rw [if_neg hba]
              rcases (hrec b).1 hb with h | ⟨-, hlt, hg⟩
              · exact absurd h hba
              · rw [if_pos (by rw [i.wf.sizes]; exact hlt)]
                exact LatestSegment.mono (w.data b hg) _ (by simp [CarriesSegment]; omega)
        · refine ⟨evs, [.segment t a b2 b3 b4], rfl, ?_, ?_, ?_⟩
          · rw [← i.len]; simp [ho]
          · intro x hx
            rw [List.mem_singleton] at hx
            subst hx
            exact htog.symm
          · intro b hb
            rcases (hrec b).1 hb with rfl | ⟨h, -⟩
            · rw [hdata, if_pos rfl, rftSegment_bytes]
              exact LatestSegment.last [] _ _ _ _ _
            · exact absurd h ht
      · refine ⟨evs ++ [.segment t a b2 b3 b4], [], by simp, ?_, by simp [SameToggle], ?_⟩
        · rw [List.drop_eq_nil_of_le (by simp [i.len])]; simp
        · intro b hb; rw [hcl b] at hb; cases hb
    · intro pre post t' b hsp hq hst ⟨x, hx, hxb⟩
      rcases List.eq_nil_or_concat post with rfl | ⟨post, y, rfl⟩
      · simp at hx
      · rw [List.concat_eq_append] at *
        rw [← List.append_assoc] at hsp
        obtain ⟨hsp2, hye⟩ := List.append_inj' hsp rfl
        simp only [List.cons.injEq, and_true] at hye
        subst hye
        have hlen : pre.length ≤ outs.length := by rw [i.len, hsp2]; simp
        have hq' := (drop_snoc_none hlen).1 hq
        have htt : t = t' := hst _ (List.mem_append_right _ (List.mem_singleton.2 rfl))
        subst htt
        refine ⟨htog, fun hblt => ?_⟩
        rcases hout with ⟨ho, rfl, -⟩ | ⟨bytes, ho, -⟩
        · rw [hrec]
          rw [List.mem_append, List.mem_singleton] at hx
          rcases hx with hx | rfl
          · have hn := i.noted pre post t b hsp2 hq'.1
              (fun z hz => hst z (List.mem_append_left _ hz)) ⟨x, hx, hxb⟩
            exact .inr ⟨hn.1.symm, i.wf.inb _ (hn.2 hblt), hn.2 hblt⟩
          · exact .inl hxb.symm
        · rw [hq'.2] at ho; cases ho

end Redsea
