import Verif.Spec.Memory
import Verif.Lemmas.StationSlots
import Verif.Lemmas.ChannelId

/-
Lemmas for C95: the buffers of a station have limits.
-/

namespace Redsea
open _root_.Redsea.Spec

/-- The library for UCS-2 makes at most three bytes of every byte. -/
def Ucs2Decoder.Modest (u : Ucs2Decoder) : Prop := ∀ bytes t, u bytes = some t → t.length ≤ 3 * bytes.length

/-- A text for `n` bytes. -/
structure TextFits (n : Nat) (s : RDSString) : Prop where
  data : s.data.length ≤ n
  last : s.lastCompleteData.length ≤ n
  string : s.lastCompleteString.length ≤ 3 * n

theorem rdsChar_length : ∀ b : Byte, (getRDSCharString b).length ≤ 3 := by decide +kernel

theorem getData_length (s : RDSString) : s.getData.length ≤ s.data.length := by
  unfold RDSString.getData RDSString.getExpectedLength
  rw [List.length_map, List.length_range]
  exact Nat.min_le_right _ _

theorem flatMap_length_le {f : Byte → Str} {k : Nat} (hf : ∀ b, (f b).length ≤ k) : ∀ l : List Byte,
    (l.flatMap f).length ≤ k * l.length
  | [] => by simp
  | b :: l => by
    rw [List.flatMap_cons, List.length_append, List.length_cons, Nat.mul_add]
    have := hf b
    have := flatMap_length_le hf l
    omega

theorem str_length {u : Ucs2Decoder} (hu : u.Modest) {s : RDSString} {t : Str} (h : s.str u = some t) :
    t.length ≤ 3 * s.data.length := by
  have hd := getData_length s
  unfold RDSString.str RDSString.decode at h
  split at h
  · have := Option.some.inj h
    subst this
    have := flatMap_length_le rdsChar_length s.getData
    omega
  · have := hu _ _ h
    omega
  · have := Option.some.inj h
    subst this
    omega

theorem TextFits.new (n : Nat) : TextFits n (RDSString.new n) := ⟨by simp [RDSString.new], by simp [RDSString.new],
  by simp [RDSString.new]⟩

theorem TextFits.clear {n : Nat} {s : RDSString} (h : TextFits n s) : TextFits n s.clear :=
  ⟨h.data, by simp [RDSString.clear], by simp [RDSString.clear]⟩

theorem TextFits.setEncoding {n : Nat} {s : RDSString} (h : TextFits n s) (e : Encoding) : TextFits n (s.setEncoding e) :=
  ⟨h.data, h.last, h.string⟩

theorem TextFits.resize {n k : Nat} {s : RDSString} (h : TextFits n s) (hk : k ≤ n) : TextFits n (s.resize k) := by
  refine ⟨?_, h.last, h.string⟩
  unfold RDSString.resize
  rw [List.length_append, List.length_take, List.length_replicate]
  omega

theorem TextFits.store {n : Nat} {s : RDSString} (h : TextFits n s) (pos : Nat) (b : Byte) : TextFits n (s.store pos b) :=
  ⟨by unfold RDSString.store; rw [List.length_set]; exact h.data, h.last, h.string⟩

theorem TextFits.set {u : Ucs2Decoder} (hu : u.Modest) {n : Nat} {s : RDSString} (h : TextFits n s) (pos : Nat) (b : Byte) :
    TextFits n (s.set u pos b) := by
  unfold RDSString.set
  split
  · exact h
  · have hs := h.store pos b
    generalize s.store pos b = s' at hs
    dsimp only
    split
    · split
      · exact hs.clear
      · rename_i t ht
        have h1 := str_length hu ht
        have h2 := getData_length s'
        have h3 := hs.data
        exact ⟨hs.data, Nat.le_trans h2 h3, by show t.length ≤ _; omega⟩
    · exact ⟨hs.data, hs.last, hs.string⟩

theorem TextFits.set2 {u : Ucs2Decoder} (hu : u.Modest) {n : Nat} {s : RDSString} (h : TextFits n s) (pos : Nat) (b c : Byte) :
    TextFits n (s.set2 u pos b c) := (h.set hu pos b).set hu _ c

/-- A RadioText. -/
structure RadioFits (r : RadioText) : Prop where
  text : TextFits 64 r.text
  previous : r.previousPotentiallyComplete.length ≤ 192

theorem rtrim_length (s : Str) : (rtrim s).length ≤ s.length := by
  unfold rtrim
  rw [List.length_reverse]
  have := (List.dropWhile_suffix (l := s.reverse) (· == 0x20)).length_le
  rwa [List.length_reverse] at this

theorem RadioFits.update {u : Ucs2Decoder} (hu : u.Modest) {r : RadioText} (h : RadioFits r) (pos : Nat) (b c : Byte) :
    RadioFits (r.update u pos b c) := ⟨h.text.set2 hu pos b c, h.previous⟩

theorem RadioFits.receive {u : Ucs2Decoder} (hu : u.Modest) {r : RadioText} (h : RadioFits r) (g : Group) (isA ab : Bool)
    (pos : Nat) : RadioFits (rtReceive u r g isA ab pos) := by
  unfold rtReceive
  have h1 : RadioFits (if ab then { r with text := r.text.clear } else r) := by
    split
    · exact ⟨h.text.clear, h.previous⟩
    · exact h
  generalize (if ab then { r with text := r.text.clear } else r) = r1 at h1
  have h2 : RadioFits (if isA then RadioText.update u { r1 with text := r1.text.resize 64 } pos
      (getUint8 (g.get .b3) 8) (getUint8 (g.get .b3) 0) else { r1 with text := r1.text.resize 32 }) := by
    split
    · have h64 : RadioFits { r1 with text := r1.text.resize 64 } :=
        ⟨TextFits.resize (k := 64) h1.text (by omega), h1.previous⟩
      exact h64.update hu _ _ _
    · exact ⟨TextFits.resize (k := 32) h1.text (by omega), h1.previous⟩
  dsimp only
  generalize (if isA then RadioText.update u { r1 with text := r1.text.resize 64 } pos
      (getUint8 (g.get .b3) 8) (getUint8 (g.get .b3) 0) else { r1 with text := r1.text.resize 32 }) = r2 at h2 ⊢
  split
  · exact h2.update hu _ _ _
  · exact h2

theorem RadioFits.type2 {u : Ucs2Decoder} (hu : u.Modest) (p : Bool) {r : RadioText} (h : RadioFits r) (g : Group) :
    RadioFits (decodeType2 u p r g).1 := by
  unfold decodeType2
  by_cases hb : (!(g.has .b3 && g.has .b4)) = true
  · rw [if_pos hb]; exact h
  rw [if_neg hb]
  dsimp only
  generalize getBits 4 (g.get .b2) 0 * (if g.type.version == .A then 4 else 2) = pos
  generalize (r.ab != getBool (g.get .b2) 4) = changed
  have h1 : RadioFits { r with ab := getBool (g.get .b2) 4 } := ⟨h.text, h.previous⟩
  by_cases hp : rtPotential { r with ab := getBool (g.get .b2) 4 } pos = true
  · rw [if_pos hp]
    cases ht : r.text.str u with
    | none => exact h1
    | some t =>
      have h2 := str_length hu ht
      have h3 : r.text.data.length ≤ 64 := h.text.data
      have h4 := rtrim_length t
      have h5 : RadioFits { r with ab := getBool (g.get .b2) 4, previousPotentiallyComplete := rtrim t } :=
        ⟨h.text, by show (rtrim t).length ≤ 192; omega⟩
      have h6 := h5.receive hu g (g.type.version == .A) changed pos
      dsimp only
      exact h6
  · rw [if_neg hp]
    exact h1.receive hu _ _ _ _

/-- The texts of a station. -/
structure SlotsFit (s : Slots) : Prop where
  ps : TextFits 8 s.ps
  longPs : TextFits 32 s.longPs
  radiotext : RadioFits s.radiotext
  ert : RadioFits s.ert
  ptyname : TextFits 8 s.ptyname.text
  fullTdc : TextFits 128 s.fullTdc

theorem plusNext_fits {r : RadioText} (h : RadioFits r) (g : Group) : RadioFits (plusNext r g) := by
  unfold plusNext
  split
  · exact ⟨h.text.clear, h.previous⟩
  · exact h

theorem enhanced_fits {env : Env} (hu : env.ucs2.Modest) {r : RadioText} (h : RadioFits r) (g : Group) :
    RadioFits (Station.parseEnhancedRT env r g).1 := by
  unfold Station.parseEnhancedRT
  dsimp only
  split
  · exact (h.update hu _ _ _).update hu _ _ _
  · exact h.update hu _ _ _

theorem ite_fits {c : Prop} [Decidable c] {a b : Slots} (ha : c → SlotsFit a) (hb : ¬ c → SlotsFit b) :
    SlotsFit (if c then a else b) := by
  by_cases h : c
  · rw [if_pos h]; exact ha h
  · rw [if_neg h]; exact hb h

theorem slotsNext_fits {env : Env} (hu : env.ucs2.Modest) (o : Options) (app : Option Word) {s : Slots} (h : SlotsFit s)
    (g : Group) : SlotsFit (slotsNext env o app s g) := by
  have hs := h
  obtain ⟨h1, h2, h3, h4, h5, h6⟩ := h
  unfold slotsNext
  refine ite_fits (fun _ => hs) fun _ => ?_
  refine ite_fits (fun _ => ite_fits (fun _ => ⟨h1, h2, h3, h4, h5, h6⟩) fun _ => ⟨?_, h2, h3, h4, h5, h6⟩) fun _ => ?_
  · dsimp only
    by_cases hb : g.has .b4 = true
    · rw [if_pos hb]; exact h1.set2 hu _ _ _
    · rw [if_neg hb]; exact h1
  refine ite_fits (fun _ => hs) fun _ => ?_
  refine ite_fits (fun _ => ⟨h1, h2, h3.type2 hu _ g, h4, h5, h6⟩) fun _ => ?_
  refine ite_fits (fun _ => ite_fits (fun _ => ite_fits (fun _ =>
    ⟨h1, h2, h3, ⟨h4.text.setEncoding _, h4.previous⟩, h5, h6⟩) fun _ => hs) fun _ => hs) fun _ => ?_
  refine ite_fits (fun _ => hs) fun _ => ?_
  refine ite_fits (fun _ => ite_fits (fun _ => ⟨h1, h2, h3, h4, ?_, h6⟩) fun _ => hs) fun _ => ?_
  · refine TextFits.set2 hu (TextFits.set2 hu ?_ _ _ _) _ _ _
    by_cases hb : (s.ptyname.ab != getBool (g.get .b2) 4) = true
    · rw [if_pos hb]; exact h5.clear
    · rw [if_neg hb]; exact h5
  refine ite_fits (fun _ => hs) fun _ => ?_
  refine ite_fits (fun _ => hs) fun _ => ?_
  cases app with
  | some a =>
    unfold appSlots
    refine ite_fits (fun _ => ⟨h1, h2, plusNext_fits h3 g, h4, h5, h6⟩) fun _ => ?_
    refine ite_fits (fun _ => ⟨h1, h2, h3, plusNext_fits h4 g, h5, h6⟩) fun _ => ?_
    exact ite_fits (fun _ => ⟨h1, h2, h3, enhanced_fits hu h4 g, h5, h6⟩) fun _ => hs
  | none =>
    refine ite_fits (fun _ => ⟨h1, h2, h3, h4, h5, (h6.set2 hu _ _ _).set2 hu _ _ _⟩) fun _ => ?_
    refine ite_fits (fun _ => ⟨h1, ?_, h3, h4, h5, h6⟩) fun _ => hs
    have : TextFits 32 (if g.has .b3 then s.longPs.set2 env.ucs2 (getBits 3 (g.get .b2) 0 * 4)
        (getUint8 (g.get .b3) 8) (getUint8 (g.get .b3) 0) else s.longPs) := by
      by_cases hb : g.has .b3 = true
      · rw [if_pos hb]; exact h2.set2 hu _ _ _
      · rw [if_neg hb]; exact h2
    dsimp only
    by_cases hb : g.has .b4 = true
    · rw [if_pos hb]; exact this.set2 hu _ _ _
    · rw [if_neg hb]; exact this

/-- A file. -/
structure FileFits (f : RFTFile) : Prop where
  data : f.data.size ≤ 32768
  received : f.received.size ≤ 32768
  crc : f.crcChunks.size ≤ 512

theorem write_size {α : Type} {b b' : Buf α} {i : Nat} {x : α} (h : b.write i x = some b') : b'.size = b.size := by
  unfold Buf.write at h
  split at h
  · have := Option.some.inj h; subst this; rfl
  · cases h

theorem FileFits.clear {f : RFTFile} (h : FileFits f) : FileFits f.clear := ⟨h.data, h.received, by simp [RFTFile.clear]⟩

theorem prepare_fits {f : RFTFile} (h : FileFits f) (t : Nat) : FileFits (f.prepare t) := by
  unfold RFTFile.prepare
  have : FileFits { f with received := f.received.resize kMaxNumSegments false, data := f.data.resize kMaxNumSegments {} } :=
    ⟨by simp [Buf.resize, kMaxNumSegments], by simp [Buf.resize, kMaxNumSegments], h.crc⟩
  dsimp only
  split
  · exact ⟨this.clear.data, this.clear.received, this.clear.crc⟩
  · exact ⟨this.data, this.received, this.crc⟩

theorem event_fits {f f' : RFTFile} {e : RftEvent} {out : Option Str} (h : FileFits f) (he : f.event e = some (f', out)) :
    FileFits f' := by
  cases e with
  | segment t a b2 b3 b4 =>
    unfold RFTFile.event at he
    obtain ⟨f1, h1, he⟩ := Option.bind_eq_some_iff.mp he
    have hf1 : FileFits f1 := by
      unfold RFTFile.receive at h1
      have hp := prepare_fits h t
      dsimp only at h1
      split at h1
      · obtain ⟨d, hd, h1⟩ := Option.bind_eq_some_iff.mp h1
        obtain ⟨r, hr, h1⟩ := Option.bind_eq_some_iff.mp h1
        have := Option.some.inj h1
        subst this
        exact ⟨by rw [write_size hd]; exact hp.data, by rw [write_size hr]; exact hp.received, hp.crc⟩
      · have := Option.some.inj h1
        subst this
        exact hp
    obtain ⟨c, -, he⟩ := Option.bind_eq_some_iff.mp he
    split at he
    · obtain ⟨⟨f2, t2⟩, h2, he⟩ := Option.bind_eq_some_iff.mp he
      have := Option.some.inj he
      simp only [Prod.mk.injEq] at this
      rw [← this.1]
      refine FileFits.clear ?_
      unfold RFTFile.getBase64Data at h2
      dsimp only at h2
      split at h2
      · have := Option.some.inj h2
        simp only [Prod.mk.injEq] at this
        rw [← this.1]
        exact ⟨hf1.data, hf1.received, hf1.crc⟩
      · obtain ⟨b, -, h2⟩ := Option.bind_eq_some_iff.mp h2
        have := Option.some.inj h2
        simp only [Prod.mk.injEq] at this
        rw [← this.1]
        exact ⟨hf1.data, hf1.received, hf1.crc⟩
    · have := Option.some.inj he
      simp only [Prod.mk.injEq] at this
      rw [← this.1]
      exact hf1
  | info size flag =>
    have := Option.some.inj he
    simp only [Prod.mk.injEq] at this
    rw [← this.1]
    unfold RFTFile.setSize RFTFile.setCRCFlag
    split <;> exact ⟨h.data, h.received, h.crc⟩
  | crc m a c =>
    unfold RFTFile.event at he
    obtain ⟨f1, h1, he⟩ := Option.bind_eq_some_iff.mp he
    have := Option.some.inj he
    simp only [Prod.mk.injEq] at this
    rw [← this.1]
    unfold RFTFile.receiveCRC at h1
    split at h1
    · obtain ⟨d, hd, h1⟩ := Option.bind_eq_some_iff.mp h1
      have := Option.some.inj h1
      subst this
      exact ⟨h.data, h.received, by rw [write_size hd]; simp [Buf.resize, kMaxNumCRCs]⟩
    · cases h1

theorem decodeCRft_fits {files : List RFTFile} {b1 b2 b3 b4 : Word} {r : List RFTFile × Option (Nat × Str)}
    (h : ∀ f ∈ files, FileFits f) (he : decodeCRft files b1 b2 b3 b4 = some r) : ∀ f ∈ r.1, FileFits f := by
  unfold decodeCRft at he
  split at he
  · have := Option.some.inj he
    subst this
    exact h
  · split at he
    · cases he
    · rename_i pipe e _ f hf
      obtain ⟨⟨f1, out⟩, h1, he⟩ := Option.bind_eq_some_iff.mp he
      have := Option.some.inj he
      subst this
      intro f' hf'
      rcases List.mem_or_eq_of_mem_set hf' with hm | rfl
      · exact h _ hm
      · exact event_fits (h _ (List.mem_of_getElem? hf)) h1

/-- The traffic message service: between groups there are only the parts of a message. -/
structure TmcFits (s : TMCService) : Prop where
  ps : TextFits 8 s.ps
  parts : s.message.parts.length = 5
  events : s.message.events = []
  supplementary : s.message.supplementary = []
  quantifiers : s.message.quantifiers = []
  diversion : s.message.diversion = []
  incomplete : s.message.isComplete = false

theorem tmc_system_fits {s s' : TMCService} {m : Word} {ops : List JOp} (h : TmcFits s)
    (he : s.receiveSystemGroup m = some (s', ops)) : TmcFits s' := by
  unfold TMCService.receiveSystemGroup at he
  dsimp only at he
  split at he
  · have := Option.some.inj he
    simp only [Prod.mk.injEq] at this
    rw [← this.1]
    exact ⟨h.1, h.2, h.3, h.4, h.5, h.6, h.7⟩
  · obtain ⟨gap, -, he⟩ := Option.bind_eq_some_iff.mp he
    have := Option.some.inj he
    simp only [Prod.mk.injEq] at this
    rw [← this.1]
    exact ⟨h.1, h.2, h.3, h.4, h.5, h.6, h.7⟩
  · split at he
    · split at he
      · obtain ⟨c, -, he⟩ := Option.bind_eq_some_iff.mp he
        have := Option.some.inj he
        simp only [Prod.mk.injEq] at this
        rw [← this.1]
        exact h
      · have := Option.some.inj he
        simp only [Prod.mk.injEq] at this
        rw [← this.1]
        exact h
    · have := Option.some.inj he
      simp only [Prod.mk.injEq] at this
      rw [← this.1]
      exact h
  · have := Option.some.inj he
    simp only [Prod.mk.injEq] at this
    rw [← this.1]
    exact h

theorem tmc_tuning_fits {env : TmcEnv} (hu : env.ucs2.Modest) {s s' : TMCService} {x y z : Word} {ops : List JOp}
    (h : TmcFits s) (he : s.tuningInformation env x y z = some (s', ops)) : TmcFits s' := by
  unfold TMCService.tuningInformation at he
  dsimp only at he
  split at he
  · obtain ⟨l, -, he⟩ := Option.bind_eq_some_iff.mp he
    obtain ⟨l', -, he⟩ := Option.bind_eq_some_iff.mp he
    obtain ⟨l'', -, he⟩ := Option.bind_eq_some_iff.mp he
    have := Option.some.inj he
    simp only [Prod.mk.injEq] at this
    rw [← this.1]
    exact h
  · split at he
    all_goals
      have := Option.some.inj he
      simp only [Prod.mk.injEq] at this
      rw [← this.1]
      exact h
  · have := Option.some.inj he
    simp only [Prod.mk.injEq] at this
    rw [← this.1]
    exact h
  · split at he
    · have := Option.some.inj he
      simp only [Prod.mk.injEq] at this
      rw [← this.1]
      exact ⟨(((h.1.set hu _ _).set hu _ _).set hu _ _).set hu _ _, h.2, h.3, h.4, h.5, h.6, h.7⟩
    · have := Option.some.inj he
      simp only [Prod.mk.injEq] at this
      rw [← this.1]
      exact h

theorem fields_complete (env : TmcEnv) (fs : List (Nat × Nat)) : ∀ m : Message,
    (fs.foldl (Message.field env) m).isComplete = m.isComplete := by
  have step : ∀ (m : Message) (f : Nat × Nat), (m.field env f).isComplete = m.isComplete := by
    intro m f
    unfold Message.field
    split
    · unfold Message.control
      split <;> rfl
    · rfl
    · unfold Message.quantifier
      split
      · rfl
      · split <;> rfl
    · unfold Message.quantifier
      split
      · rfl
      · split <;> rfl
    all_goals rfl
  induction fs with
  | nil => intro m; rfl
  | cons f fs ih => intro m; rw [List.foldl_cons, ih, step]

theorem tmc_user_fits {env : TmcEnv} (hu : env.ucs2.Modest) {s s' : TMCService} {x y z : Word} {ops : List JOp}
    (h : TmcFits s) (he : s.receiveUserGroup env x y z = some (s', ops)) : TmcFits s' := by
  unfold TMCService.receiveUserGroup at he
  dsimp only at he
  split at he
  · have := Option.some.inj he
    simp only [Prod.mk.injEq] at this
    rw [← this.1]
    exact h
  split at he
  · have := Option.some.inj he
    simp only [Prod.mk.injEq] at this
    rw [← this.1]
    exact ⟨h.1, h.2, h.3, h.4, h.5, h.6, h.7⟩
  split at he
  · exact tmc_tuning_fits hu h he
  split at he
  · have := Option.some.inj he
    simp only [Prod.mk.injEq] at this
    rw [← this.1]
    exact h
  split at he
  · obtain ⟨out, -, he⟩ := Option.bind_eq_some_iff.mp he
    have := Option.some.inj he
    simp only [Prod.mk.injEq] at this
    rw [← this.1]
    exact h
  · have hm : TmcFits { s with message := if getBits 3 x 0 ≠ s.message.continuityIndex then Message.new s.isEncrypted
        else s.message } := by
      by_cases hc : getBits 3 x 0 ≠ s.message.continuityIndex
      · rw [if_pos hc]; exact ⟨h.1, by simp [Message.new], rfl, rfl, rfl, rfl, rfl⟩
      · rw [if_neg hc]; exact ⟨h.1, h.2, h.3, h.4, h.5, h.6, h.7⟩
    generalize (if getBits 3 x 0 ≠ s.message.continuityIndex then Message.new s.isEncrypted else s.message) = m at hm he
    split at he
    · obtain ⟨out, -, he⟩ := Option.bind_eq_some_iff.mp he
      have := Option.some.inj he
      simp only [Prod.mk.injEq] at this
      rw [← this.1]
      exact ⟨h.1, by simp [Message.new], rfl, rfl, rfl, rfl, rfl⟩
    · rename_i hno
      have := Option.some.inj he
      simp only [Prod.mk.injEq] at this
      rw [← this.1]
      clear this he
      obtain ⟨m1, m2, m3, m4, m5, m6, m7⟩ := hm
      dsimp only at m2 m3 m4 m5 m6 m7
      unfold Message.pushMulti at hno ⊢
      dsimp only at hno ⊢
      split at hno
      · rename_i hl
        rw [if_pos hl]
        unfold Message.decodeMulti at hno ⊢
        dsimp only at hno ⊢
        split at hno
        · rename_i hr
          rw [if_pos hr]
          exact ⟨h.1, by simp [Message.clear, m2], m3, m4, m5, m6, m7⟩
        · exfalso
          apply hno
          show Message.isComplete _ = true
          have hcl : ∀ m : Message, m.clear.isComplete = m.isComplete := fun _ => rfl
          rw [hcl]
          split
          · rw [fields_complete]
            rfl
          · rfl
      · rename_i hl
        rw [if_neg hl]
        exact ⟨h.1, by simp [m2], m3, m4, m5, m6, m7⟩

/-- What is not in the slots. -/
structure RestFits (st : Station) : Prop where
  eonPs : ∀ p t, st.eonPs p = some t → TextFits 8 t
  tmc : TmcFits st.tmc
  rft : ∀ f ∈ st.rftFiles, FileFits f

theorem RestFits.same {st st' : Station} (h : RestFits st) (h1 : st'.eonPs = st.eonPs) (h2 : st'.tmc = st.tmc)
    (h3 : st'.rftFiles = st.rftFiles) : RestFits st' :=
  ⟨by rw [h1]; exact h.eonPs, by rw [h2]; exact h.tmc, by rw [h3]; exact h.rft⟩

theorem eon_fits {env : Env} (hu : env.ucs2.Modest) {st st' : Station} {g : Group} {ops : List JOp} (h : RestFits st)
    (he : st.eonVariant env g = some (st', ops)) : RestFits st' := by
  unfold Station.eonVariant at he
  dsimp only at he
  split at he
  · have := Option.some.inj he
    simp only [Prod.mk.injEq] at this
    rw [← this.1]
    refine ⟨?_, h.tmc, h.rft⟩
    intro p t hp
    dsimp only at hp
    unfold mapSet at hp
    split at hp
    · have := Option.some.inj hp
      rw [← this]
      refine TextFits.set hu (TextFits.set hu ?_ _ _) _ _
      cases hq : st.eonPs (g.get .b4) with
      | none => exact TextFits.new 8
      | some t' => exact h.eonPs _ _ hq
    · exact h.eonPs _ _ hp
  split at he
  · obtain ⟨l, -, he⟩ := Option.bind_eq_some_iff.mp he
    obtain ⟨l', -, he⟩ := Option.bind_eq_some_iff.mp he
    split at he
    · obtain ⟨raw, -, he⟩ := Option.bind_eq_some_iff.mp he
      cases he
      exact h.same rfl rfl rfl
    · cases he
      exact h.same rfl rfl rfl
  split at he
  · cases he; exact h
  split at he
  · cases he; exact h
  split at he
  · obtain ⟨pty, -, he⟩ := Option.bind_eq_some_iff.mp he
    cases he; exact h
  split at he
  · cases he; exact h
  split at he
  · cases he; exact h
  · cases he; exact h

theorem decodeC_fits {st st' : Station} {g : Group} {ops : List JOp} (h : RestFits st)
    (he : st.decodeC g = some (st', ops)) : RestFits st' := by
  unfold Station.decodeC at he
  split at he
  · cases he; exact h
  · obtain ⟨files, hf, he⟩ := Option.bind_eq_some_iff.mp he
    have hr := decodeCRft_fits h.rft hf
    have h' : RestFits { st with rftFiles := files.1 } := ⟨h.eonPs, h.tmc, hr⟩
    dsimp only at he
    split at he
    · cases he; exact h'
    split at he
    · cases he; exact h'
    split at he
    · cases he; exact h'
    split at he
    · split at he
      · cases he; exact ⟨h.eonPs, h.tmc, hr⟩
      · cases he; exact h'
    · cases he; exact h'

theorem decodeTmc_fits {env : Env} (hu : env.ucs2.Modest) {st st' : Station} {g : Group} {ops : List JOp} (h : RestFits st)
    (he : st.decodeTmc env g = some (st', ops)) : RestFits st' := by
  unfold Station.decodeTmc at he
  split at he
  · obtain ⟨⟨s, o⟩, hf, he⟩ := Option.bind_eq_some_iff.mp he
    cases he
    exact ⟨h.eonPs, tmc_user_fits hu h.tmc hf, h.rft⟩
  · cases he; exact h

theorem decodeODA_fits {env : Env} (hu : env.ucs2.Modest) {st st' : Station} {g : Group} {ops : List JOp} (h : RestFits st)
    (he : st.decodeODAGroup env g = some (st', ops)) : RestFits st' := by
  unfold Station.decodeODAGroup at he
  split at he
  · cases he; exact h
  · unfold Station.decodeODAApp at he
    split at he
    · obtain ⟨o, -, he⟩ := Option.map_eq_some_iff.mp he
      cases he; exact h
    split at he
    · obtain ⟨o, -, he⟩ := Option.map_eq_some_iff.mp he
      cases he; exact h.same rfl rfl rfl
    split at he
    · obtain ⟨o, -, he⟩ := Option.map_eq_some_iff.mp he
      cases he; exact h.same rfl rfl rfl
    split at he
    · cases he; exact h.same rfl rfl rfl
    split at he
    · exact decodeTmc_fits hu h he
    · cases he; exact h

theorem decode3A_fits {st st' : Station} {g : Group} {ops : List JOp} (h : RestFits st)
    (he : st.decodeType3A g = some (st', ops)) : RestFits st' := by
  unfold Station.decodeType3A at he
  split at he
  · cases he; exact h
  split at he
  · cases he; exact h
  dsimp only at he
  split at he
  · cases he; exact h.same rfl rfl rfl
  split at he
  · cases he; exact h.same rfl rfl rfl
  split at he
  · cases he; exact h.same rfl rfl rfl
  split at he
  · cases he; exact h.same rfl rfl rfl
  split at he
  · obtain ⟨⟨s, o⟩, hf, he⟩ := Option.bind_eq_some_iff.mp he
    cases he
    exact ⟨h.eonPs, tmc_system_fits h.tmc hf, h.rft⟩
  · cases he; exact h.same rfl rfl rfl

theorem decode0_fits {env : Env} {st st' : Station} {g : Group} {ops : List JOp} (h : RestFits st)
    (he : st.decodeType0 env g = some (st', ops)) : RestFits st' := by
  unfold Station.decodeType0 at he
  obtain ⟨key, -, he⟩ := Option.bind_eq_some_iff.mp he
  dsimp only at he
  split at he
  · obtain ⟨af, -, he⟩ := Option.bind_eq_some_iff.mp he
    cases he; exact h.same rfl rfl rfl
  · have ps : ∀ s : Station, RestFits s → RestFits (s.decodePs env g).1 := by
      intro s hs
      unfold Station.decodePs
      split
      · exact hs
      · exact hs.same rfl rfl rfl
    split at he
    · obtain ⟨af, -, he⟩ := Option.bind_eq_some_iff.mp he
      cases he
      exact ps _ (h.same rfl rfl rfl)
    · cases he
      exact ps _ h

theorem ite_either {α : Type} {P c : Prop} [Decidable c] {a b : Option α} {r : α} (he : (if c then a else b) = some r)
    (ha : a = some r → P) (hb : b = some r → P) : P := by
  by_cases h : c
  · rw [if_pos h] at he; exact ha he
  · rw [if_neg h] at he; exact hb he

theorem decode5_fits {env : Env} {st st' : Station} {g : Group} {ops : List JOp} (h : RestFits st)
    (he : st.decodeType5 env g = some (st', ops)) : RestFits st' := by
  unfold Station.decodeType5 at he
  dsimp only at he
  by_cases hv : g.type.version = .A
  · rw [if_pos hv] at he
    simp only [Option.bind_eq_bind, Option.pure_def] at he
    split at he
    · obtain ⟨x, -, he⟩ := Option.bind_eq_some_iff.mp he
      obtain ⟨y, -, he⟩ := Option.bind_eq_some_iff.mp he
      rw [show st' = _ from (congrArg Prod.fst (Option.some.inj he)).symm]
      exact h.same rfl rfl rfl
    · obtain ⟨x, -, he⟩ := Option.bind_eq_some_iff.mp he
      obtain ⟨y, -, he⟩ := Option.bind_eq_some_iff.mp he
      rw [show st' = _ from (congrArg Prod.fst (Option.some.inj he)).symm]
      exact h.same rfl rfl rfl
  · rw [if_neg hv] at he
    obtain ⟨o', -, he⟩ := Option.bind_eq_some_iff.mp he
    have : st = st' := congrArg Prod.fst (Option.some.inj he)
    rw [← this]; exact h

theorem dispatch_fits {env : Env} (hu : env.ucs2.Modest) {st st' : Station} {g : Group} {ops : List JOp} (h : RestFits st)
    (he : st.dispatch env g = some (st', ops)) : RestFits st' := by
  have same : ∀ {o}, some (st, o) = some (st', ops) → RestFits st' := by
    intro o ho
    have : st = st' := congrArg Prod.fst (Option.some.inj ho)
    rw [← this]; exact h
  have only : ∀ {o : Option (List JOp)}, (o.map fun o => (st, o)) = some (st', ops) → RestFits st' := by
    intro o ho
    obtain ⟨x, -, ho⟩ := Option.map_eq_some_iff.mp ho
    have : st = st' := congrArg Prod.fst ho
    rw [← this]; exact h
  unfold Station.dispatch at he
  dsimp only at he
  refine ite_either he (decodeC_fits h) fun he => ?_
  refine ite_either he (decode0_fits h) fun he => ?_
  refine ite_either he only fun he => ?_
  refine ite_either he (fun he => ?_) fun he => ?_
  · have : _ = st' := congrArg Prod.fst (Option.some.inj he)
    rw [← this]; exact h.same rfl rfl rfl
  refine ite_either he (decode3A_fits h) fun he => ?_
  refine ite_either he same fun he => ?_
  refine ite_either he (fun he => ?_) fun he => ?_
  · have : _ = st' := congrArg Prod.fst (Option.some.inj he)
    rw [← this]
    unfold Station.decodeType10A
    split
    · exact h
    · exact h.same rfl rfl rfl
  refine ite_either he (fun he => ?_) fun he => ?_
  · unfold Station.decodeType14 at he
    refine ite_either he same fun he => ?_
    refine ite_either he same fun he => ?_
    refine ite_either he same fun he => ?_
    obtain ⟨⟨s, o⟩, hf, he⟩ := Option.bind_eq_some_iff.mp he
    cases he
    exact eon_fits hu h hf
  refine ite_either he only fun he => ?_
  refine ite_either he (decodeODA_fits hu h) fun he => ?_
  refine ite_either he (fun he => ?_) fun he => ?_
  · exact decode5_fits h he
  refine ite_either he same fun he => ?_
  refine ite_either he same fun he => ?_
  refine ite_either he (decodeTmc_fits hu h) fun he => ?_
  refine ite_either he same fun he => ?_
  refine ite_either he (fun he => ?_) (decodeODA_fits hu h)
  have : _ = st' := congrArg Prod.fst (Option.some.inj he)
  rw [← this]; exact h.same rfl rfl rfl

/-- A station with all its buffers. -/
structure StationFits (st : Station) : Prop where
  good : st.Good
  slots : SlotsFit st.slots
  rest : RestFits st

theorem fits_unknown (o : Options) (w : Nat) : StationFits (Station.unknown o w) where
  good := good_unknown o w
  slots := ⟨TextFits.new 8, (TextFits.new 32).setEncoding _, ⟨TextFits.new 64, by simp [Station.slots, Station.unknown]⟩,
    ⟨TextFits.new 64, by simp [Station.slots, Station.unknown]⟩, TextFits.new 8, TextFits.new 128⟩
  rest := ⟨by simp [Station.unknown], ⟨TextFits.new 8, by simp [Station.unknown, Message.new], rfl, rfl, rfl, rfl, rfl⟩, by
    intro f hf
    simp only [Station.unknown] at hf
    rw [List.eq_of_mem_replicate hf]
    exact ⟨by simp, by simp, by simp⟩⟩

theorem fits_withPI (o : Options) (w : Nat) (p : Word) : StationFits (Station.withPI o w p) := by
  obtain ⟨h1, h2, h3⟩ := fits_unknown o w
  exact ⟨good_withPI o w p, h2, h3.same rfl rfl rfl⟩

theorem update_fits {env : Env} (hk : env.tmc.KeysOk) (hu : env.ucs2.Modest) {st st' : Station} {g : Group}
    {l : Option Line} (h : StationFits st) (he : st.updateAndPrint env g = some (st', l)) : StationFits st' := by
  obtain ⟨st2, l2, h2, hg, hnone, hsome⟩ := updateAndPrint_parts env hk st g h.good
  rw [he] at h2
  have := Option.some.inj h2
  simp only [Prod.mk.injEq] at this
  obtain ⟨rfl, rfl⟩ := this
  have hc : (st.checkPI g).1.slots = st.slots ∧ RestFits (st.checkPI g).1 := by
    unfold Station.checkPI
    split
    · exact ⟨rfl, h.rest⟩
    split
    · exact ⟨rfl, h.rest.same rfl rfl rfl⟩
    split
    · exact ⟨rfl, h.rest.same rfl rfl rfl⟩
    · exact ⟨rfl, h.rest⟩
  cases l with
  | none =>
    rcases hnone rfl with ⟨-, rfl⟩ | ⟨-, -, rfl⟩
    · exact h
    · exact ⟨hg, by rw [hc.1]; exact h.slots, hc.2⟩
  | some line =>
    obtain ⟨basics, body, j, -, -, -, -, -, hd, -⟩ := hsome line rfl
    split at hd
    · refine ⟨hg, ?_, dispatch_fits hu hc.2 hd⟩
      rw [dispatch_slots hd, hc.1]
      exact slotsNext_fits hu _ _ h.slots g
    · have := congrArg Prod.fst (Option.some.inj hd)
      dsimp only at this
      rw [← this] at hg ⊢
      exact ⟨hg, by rw [hc.1]; exact h.slots, hc.2⟩

theorem channel_fits {env : Env} (hk : env.tmc.KeysOk) (hu : env.ucs2.Modest) :
    ChannelInv env fun _ c => StationFits c.station where
  quiet := by
    intro tr c c' i h
    rw [h.1]
    exact i
  handle := by
    intro tr c g s c' h i he
    obtain ⟨c1, g1, h1, hg, hout⟩ := handleGroup_parts he
    obtain ⟨b, r, -, rfl⟩ := addBler_group c g c1 g1 h1
    have i2 : StationFits (Channel.updatePI { c with blerAverage := r } h.group).station := by
      unfold Channel.updatePI
      split
      · dsimp only
        split
        · exact fits_withPI _ _ _
        · exact i
      · exact i
    generalize Channel.updatePI { c with blerAverage := r } h.group = c2 at i2 hout
    unfold Channel.output at hout
    split at hout
    · have := congrArg Prod.fst (Option.some.inj hout)
      dsimp only at this
      rw [← this]
      exact i2
    · obtain ⟨q, hq, hout⟩ := Option.bind_eq_some_iff.mp hout
      have := congrArg Prod.fst (Option.some.inj hout)
      dsimp only at this
      rw [← this]
      exact update_fits hk hu i2 hq
  reset := fun _ _ i => i

theorem TextFits.use {n : Nat} {s : RDSString} (h : TextFits n s) : textUse s ≤ 5 * n := by
  have := h.data
  have := h.last
  have := h.string
  unfold textUse
  omega

theorem RadioFits.use {r : RadioText} (h : RadioFits r) : radioTextUse r ≤ 512 := by
  have := h.text.use
  have := h.previous
  unfold radioTextUse
  omega

theorem sum_le_const {α : Type} {f : α → Nat} {k : Nat} : ∀ l : List α, (∀ a ∈ l, f a ≤ k) → (l.map f).sum ≤ k * l.length
  | [], _ => by simp
  | a :: l, h => by
    rw [List.map_cons, List.sum_cons, List.length_cons, Nat.mul_add]
    have := h a (by simp)
    have := sum_le_const l fun b hb => h b (by simp [hb])
    omega

theorem TmcFits.use {s : TMCService} (h : TmcFits s) : messageUse s.message = 5 := by
  obtain ⟨_, m2, m3, m4, m5, m6, _⟩ := h
  unfold messageUse
  rw [m2, m3, m4, m5, m6]
  rfl

theorem FileFits.use {f : RFTFile} (h : FileFits f) : fileUse f ≤ 197120 := by
  obtain ⟨a, b, c⟩ := h
  unfold fileUse
  omega

theorem StationFits.network {st : Station} (h : StationFits st) (p : Nat) : networkUse st p ≤ 65 := by
  have ha := (h.good.eonAf (BitVec.ofNat 16 p)).len
  unfold networkUse
  rw [ha]
  cases hp : st.eonPs (BitVec.ofNat 16 p) with
  | none => simp
  | some t =>
    have := (h.rest.eonPs _ _ hp).use
    simp only [Option.map_some, Option.getD_some]
    omega

theorem StationFits.use {st : Station} (h : StationFits st) : stationUse st ≤ 7415734 := by
  have h1 := h.slots.ps.use
  have h2 := h.slots.longPs.use
  have h3 := h.slots.radiotext.use
  have h4 := h.slots.ert.use
  have h5 := h.slots.ptyname.use
  have h6 := h.slots.fullTdc.use
  have h7 : st.altFreq.freqs.length = 25 := by
    obtain ⟨codes, hc⟩ := h.good.af
    exact hc.wf.len
  have h8 := h.rest.tmc.ps.use
  have h9 := h.rest.tmc.use
  have h10 : (st.rftFiles.map fileUse).sum ≤ 197120 * st.rftFiles.length :=
    sum_le_const _ fun f hf => (h.rest.rft f hf).use
  have h11 : ((List.range 65536).map (networkUse st)).sum ≤ 65 * (List.range 65536).length :=
    sum_le_const _ fun p _ => h.network p
  rw [h.good.rftLen] at h10
  rw [List.length_range] at h11
  unfold stationUse
  simp only [Station.slots] at h1 h2 h3 h4 h5 h6
  omega

end Redsea
