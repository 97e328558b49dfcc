import Verif.Lemmas.Rft
import Verif.Props.Base64

/-
C35, C36: file transfer.
-/

namespace Redsea

open Spec

/-! ### A single pipe -/

theorem rftRun_inv (evs : List RftEvent) (hv : ∀ e ∈ evs, ValidEvent e) :
    ∃ f outs, rftRun evs = some (f, outs) ∧ RftInv evs outs f := by
  induction evs using snocInduction with
  | nil => exact ⟨{}, [], rfl, rftInv_init⟩
  | snoc evs e ih =>
    obtain ⟨f, outs, h1, h2⟩ := ih fun x hx => hv x (List.mem_append_left _ hx)
    obtain ⟨f', o, h3, h4⟩ := rftInv_step h2 e (hv e (List.mem_append_right _ (List.mem_singleton.2 rfl)))
    refine ⟨f', outs ++ [o], ?_, h4⟩
    rw [rftRun_snoc, h1]
    simp only [Option.bind_some, h3, Option.map_some]

/-- C35, soundness. If an event on a pipe prints file contents, they decode (as Base64) to
exactly as many bytes as announced last, and there is a window of events reaching up to the
event in which nothing else was printed and the toggle bit never changed, such that every byte
of the file comes from the latest segment for its address in that window. -/
theorem C35_printed_file_is_consistent (evs : List RftEvent) (e : RftEvent)
    (hv : ∀ x ∈ evs ++ [e], ValidEvent x) (f f' : RFTFile) (outs : List (Option Str)) (text : Str)
    (hrun : rftRun evs = some (f, outs)) (he : f.event e = some (f', some text)) :
    ∃ bytes pre post t, b64Decode text = some bytes ∧
      bytes.length = announcedSize evs ∧ 0 < bytes.length ∧
      evs ++ [e] = pre ++ post ∧ (∀ o ∈ outs.drop pre.length, o = none) ∧ SameToggle t post ∧
      ∀ k, k < bytes.length → ∃ seg, LatestSegment post (k / 5) seg ∧ bytes[k]? = seg[k % 5]? := by
  obtain ⟨f0, outs0, h1, i⟩ := rftRun_inv evs fun x hx => hv x (List.mem_append_left _ hx)
  rw [hrun] at h1
  simp only [Option.some.injEq, Prod.mk.injEq] at h1
  obtain ⟨rfl, rfl⟩ := h1
  have hve := hv e (List.mem_append_right _ (List.mem_singleton.2 rfl))
  cases e with
  | info n c => simp [RFTFile.event] at he
  | crc m a c =>
    have hv' : a < kMaxNumCRCs := hve
    simp [RFTFile.event, RFTFile.receiveCRC, hv', Buf.write, Buf.resize] at he
  | segment t a b2 b3 b4 =>
    have ha : a < kMaxNumSegments := hve
    obtain ⟨f1, f2, out, hf1, hev, -, htog, hes, hout⟩ := segment_event i.wf t a b2 b3 b4 ha
    obtain ⟨f1', hf1', -, -, -, -, hrec, hdata⟩ := receive_eq i.wf t a b2 b3 b4 ha
    rw [hf1] at hf1'
    cases hf1'
    rw [hev] at he
    simp only [Option.some.injEq, Prod.mk.injEq] at he
    obtain ⟨rfl, rfl⟩ := he
    rcases hout with ⟨ho, -⟩ | ⟨bytes, ho, hlen, hpos, -, hbytes⟩
    · cases ho
    · simp only [Option.some.injEq] at ho
      have hdec : b64Decode text = some bytes := by rw [ho]; exact C34_base64_decodes bytes
      by_cases ht : t = f.prevToggle
      · obtain ⟨pre, post, w⟩ := i.window
        refine ⟨bytes, pre, post ++ [.segment t a b2 b3 b4], t, hdec, by rw [hlen, i.size], by omega,
          by rw [w.split, List.append_assoc], w.quiet, ?_, ?_⟩
        · intro x hx
          rw [List.mem_append, List.mem_singleton] at hx
          rcases hx with hx | rfl
          · have := w.toggle x hx; rw [ht]; exact this
          · rfl
        · intro k hk
          obtain ⟨hg, hb⟩ := hbytes k (by omega)
          refine ⟨_, ?_, hb⟩
          rw [hdata]
          by_cases hka : k / 5 = a
          · rw [if_pos hka, rftSegment_bytes, hka]
            exact LatestSegment.last _ _ _ _ _ _
          · rw [if_neg hka]
            rcases (hrec _).1 hg with h | ⟨-, hlt, hg⟩
            · exact absurd h hka
            · rw [if_pos (by rw [i.wf.sizes]; exact hlt)]
              exact LatestSegment.mono (w.data _ hg) _ (by simp [CarriesSegment]; omega)
      · refine ⟨bytes, evs, [.segment t a b2 b3 b4], t, hdec, by rw [hlen, i.size], by omega, rfl, ?_, ?_, ?_⟩
        · rw [List.drop_eq_nil_of_le (by rw [i.len]; exact Nat.le_refl _)]; simp
        · intro x hx
          rw [List.mem_singleton] at hx
          subst hx
          rfl
        · intro k hk
          obtain ⟨hg, hb⟩ := hbytes k (by omega)
          rcases (hrec _).1 hg with h | ⟨h, -⟩
          · refine ⟨_, ?_, hb⟩
            rw [hdata, if_pos h, rftSegment_bytes, h]
            exact LatestSegment.last [] _ _ _ _ _
          · exact absurd h ht

/-- C35, completeness. A file of `n` bytes (announced last, `n > 0`) is printed as soon as the
last missing segment arrives: in a window of events up to the present segment without other
output and without change of the toggle bit there is a segment for every address needed. -/
theorem C35_complete_file_is_printed (evs : List RftEvent) (t a : Nat) (b2 b3 b4 : Word)
    (hv : ∀ x ∈ evs ++ [.segment t a b2 b3 b4], ValidEvent x) (f : RFTFile)
    (outs : List (Option Str)) (hrun : rftRun evs = some (f, outs)) (pre post : List RftEvent)
    (hsplit : evs = pre ++ post) (hquiet : ∀ o ∈ outs.drop pre.length, o = none)
    (htog : SameToggle t post) (hpos : 0 < announcedSize evs)
    (hall : ∀ i, 5 * i < announcedSize evs → i = a ∨ ∃ e ∈ post, CarriesSegment i e) :
    ∃ f' text, f.event (.segment t a b2 b3 b4) = some (f', some text) := by
  obtain ⟨f0, outs0, h1, i⟩ := rftRun_inv evs fun x hx => hv x (List.mem_append_left _ hx)
  rw [hrun] at h1
  simp only [Option.some.injEq, Prod.mk.injEq] at h1
  obtain ⟨rfl, rfl⟩ := h1
  have ha : a < kMaxNumSegments := hv _ (List.mem_append_right _ (List.mem_singleton.2 rfl))
  obtain ⟨f1, f2, out, hf1, hev, -, -, -, hout⟩ := segment_event i.wf t a b2 b3 b4 ha
  obtain ⟨f1', hf1', -, -, -, -, hrec, -⟩ := receive_eq i.wf t a b2 b3 b4 ha
  rw [hf1] at hf1'
  cases hf1'
  rcases hout with ⟨-, -, hn⟩ | ⟨bytes, ho, -⟩
  · exfalso
    refine hn ⟨by rw [i.size]; exact hpos, fun j hj => ?_⟩
    rw [i.size] at hj
    rw [hrec]
    rcases hall j (by omega) with h | h
    · exact .inl h
    · have hb := i.wf.bound
      rw [i.size] at hb
      have hk : kMaxNumSegments = 32768 := rfl
      have hn := i.noted pre post t j hsplit hquiet htog h
      have hg := hn.2 (by omega)
      exact .inr ⟨hn.1.symm, i.wf.inb _ hg, hg⟩
  · exact ⟨f2, asBase64 bytes, by rw [hev, ho]⟩

/-- An announced size that is too large is not taken over: the pipe goes on printing files of
the size announced before. (So the number of bytes is the announced one only for sizes that
can be addressed.) -/
theorem C35_oversized_announcement_ignored :
    ∃ evs f outs f' text, (∀ e ∈ evs, ValidEvent e) ∧
      evs = [.info 5 false, .info 163841 false] ∧ rftRun evs = some (f, outs) ∧
      f.event (.segment 0 0 0x41#16 0x4243#16 0x4445#16) = some (f', some text) ∧
      b64Decode text = some (ascii "ABCDE") := by
  have h : ∃ f outs f' text, rftRun [.info 5 false, .info 163841 false] = some (f, outs) ∧
      f.event (.segment 0 0 0x41#16 0x4243#16 0x4445#16) = some (f', some text) ∧
      b64Decode text = some (ascii "ABCDE") := by
    refine ⟨_, _, _, asBase64 (ascii "ABCDE"), rfl, rfl, ?_⟩
    exact C34_base64_decodes _
  obtain ⟨f, outs, f', text, h1, h2, h3⟩ := h
  exact ⟨_, f, outs, f', text, by simp [ValidEvent], rfl, h1, h2, h3⟩

/-- A file of 7 bytes in two segments (in reverse order). -/
example : ∃ f outs f', rftRun [.info 7 false, .segment 1 1 0x46#16 0x4700#16 0#16] = some (f, outs) ∧
    f.event (.segment 1 0 0x41#16 0x4243#16 0x4445#16) = some (f', some (asBase64 (ascii "ABCDEFG"))) :=
  ⟨_, _, _, rfl, rfl⟩

/-! ### The decoder with its sixteen pipes -/

/-- The file transfer part of the decoder over a sequence of type C groups with all four
blocks. -/
def decodeCRun (gs : List (Word × Word × Word × Word)) :
    Option (List RFTFile × List (Option (Nat × Str))) :=
  gs.foldl (fun s g => s.bind fun (fs, outs) =>
    (decodeCRft fs g.1 g.2.1 g.2.2.1 g.2.2.2).map fun (fs, o) => (fs, outs ++ [o]))
    (some (List.replicate 16 {}, []))

/-- The events on a pipe. -/
def eventsFor (p : Nat) (gs : List (Word × Word × Word × Word)) : List RftEvent :=
  gs.filterMap fun g => match rftEvent g.1 g.2.1 g.2.2.1 g.2.2.2 with
    | some (q, e) => if q = p then some e else none
    | none => none

theorem rftEvent_valid {b1 b2 b3 b4 : Word} {p : Nat} {e : RftEvent}
    (h : rftEvent b1 b2 b3 b4 = some (p, e)) : p < 16 ∧ ValidEvent e := by
  unfold rftEvent at h
  dsimp only at h
  split at h
  · simp at h
  · split at h
    · simp only [Option.some.injEq, Prod.mk.injEq] at h
      obtain ⟨rfl, rfl⟩ := h
      refine ⟨?_, ?_⟩
      · rw [Nat.and_two_pow_sub_one_eq_mod _ 4]; exact Nat.mod_lt _ (by decide)
      · show getBits2 15 b1 b2 8 < kMaxNumSegments
        exact Nat.mod_lt _ (by decide)
    · split at h
      · simp at h
      · split at h
        · split at h
          · split at h
            · split at h
              · simp only [Option.some.injEq, Prod.mk.injEq] at h
                obtain ⟨rfl, rfl⟩ := h
                exact ⟨by assumption, trivial⟩
              · split at h
                · simp only [Option.some.injEq, Prod.mk.injEq] at h
                  obtain ⟨rfl, rfl⟩ := h
                  refine ⟨by assumption, ?_⟩
                  show getBits 9 b3 0 < kMaxNumCRCs
                  exact Nat.mod_lt _ (by decide)
                · simp at h
            · simp at h
          · simp at h
        · simp at h

theorem eventsFor_valid (p : Nat) (gs : List (Word × Word × Word × Word)) :
    ∀ e ∈ eventsFor p gs, ValidEvent e := by
  intro e he
  simp only [eventsFor, List.mem_filterMap] at he
  obtain ⟨g, -, hg⟩ := he
  split at hg
  · rename_i q e' h
    split at hg
    · simp only [Option.some.injEq] at hg
      subst hg
      exact (rftEvent_valid h).2
    · simp at hg
  · simp at hg

theorem decodeCRun_snoc (gs : List (Word × Word × Word × Word)) (g : Word × Word × Word × Word) :
    decodeCRun (gs ++ [g]) = (decodeCRun gs).bind fun (fs, outs) =>
      (decodeCRft fs g.1 g.2.1 g.2.2.1 g.2.2.2).map fun (fs, o) => (fs, outs ++ [o]) := by
  simp [decodeCRun]

theorem decodeCRun_pipes (gs : List (Word × Word × Word × Word)) :
    ∃ files outs, decodeCRun gs = some (files, outs) ∧ files.length = 16 ∧ outs.length = gs.length ∧
      ∀ p, p < 16 → ∃ f os, rftRun (eventsFor p gs) = some (f, os) ∧ files[p]? = some f ∧
        os.filterMap id = outs.filterMap fun o => match o with
          | some (q, t) => if q = p then some t else none
          | none => none := by
  induction gs using snocInduction with
  | nil =>
    refine ⟨List.replicate 16 {}, [], rfl, by simp, rfl, ?_⟩
    intro p hp
    exact ⟨{}, [], rfl, by rw [List.getElem?_replicate, if_pos hp], rfl⟩
  | snoc gs g ih =>
    obtain ⟨files, outs, h1, h2, h3, h4⟩ := ih
    obtain ⟨b1, b2, b3, b4⟩ := g
    rw [decodeCRun_snoc, h1]
    simp only [Option.bind_some]
    cases hev : rftEvent b1 b2 b3 b4 with
    | none =>
      refine ⟨files, outs ++ [none], by simp [decodeCRft, hev], h2, by simp [h3], ?_⟩
      intro p hp
      obtain ⟨f, os, g1, g2, g3⟩ := h4 p hp
      have he : eventsFor p (gs ++ [(b1, b2, b3, b4)]) = eventsFor p gs := by
        simp [eventsFor, hev]
      exact ⟨f, os, by rw [he]; exact g1, g2, by simp [g3]⟩
    | some pe =>
      obtain ⟨q, e⟩ := pe
      obtain ⟨hq, hve⟩ := rftEvent_valid hev
      obtain ⟨f, os, g1, g2, g3⟩ := h4 q hq
      obtain ⟨f0, os0, r1, inv⟩ := rftRun_inv _ (eventsFor_valid q gs)
      rw [g1] at r1
      simp only [Option.some.injEq, Prod.mk.injEq] at r1
      obtain ⟨rfl, rfl⟩ := r1
      obtain ⟨f', o, h5, -⟩ := rftInv_step inv e hve
      refine ⟨files.set q f', outs ++ [o.map fun t => (q, t)], ?_, by simp [h2], by simp [h3], ?_⟩
      · simp [decodeCRft, hev, g2, h5]
      · intro p hp
        by_cases hpq : q = p
        · subst hpq
          have he : eventsFor q (gs ++ [(b1, b2, b3, b4)]) = eventsFor q gs ++ [e] := by
            simp [eventsFor, hev]
          refine ⟨f', os ++ [o], ?_, ?_, ?_⟩
          · rw [he, rftRun_snoc, g1]
            simp [h5]
          · rw [List.getElem?_set_self (by omega)]
          · rw [List.filterMap_append, List.filterMap_append, g3]
            congr 1
            cases o <;> simp
        · obtain ⟨f2, os2, k1, k2, k3⟩ := h4 p hp
          have he : eventsFor p (gs ++ [(b1, b2, b3, b4)]) = eventsFor p gs := by
            simp [eventsFor, hev, hpq]
          refine ⟨f2, os2, by rw [he]; exact k1, ?_, ?_⟩
          · rw [List.getElem?_set_ne hpq]; exact k2
          · rw [List.filterMap_append, k3]
            cases o <;> simp [hpq]

/-- C36: whatever type C groups arrive, no buffer and no file is accessed out of bounds. -/
theorem C36_rft_in_bounds (gs : List (Word × Word × Word × Word)) :
    ∃ files outs, decodeCRun gs = some (files, outs) ∧ files.length = 16 := by
  obtain ⟨files, outs, h1, h2, -⟩ := decodeCRun_pipes gs
  exact ⟨files, outs, h1, h2⟩

/-- The largest size, the largest addresses. -/
example : rftEvent 0xA07F#16 0xFFFF#16 0xFFFF#16 0xFFFF#16 = none ∧
    rftEvent 0x8005#16 0xFFFF#16 0x0803#16 0xFFFF#16 = some (5, .info 0x3FFFF true) ∧
    rftEvent 0x25FF#16 0xFFAB#16 0xCDEF#16 0x0123#16 =
      some (5, .segment 1 32767 0xFFAB#16 0xCDEF#16 0x0123#16) := by decide

/-- C35: pipes do not mix. What a group prints for a pipe is what the events of that pipe alone
lead to. -/
theorem C35_pipes_are_separate (gs : List (Word × Word × Word × Word)) (b1 b2 b3 b4 : Word)
    (p : Nat) (e : RftEvent) (h : rftEvent b1 b2 b3 b4 = some (p, e)) :
    ∃ files outs f os f' o, decodeCRun gs = some (files, outs) ∧
      rftRun (eventsFor p gs) = some (f, os) ∧ f.event e = some (f', o) ∧
      (decodeCRft files b1 b2 b3 b4).map (·.2) = some (o.map fun t => (p, t)) := by
  obtain ⟨files, outs, h1, h2, -, h4⟩ := decodeCRun_pipes gs
  obtain ⟨hp, hve⟩ := rftEvent_valid h
  obtain ⟨f, os, g1, g2, -⟩ := h4 p hp
  obtain ⟨f0, os0, r1, inv⟩ := rftRun_inv _ (eventsFor_valid p gs)
  rw [g1] at r1
  simp only [Option.some.injEq, Prod.mk.injEq] at r1
  obtain ⟨rfl, rfl⟩ := r1
  obtain ⟨f', o, h5, -⟩ := rftInv_step inv e hve
  exact ⟨files, outs, f, os, f', o, h1, g1, h5, by simp [decodeCRft, h, g2, h5]⟩

end Redsea
