import Verif.Lemmas.DataStreams
import Verif.Props.MpxLoop

/-
Property C100: the data streams of a channel are decoded on their own.
-/

namespace Redsea
open _root_.Spec _root_.Redsea.Spec BlockStream

/-- **C100**: whatever bits of the four data streams are handed to a channel, in whatever portions and order, the groups of the
stream `i` are those that a block decoder finds in the bits of this stream; at the end, for the streams 1 to 3, also what was
received of another group. -/
theorem C100_groups (env : Env) (delay : Nat → Int) (o : Options) (w : Nat) (es : List ChannelEvent) (hb : ∀ e ∈ es, e.IsBits)
    (now : Nat → Int) (i : Nat) (hi : i < 4) {q : Channel × List Trace}
    (h : Channel.run env delay (Channel.new o w) (es ++ [.flush now]) = some q) :
    streamBlocks i q.2 = (run o.useFec {} (fedBits i es)).2.map Group.fourBlocks ++
      (let rest := (run o.useFec {} (fedBits i es)).1.currentGroup
       if i ≠ 0 ∧ rest.hasNothing = false then [rest.fourBlocks] else []) := by
  have happ : ∀ (es : List ChannelEvent) (c : Channel) (q : Channel × List Trace),
      Channel.run env delay c (es ++ [.flush now]) = some q →
      ∃ c1 tr1 r, Channel.run env delay c es = some (c1, tr1) ∧ c1.flush env now = some r ∧
        q.2 = tr1 ++ r.2.map .handled := by
    intro es
    induction es with
    | nil =>
      intro c q h
      rw [List.nil_append, Channel.run] at h
      obtain ⟨⟨c1, t1⟩, h1, h⟩ := Option.bind_eq_some_iff.mp h
      obtain ⟨⟨c2, t2⟩, h2, h⟩ := Option.bind_eq_some_iff.mp h
      obtain ⟨r, h3, h4⟩ := Option.map_eq_some_iff.mp h1
      cases h2
      cases h4
      cases h
      exact ⟨c, [], r, rfl, h3, by simp⟩
    | cons e es ih =>
      intro c q h
      rw [List.cons_append, Channel.run] at h
      obtain ⟨⟨c1, t1⟩, h1, h⟩ := Option.bind_eq_some_iff.mp h
      obtain ⟨⟨c2, t2⟩, h2, h⟩ := Option.bind_eq_some_iff.mp h
      obtain ⟨c3, tr3, r, h3, h4, h5⟩ := ih c1 _ h2
      refine ⟨c3, t1 ++ tr3, r, ?_, h4, ?_⟩
      · rw [Channel.run, h1]
        simp only [Option.bind_eq_bind, Option.bind_some, h3]
        rfl
      · have := Option.some.inj h
        rw [← this, List.append_assoc, ← h5]
  obtain ⟨c1, tr1, r, h1, h2, h3⟩ := happ es _ q h
  have hs := run_streams es h1 i hi
  have h0 : (Channel.new o w).blockStreams[i]? = some {} := by
    simp only [Channel.new]
    rw [List.getElem?_replicate, if_pos hi]
  rw [h3, streamBlocks_append, run_streamBlocks es hb h0 h1, flush_streamBlocks hs h2]
  show _ = _ ++ if i ≠ 0 ∧ (stateAfter o.useFec (fedBits i es)).currentGroup.hasNothing = false then _ else _
  congr 1
  have e : (i = 1 ∨ i = 2 ∨ i = 3) ↔ i ≠ 0 := by omega
  simp only [e]
  rfl

/-- **C100**, two channels: the groups of a stream do not depend on the bits of other streams, on how the calls are interleaved,
on options other than the correction of errors, or on times, tables and resets. -/
theorem C100_independent (env env' : Env) (delay delay' : Nat → Int) (o o' : Options) (hf : o'.useFec = o.useFec) (w w' : Nat)
    (es es' : List ChannelEvent) (hb : ∀ e ∈ es, e.IsBits) (hb' : ∀ e ∈ es', e.IsBits) (now now' : Nat → Int) (i : Nat)
    (hi : i < 4) (same : fedBits i es' = fedBits i es) {q r : Channel × List Trace}
    (h : Channel.run env delay (Channel.new o w) (es ++ [.flush now]) = some q)
    (h' : Channel.run env' delay' (Channel.new o' w') (es' ++ [.flush now']) = some r) :
    streamBlocks i r.2 = streamBlocks i q.2 := by
  rw [C100_groups env delay o w es hb now i hi h, C100_groups env' delay' o' w' es' hb' now' i hi h', hf, same]

section
variable {F C : Type} (ar : Arith F) (L : Liquid F C)

/-- **C100**, for sound: the groups of a stream of a channel are those that a block decoder finds in the bits of this stream,
which are demodulated from the samples of this channel. The samples are divided into stretches by resets (see C73). -/
theorem C100_sound (env : Env) (hk : env.tmc.KeysOk) (delay : Nat → Int) (o : Options) (resampling : Bool)
    (hL : resampling = true → KeepsRate L) (clock : Nat → Int) (now : Nat → Nat → Int) (channels : Nat)
    (h1 : 1 ≤ channels) (h32 : channels ≤ 32) (file : List F) :
    ∃ tr, processMPXInput ar L env delay o resampling clock now (file.length + 2) channels file = some tr ∧
      ∀ ch, ch < channels → ∃ samples, mpxSamples ch (file.length + 2) (MPXReader.init channels file) = some samples ∧
        ((atTargetRate L resampling samples).length ≤ 2 ^ 32 → ∃ stretches : List (List F),
          stretches.flatten = atTargetRate L resampling samples ∧
          ∀ n, n < (if o.streams then 4 else 1) → ∃ b out, BiphaseDecoder.run ar (BiphaseDecoder.new ar)
              (((Front.new L).symbolsOver L n stretches).map L.real) = some (b, out) ∧
            let found := run o.useFec {} ((demodBits out).map (· != 0))
            streamBlocks n (ofChannel ch tr) = found.2.map Group.fourBlocks ++
              if n ≠ 0 ∧ found.1.currentGroup.hasNothing = false then [found.1.currentGroup.fourBlocks] else []) := by
  obtain ⟨tr, ht, hc⟩ := C73_channel_stories ar L env hk delay o resampling hL clock now channels h1 h32 file
  refine ⟨tr, ht, fun ch hch => ?_⟩
  obtain ⟨samples, es, hs, story⟩ := hc ch hch
  refine ⟨samples, hs, fun hlen => ?_⟩
  obtain ⟨stretches, -, hfl, -, hbits⟩ := story.bits hlen
  refine ⟨stretches, hfl, fun n hn => ?_⟩
  obtain ⟨b, out, hd, hfed⟩ := hbits n hn
  obtain ⟨c, hrun⟩ := story.run
  have hn4 : n < 4 := by
    split at hn <;> omega
  refine ⟨b, out, hd, ?_⟩
  have key := C100_groups env delay o ch es (fun e he => ?_) (now ch) n hn4 hrun
  · rw [hfed] at key
    exact key
  · have := story.calls e he
    cases e <;> trivial

end

/-- Bits of the streams 0 and 2 in turns; the group of stream 2 is not complete. -/
def demoInTurns : List ChannelEvent :=
  [.bits 0 (demoBits.take 100) 0, .bits 7 (demoBits ++ demoA.bits.take 60) 2, .resetPI, .bits 3 (demoBits.drop 100) 0]

example : fedBits 0 demoInTurns = demoBits ∧ fedBits 2 demoInTurns = demoBits ++ demoA.bits.take 60 ∧
    (run true {} (fedBits 0 demoInTurns)).2.length = 2 ∧ (run true {} (fedBits 2 demoInTurns)).2.length = 2 ∧
    (run true {} (fedBits 2 demoInTurns)).1.currentGroup.hasNothing = false ∧ ∀ e ∈ demoInTurns, e.IsBits :=
  ⟨by decide +kernel, by decide +kernel, by decide +kernel, by decide +kernel, by decide +kernel, by
    simp [demoInTurns, ChannelEvent.IsBits]⟩

end Redsea
