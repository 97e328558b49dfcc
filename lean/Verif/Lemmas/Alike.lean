import Verif.Model.Subcarrier
import Verif.Model.Programs
import Batteries.Data.List.Basic

/-
Two programs that receive the same, step by step: a relation between channels that each call keeps is one that the loop over
the samples of a recording keeps.
-/

namespace Redsea

/-! ### Two computations -/

/-- If both have a result, the results are related; and both have one, if this is asked for. -/
def Pairs (strict : Prop) {α β : Type} (R : α → β → Prop) (x : Option α) (y : Option β) : Prop :=
  (∀ a b, x = some a → y = some b → R a b) ∧ (strict → (y.isSome ↔ x.isSome))

section
variable {strict : Prop} {α β γ δ : Type}

theorem pairs_some {R : α → β → Prop} {a : α} {b : β} (h : R a b) : Pairs strict R (some a) (some b) :=
  ⟨fun a' b' ha hb => by rw [← Option.some.inj ha, ← Option.some.inj hb]; exact h, fun _ => Iff.rfl⟩

theorem pairs_none {R : α → β → Prop} : Pairs strict R (none : Option α) (none : Option β) :=
  ⟨(by intro _ _ ha; cases ha), fun _ => Iff.rfl⟩

theorem pairs_bind {R : α → β → Prop} {S : γ → δ → Prop} {x : Option α} {y : Option β} {f : α → Option γ} {g : β → Option δ}
    (h : Pairs strict R x y) (hf : ∀ a b, R a b → Pairs strict S (f a) (g b)) : Pairs strict S (x >>= f) (y >>= g) := by
  constructor
  · intro c d hc hd
    obtain ⟨a, ha, hc⟩ := Option.bind_eq_some_iff.mp hc
    obtain ⟨b, hb, hd⟩ := Option.bind_eq_some_iff.mp hd
    exact (hf a b (h.1 a b ha hb)).1 c d hc hd
  · intro hs
    have hi := h.2 hs
    cases x with
    | none =>
      cases y with
      | none => exact Iff.rfl
      | some b => simp at hi
    | some a =>
      cases y with
      | none => simp at hi
      | some b => exact (hf a b (h.1 a b rfl rfl)).2 hs

theorem pairs_bind_same {S : γ → δ → Prop} (x : Option α) {f : α → Option γ} {g : α → Option δ}
    (hf : ∀ a, x = some a → Pairs strict S (f a) (g a)) : Pairs strict S (x >>= f) (x >>= g) := by
  cases x with
  | none => exact pairs_none
  | some a => exact hf a rfl

theorem pairs_mono {R S : α → β → Prop} {x : Option α} {y : Option β} (h : Pairs strict R x y) (hm : ∀ a b, R a b → S a b) :
    Pairs strict S x y := ⟨fun a b ha hb => hm a b (h.1 a b ha hb), h.2⟩

theorem pairs_map {R : α → β → Prop} {S : γ → δ → Prop} {x : Option α} {y : Option β} {f : α → γ} {g : β → δ}
    (h : Pairs strict R x y) (hf : ∀ a b, R a b → S (f a) (g b)) : Pairs strict S (x.map f) (y.map g) := by
  constructor
  · intro c d hc hd
    obtain ⟨a, ha, rfl⟩ := Option.map_eq_some_iff.mp hc
    obtain ⟨b, hb, rfl⟩ := Option.map_eq_some_iff.mp hd
    exact hf a b (h.1 a b ha hb)
  · intro hs
    rw [Option.isSome_map, Option.isSome_map]
    exact h.2 hs

end

/-! ### Two programs -/

/-- Two programs in which channels are related by `R`, the clock readings by `T`, and what is printed by `P`. -/
structure Alike (strict : Prop) (env env' : Env) (delay delay' : Nat → Int) (R : Channel → Channel → Prop)
    (T : Int → Int → Prop) (P : List Line → List Line → Prop) : Prop where
  nil : P [] []
  append : ∀ {a a' b b'}, P a a' → P b b' → P (a ++ b) (a' ++ b')
  streams : ∀ {c d}, R c d → d.blockStreams = c.blockStreams
  reset : ∀ {c d}, R c d → R c.resetPI d.resetPI
  bits : ∀ {c d t t'} n l, R c d → T t t' →
    Pairs strict (fun q r => R q.1 r.1 ∧ P (printedLines (q.2.map .handled)) (printedLines (r.2.map .handled)))
      (Channel.processBits env delay t n c l) (Channel.processBits env' delay' t' n d l)
  flush : ∀ {c d now now'}, R c d → (∀ i, T (now i) (now' i)) →
    Pairs strict (fun q r => R q.1 r.1 ∧ P (printedLines (q.2.map .handled)) (printedLines (r.2.map .handled)))
      (Channel.flush env c now) (Channel.flush env' d now')

/-- The lines of some channels. -/
abbrev soundLines (l : List (Nat × Trace)) : List Line := printedLines (l.map (·.2))

theorem soundLines_append (a b : List (Nat × Trace)) : soundLines (a ++ b) = soundLines a ++ soundLines b := by
  unfold soundLines
  rw [List.map_append]
  exact List.filterMap_append

theorem soundLines_channel (k : Nat) (l : List Trace) : soundLines (l.map fun t => (k, t)) = printedLines l := by
  unfold soundLines
  rw [List.map_map]
  exact congrArg printedLines (List.map_id _)

section
variable {F C : Type} {ar : Arith F} {L : Liquid F C} {strict : Prop} {env env' : Env} {delay delay' : Nat → Int}
  {R : Channel → Channel → Prop} {T : Int → Int → Prop} {P : List Line → List Line → Prop}
  (w : Alike strict env env' delay delay' R T P)

/-- The receivers are the same. -/
def SameReceivers (L : Liquid F C) (R : Channel → Channel → Prop) (m m' : MpxChannel L) : Prop :=
  m'.subcarriers = m.subcarriers ∧ R m.channel m'.channel

include w

theorem alike_streams {t t' : Int} (ht : T t t') (bits : List (List Bool)) (n : Nat) {m m' : MpxChannel L}
    (hm : SameReceivers L R m m') :
    Pairs strict (fun q r => SameReceivers L R q.1 r.1 ∧ P (printedLines q.2) (printedLines r.2))
      (streamTurn L env delay t n m bits) (streamTurn L env' delay' t' n m' bits) := by
  induction bits generalizing n m m' with
  | nil => exact pairs_some ⟨hm, w.nil⟩
  | cons b bits ih =>
    rw [streamTurn, streamTurn]
    refine pairs_bind (w.bits n b hm.2 ht) fun q r hqr => ?_
    rw [hm.1, show resetNeeded L m.subcarriers r.1 = resetNeeded L m.subcarriers q.1 by
      unfold resetNeeded; rw [w.streams hqr.1]]
    refine pairs_bind_same _ fun reset _ => ?_
    dsimp only
    have key : SameReceivers L R (if reset then ⟨m.subcarriers.reset L, q.1.resetPI⟩ else ⟨m.subcarriers, q.1⟩)
        (if reset then ⟨m.subcarriers.reset L, r.1.resetPI⟩ else ⟨m.subcarriers, r.1⟩) := by
      cases reset
      · exact ⟨rfl, hqr.1⟩
      · exact ⟨rfl, w.reset hqr.1⟩
    refine pairs_bind (ih (n + 1) key) fun x y hxy => pairs_some ⟨hxy.1, ?_⟩
    have app : ∀ a b : List Trace, printedLines (a ++ b) = printedLines a ++ printedLines b := fun a b => List.filterMap_append
    rw [app, app, app, app]
    refine w.append (w.append hqr.2 ?_) hxy.2
    cases reset
    · exact w.nil
    · exact w.nil

theorem alike_channel {t t' : Int} (ht : T t t') (num : Nat) (chunk : List F) {m m' : MpxChannel L}
    (hm : SameReceivers L R m m') :
    Pairs strict (fun q r => SameReceivers L R q.1 r.1 ∧ P (printedLines q.2) (printedLines r.2))
      (channelTurn ar L env delay num t m chunk) (channelTurn ar L env' delay' num t' m' chunk) := by
  unfold channelTurn
  rw [hm.1]
  exact pairs_bind_same _ fun r _ => alike_streams w ht _ 0 ⟨rfl, hm.2⟩

theorem alike_channels {t t' : Int} (ht : T t t') (num : Nat) (reader : MPXReader F) (k : Nat) {ms ms' : List (MpxChannel L)}
    (hm : List.Forall₂ (SameReceivers L R) ms ms') :
    Pairs strict (fun q r => List.Forall₂ (SameReceivers L R) q.1 r.1 ∧ P (soundLines q.2) (soundLines r.2))
      (channelsTurn ar L env delay num t reader k ms) (channelsTurn ar L env' delay' num t' reader k ms') := by
  induction hm generalizing k with
  | nil => exact pairs_some ⟨.nil, w.nil⟩
  | cons hx _ ih =>
    rw [channelsTurn, channelsTurn]
    refine pairs_bind_same _ fun chunk _ => pairs_bind (alike_channel w ht num chunk hx) fun q r hqr =>
      pairs_bind (ih (k + 1)) fun x y hxy => pairs_some ⟨.cons hqr.1 hxy.1, ?_⟩
    rw [soundLines_append, soundLines_append, soundLines_channel, soundLines_channel]
    exact w.append hqr.2 hxy.2

theorem alike_loop {clock clock' : Nat → Int} (hc : ∀ i, T (clock i) (clock' i)) (num fuel : Nat) (reader : MPXReader F)
    {ms ms' : List (MpxChannel L)} (hm : List.Forall₂ (SameReceivers L R) ms ms') :
    Pairs strict (fun q r => List.Forall₂ (SameReceivers L R) q.1 r.1 ∧ P (soundLines q.2) (soundLines r.2))
      (mpxLoop ar L env delay num clock fuel reader ms) (mpxLoop ar L env' delay' num clock' fuel reader ms') := by
  induction fuel generalizing reader ms ms' with
  | zero => exact pairs_none
  | succ fuel ih =>
    rw [mpxLoop, mpxLoop]
    split
    · exact pairs_some ⟨hm, w.nil⟩
    · refine pairs_bind (alike_channels w (hc fuel) num _ 0 hm) fun q r hqr => pairs_bind (ih _ hqr.1) fun x y hxy =>
        pairs_some ⟨hxy.1, ?_⟩
      rw [soundLines_append, soundLines_append]
      exact w.append hqr.2 hxy.2

theorem alike_flush {now now' : Nat → Nat → Int} (hn : ∀ i j, T (now i j) (now' i j)) (k : Nat) {ms ms' : List (MpxChannel L)}
    (hm : List.Forall₂ (SameReceivers L R) ms ms') :
    Pairs strict (fun q r => P (soundLines q) (soundLines r)) (flushChannels L env now k ms) (flushChannels L env' now' k ms') := by
  induction hm generalizing k with
  | nil => exact pairs_some w.nil
  | cons hx _ ih =>
    rw [flushChannels, flushChannels]
    refine pairs_bind (w.flush hx.2 (hn k)) fun q r hqr => pairs_bind (ih (k + 1)) fun x y hxy => pairs_some ?_
    have e : ∀ l : List Handled, (l.map fun h => (k, Trace.handled h)) = (l.map Trace.handled).map fun t => (k, t) := by
      intro l
      rw [List.map_map]
      rfl
    rw [soundLines_append, soundLines_append, e, e, soundLines_channel, soundLines_channel]
    exact w.append hqr.2 hxy

/-- Two programs for the same recording. -/
theorem alike_sound {o o' : Options} (hs : o'.streams = o.streams) (hnew : ∀ ch, R (Channel.new o ch) (Channel.new o' ch))
    {clock clock' : Nat → Int} (hc : ∀ i, T (clock i) (clock' i)) {now now' : Nat → Nat → Int}
    (hn : ∀ i j, T (now i j) (now' i j)) (resampling : Bool) (fuel channels : Nat) (file : List F) :
    Pairs strict (fun q r => P (soundLines q) (soundLines r))
      (processMPXInput ar L env delay o resampling clock now fuel channels file)
      (processMPXInput ar L env' delay' o' resampling clock' now' fuel channels file) := by
  unfold processMPXInput
  dsimp only
  rw [hs]
  have start : List.Forall₂ (SameReceivers L R)
      ((List.range channels).map fun ch => (⟨SubcarrierSet.new ar L resampling, Channel.new o ch⟩ : MpxChannel L))
      ((List.range channels).map fun ch => (⟨SubcarrierSet.new ar L resampling, Channel.new o' ch⟩ : MpxChannel L)) := by
    generalize List.range channels = l
    induction l with
    | nil => exact .nil
    | cons i l ih => exact .cons ⟨rfl, hnew i⟩ ih
  refine pairs_bind (alike_loop w hc _ fuel _ start) fun q r hqr => pairs_bind (alike_flush w hn 0 hqr.1) fun x y hxy =>
    pairs_some ?_
  rw [soundLines_append, soundLines_append]
  exact w.append hqr.2 hxy

end

end Redsea
