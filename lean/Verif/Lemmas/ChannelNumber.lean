import Verif.Lemmas.Services
import Verif.Lemmas.Alike
import Verif.Lemmas.MpxLoop

/-
Lemmas for C103: the number of a channel is kept, and printed, and nothing else.
-/

namespace Redsea
open _root_.Spec _root_.Redsea.Spec

/-! ### Stations -/

/-- The station with another channel number. -/
def Station.numbered (st : Station) (w : Nat) : Station := { st with whichChannel := w }

theorem typed_numbered (env : Env) (st : Station) (w : Nat) (g : Group) :
    typedDispatch env g (st.numbered w) = (typedDispatch env g st).map fun r => (r.1.numbered w, r.2) := by
  have hl := local_typed env g
  have h1 := hl st (st.numbered w) rfl rfl
  have h2 := hl st st rfl rfl
  rw [show st.graft (serviceOf g) (st.numbered w) = st.numbered w by generalize serviceOf g = s; cases s <;> rfl] at h1
  rw [h1]
  rw [graft_of_agree (agree_refl _ _)] at h2
  cases he : typedDispatch env g st with
  | none => rfl
  | some r =>
    rw [he] at h2
    have h3 : r.1 = r.1.graft (serviceOf g) st := congrArg Prod.fst (Option.some.inj h2)
    have h4 : r.1.graft (serviceOf g) (st.numbered w) = (r.1.graft (serviceOf g) st).numbered w := by
      generalize serviceOf g = s
      cases s <;> rfl
    rw [Option.map_some, Option.map_some, h4, ← h3]

theorem typed_options {env : Env} {st : Station} {g : Group} {r : Station × List JOp}
    (h : typedDispatch env g st = some r) : r.1.options = st.options := by
  have h2 := local_typed env g st st rfl rfl
  rw [graft_of_agree (agree_refl _ _), h] at h2
  have h3 : r.1 = r.1.graft (serviceOf g) st := congrArg Prod.fst (Option.some.inj h2)
  rw [h3]
  generalize serviceOf g = s
  cases s <;> rfl

theorem checkPI_numbered (st : Station) (w : Nat) (g : Group) :
    (st.numbered w).checkPI g = ((st.checkPI g).1.numbered w, (st.checkPI g).2) := by
  unfold Station.checkPI
  rw [show (st.numbered w).lastGroupHadPi = st.lastGroupHadPi from rfl]
  repeat' split
  all_goals rfl

/-- Where channel numbers are not printed, the station does the same with another one. -/
theorem update_numbered (env : Env) (st : Station) (w : Nat) (g : Group) (h : st.options.numChannels ≤ 1) :
    (st.numbered w).update env g = (st.update env g).map fun r => (r.1.numbered w, r.2) := by
  have hh : (st.numbered w).headerOps env g = st.headerOps env g := by
    unfold Station.headerOps Station.channelOps
    rw [if_neg (c := st.options.numChannels > 1) (by omega),
      if_neg (c := (st.numbered w).options.numChannels > 1) (by show ¬ st.options.numChannels > 1; omega)]
    rfl
  rw [update_typed, update_typed, checkPI_numbered, show (st.numbered w).hasPi = st.hasPi from rfl, hh]
  dsimp only
  split
  · rfl
  split
  · rfl
  rw [show Station.decodeBasics ((st.checkPI g).1.numbered w) g = Station.decodeBasics (st.checkPI g).1 g from rfl,
    typed_numbered env _ w g]
  cases Station.decodeBasics (st.checkPI g).1 g with
  | none => rfl
  | some basics =>
    simp only [Option.bind_some]
    cases typedDispatch env g (st.checkPI g).1 <;> rfl

theorem line_numbered (env : Env) (st : Station) (w : Nat) (g : Group) (h : st.options.numChannels ≤ 1) :
    (st.numbered w).updateAndPrint env g = (st.updateAndPrint env g).map fun r => (r.1.numbered w, r.2) := by
  unfold Station.updateAndPrint
  rw [update_numbered env st w g h]
  cases st.update env g with
  | none => rfl
  | some r =>
    obtain ⟨s, ops⟩ := r
    cases ops with
    | none => rfl
    | some ops =>
      simp only [Option.map_some, Option.bind_eq_bind, Option.bind_some]
      cases J.build ops .null <;> rfl

theorem line_options {env : Env} {st : Station} {g : Group} {r : Station × Option Line}
    (h : st.updateAndPrint env g = some r) : r.1.options = st.options := by
  unfold Station.updateAndPrint at h
  obtain ⟨u, hu, h⟩ := Option.bind_eq_some_iff.mp h
  have e : r.1 = u.1 := by
    split at h
    · cases h; rfl
    · obtain ⟨j, -, h⟩ := Option.bind_eq_some_iff.mp h
      cases h; rfl
  rw [e]
  have hc := (base_checkPI st g).2.2.1
  rw [update_typed] at hu
  split at hu
  · rw [← Option.some.inj hu]
  split at hu
  · rw [← Option.some.inj hu]; exact hc
  obtain ⟨basics, -, hu⟩ := Option.bind_eq_some_iff.mp hu
  obtain ⟨q, hq, rfl⟩ := Option.map_eq_some_iff.mp hu
  exact (typed_options hq).trans hc

/-! ### Channels -/

/-- The channel with another number. -/
def Channel.numbered (c : Channel) (w : Nat) : Channel := { c with whichChannel := w, station := c.station.numbered w }

/-- The number of the channel is not printed: hex output, or there is one channel. -/
def Channel.Unnumbered (c : Channel) : Prop :=
  c.options.outputType = .hex ∨ c.options.numChannels ≤ 1 ∧ c.station.options.numChannels ≤ 1

/-- The same channels with different numbers that are not printed. -/
def NumberTwin (w : Nat) (c d : Channel) : Prop := c.Unnumbered ∧ d = c.numbered w

section
variable {env : Env} {w : Nat}

theorem number_new (o : Options) (v : Nat) (h : o.outputType = .hex ∨ o.numChannels ≤ 1) :
    NumberTwin w (Channel.new o v) (Channel.new o w) :=
  ⟨h.imp id fun h => ⟨h, h⟩, rfl⟩

theorem number_pi {c : Channel} (u : c.Unnumbered) (g : Group) : NumberTwin w (c.updatePI g) ((c.numbered w).updatePI g) := by
  unfold Channel.updatePI
  rw [show (c.numbered w).cachedPi = c.cachedPi from rfl]
  by_cases h : g.hasPI = true
  · rw [if_pos h, if_pos h]
    dsimp only
    by_cases h2 : (c.cachedPi.update g.getPI).2 = .changeConfirmed
    · rw [if_pos h2, if_pos h2]
      exact ⟨u.imp id fun u => ⟨u.1, u.1⟩, rfl⟩
    · rw [if_neg h2, if_neg h2]
      exact ⟨u, rfl⟩
  · rw [if_neg h, if_neg h]
    exact ⟨u, rfl⟩

theorem number_output {c : Channel} (u : c.Unnumbered) (g : Group) :
    Pairs True (fun q r => NumberTwin w q.1 r.1 ∧ r.2 = q.2) (c.output env g) ((c.numbered w).output env g) := by
  unfold Channel.output
  rw [show (c.numbered w).options = c.options from rfl]
  by_cases h : c.options.outputType = .hex
  · rw [if_pos h, if_pos h]
    exact pairs_some ⟨⟨u, rfl⟩, rfl⟩
  · rw [if_neg h, if_neg h]
    have u2 := u.resolve_left h
    rw [show (c.numbered w).station = c.station.numbered w from rfl, line_numbered env _ w g u2.2]
    cases hq : c.station.updateAndPrint env g with
    | none => exact pairs_none
    | some q => exact pairs_some ⟨⟨.inr ⟨u2.1, by show q.1.options.numChannels ≤ 1; rw [line_options hq]; exact u2.2⟩, rfl⟩, rfl⟩

theorem number_group {c d : Channel} (t : NumberTwin w c d) (now : Int) (g : Group) (n : Nat) :
    Pairs True (fun q r => NumberTwin w q.1 r.1 ∧ r.2 = q.2) (c.processGroup env now g n) (d.processGroup env now g n) := by
  obtain ⟨u, rfl⟩ := t
  have hs : ∃ k g', c.stampGroup now g = (k, g') ∧ (c.numbered w).stampGroup now g = (k.numbered w, g') ∧ k.Unnumbered := by
    unfold Channel.stampGroup
    rw [show (c.numbered w).options = c.options from rfl, show (c.numbered w).lastRxTime = c.lastRxTime from rfl]
    split
    · exact ⟨_, _, rfl, rfl, u⟩
    · exact ⟨_, _, rfl, rfl, u⟩
  obtain ⟨k, g', e1, e2, u⟩ := hs
  unfold Channel.processGroup
  rw [e1, e2]
  unfold Channel.handleGroup
  dsimp only
  refine pairs_bind (R := fun q r => NumberTwin w q.1 r.1 ∧ r.2 = q.2) ?_ fun q r hqr => ?_
  · unfold Channel.addBler
    rw [show (k.numbered w).options = k.options from rfl, show (k.numbered w).blerAverage = k.blerAverage from rfl]
    split
    · refine pairs_bind_same _ fun a _ => pairs_some ⟨⟨u, rfl⟩, rfl⟩
    · exact pairs_some ⟨⟨u, rfl⟩, rfl⟩
  · obtain ⟨⟨u1, e⟩, e'⟩ := hqr
    rw [e, e']
    obtain ⟨u2, e⟩ := number_pi (w := w) u1 (Channel.markStream q.2 n)
    rw [e]
    refine pairs_bind (number_output (w := w) u2 _) fun x y hxy => pairs_some ⟨hxy.1, ?_⟩
    rw [hxy.2]

theorem number_push {c d : Channel} (t : NumberTwin w c d) (b : Bool) (n : Nat) :
    Pairs True (fun q r => NumberTwin w q.1 r.1 ∧ r.2 = q.2) (c.pushBit b n) (d.pushBit b n) := by
  obtain ⟨u, rfl⟩ := t
  unfold Channel.pushBit
  exact pairs_bind_same c.blockStreams[n]? fun s _ => pairs_some ⟨⟨u, rfl⟩, rfl⟩

theorem number_bits {delay : Nat → Int} {t : Int} {n : Nat} (bits : List Bool) {c d : Channel} (h : NumberTwin w c d) :
    Pairs True (fun q r => NumberTwin w q.1 r.1 ∧ r.2 = q.2) (Channel.processBits env delay t n c bits)
      (Channel.processBits env delay t n d bits) := by
  induction bits generalizing c d with
  | nil => exact pairs_some ⟨h, rfl⟩
  | cons b bits ih =>
    rw [Channel.processBits, Channel.processBits]
    refine pairs_bind (number_push h b n) fun q r hqr => ?_
    rw [hqr.2]
    cases q.2 with
    | none => exact ih hqr.1
    | some g =>
      dsimp only
      rw [show r.1.lastRxTime = q.1.lastRxTime by rw [hqr.1.2]; rfl]
      refine pairs_bind (number_group hqr.1 0 _ n) fun x y hxy => ?_
      refine pairs_bind (ih ?_) fun k l hkl => pairs_some ⟨hkl.1, by rw [hxy.2, hkl.2]⟩
      exact ⟨hxy.1.1, by rw [hxy.1.2]; rfl⟩

theorem number_flush {now : Nat → Int} (l : List Nat) {c d : Channel} (h : NumberTwin w c d) :
    Pairs True (fun q r => NumberTwin w q.1 r.1 ∧ r.2 = q.2) (Channel.flushStreams env now c l)
      (Channel.flushStreams env now d l) := by
  induction l generalizing c d with
  | nil => exact pairs_some ⟨h, rfl⟩
  | cons i l ih =>
    rw [Channel.flushStreams, Channel.flushStreams, show d.blockStreams = c.blockStreams by rw [h.2]; rfl]
    refine pairs_bind_same _ fun s _ => ?_
    dsimp only
    split
    · exact ih h
    · exact pairs_bind (number_group h (now i) _ i) fun x y hxy => pairs_bind (ih hxy.1) fun k l hkl =>
        pairs_some ⟨hkl.1, by rw [hxy.2, hkl.2]⟩

theorem number_reset {c d : Channel} (h : NumberTwin w c d) : NumberTwin w c.resetPI d.resetPI := by
  obtain ⟨u, rfl⟩ := h
  exact ⟨u, rfl⟩

theorem number_step {delay : Nat → Int} {c d : Channel} (h : NumberTwin w c d) (e : ChannelEvent) :
    Pairs True (fun q r => NumberTwin w q.1 r.1 ∧ r.2 = q.2) (c.step env delay e) (d.step env delay e) := by
  cases e with
  | bit t b n =>
    refine pairs_map (R := fun q r => NumberTwin w q.1 r.1 ∧ r.2 = q.2) ?_ fun q r h => ⟨h.1, by rw [h.2]⟩
    unfold Channel.processBit
    refine pairs_bind (number_push h b n) fun q r hqr => ?_
    rw [hqr.2]
    cases q.2 with
    | none => exact pairs_some ⟨hqr.1, rfl⟩
    | some g => exact pairs_bind (number_group hqr.1 t g n) fun x y hxy => pairs_some ⟨hxy.1, by rw [hxy.2]⟩
  | bits t l n => exact pairs_map (number_bits l h) fun q r h => ⟨h.1, by rw [h.2]⟩
  | group t g n => exact pairs_map (number_group h t g n) fun q r h => ⟨h.1, by rw [h.2]⟩
  | flush now => exact pairs_map (number_flush _ h) fun q r h => ⟨h.1, by rw [h.2]⟩
  | resetPI => exact pairs_some ⟨number_reset h, rfl⟩

/-- Where channel numbers are not printed, all calls do the same in a channel with another number. -/
theorem number_run {delay : Nat → Int} (es : List ChannelEvent) {c d : Channel} (h : NumberTwin w c d) :
    Pairs True (fun q r => NumberTwin w q.1 r.1 ∧ r.2 = q.2) (Channel.run env delay c es) (Channel.run env delay d es) := by
  induction es generalizing c d with
  | nil => exact pairs_some ⟨h, rfl⟩
  | cons e es ih =>
    rw [Channel.run, Channel.run]
    exact pairs_bind (number_step h e) fun q r hqr => pairs_bind (ih hqr.1) fun x y hxy =>
      pairs_some ⟨hxy.1, by rw [hqr.2, hxy.2]⟩

theorem alike_number (env : Env) (delay : Nat → Int) (w : Nat) :
    Alike True env env delay delay (NumberTwin w) (fun t t' => t' = t) (fun a b => b = a) where
  nil := rfl
  append h1 h2 := by rw [h1, h2]
  streams h := by rw [h.2]; rfl
  reset := number_reset
  bits := by
    intro c d t t' n l h ht
    rw [ht]
    exact pairs_mono (number_bits l h) fun q r h => ⟨h.1, by rw [h.2]⟩
  flush := by
    intro c d now now' h hn
    obtain rfl : now' = now := funext hn
    exact pairs_mono (number_flush _ h) fun q r h => ⟨h.1, by rw [h.2]⟩

end

/-! ### One channel of a recording -/

section
variable {F C : Type} {ar : Arith F} {L : Liquid F C} {strict : Prop} {env env' : Env} {delay delay' : Nat → Int}
  {R : Channel → Channel → Prop} {T : Int → Int → Prop} {P : List Line → List Line → Prop}

/-- All turns of a channel, and `flush`. -/
def channelStory (ar : Arith F) (L : Liquid F C) (env : Env) (delay : Nat → Int) (num : Nat) (m : MpxChannel L)
    (chunks : List (Int × List F)) (now : Nat → Int) : Option (List Trace) :=
  channelTurns ar L env delay num m chunks >>= fun r => r.1.channel.flush env now >>= fun f => some (r.2 ++ f.2.map .handled)

theorem alike_turns (a : Alike strict env env' delay delay' R T P) (hT : ∀ t, T t t) (num : Nat) (chunks : List (Int × List F))
    {m m' : MpxChannel L} (hm : SameReceivers L R m m') :
    Pairs strict (fun q r => SameReceivers L R q.1 r.1 ∧ P (printedLines q.2) (printedLines r.2))
      (channelTurns ar L env delay num m chunks) (channelTurns ar L env' delay' num m' chunks) := by
  induction chunks generalizing m m' with
  | nil => exact pairs_some ⟨hm, a.nil⟩
  | cons c cs ih =>
    rw [channelTurns, channelTurns]
    refine pairs_bind (alike_channel a (hT c.1) num c.2 hm) fun q r hqr => pairs_bind (ih hqr.1) fun x y hxy =>
      pairs_some ⟨hxy.1, ?_⟩
    have app : ∀ a b : List Trace, printedLines (a ++ b) = printedLines a ++ printedLines b := fun a b => List.filterMap_append
    rw [app, app]
    exact a.append hqr.2 hxy.2

theorem alike_story (a : Alike strict env env' delay delay' R T P) (hT : ∀ t, T t t) (num : Nat) (chunks : List (Int × List F))
    {m m' : MpxChannel L} (hm : SameReceivers L R m m') {now now' : Nat → Int} (hn : ∀ i, T (now i) (now' i)) :
    Pairs strict (fun q r => P (printedLines q) (printedLines r)) (channelStory ar L env delay num m chunks now)
      (channelStory ar L env' delay' num m' chunks now') := by
  refine pairs_bind (alike_turns a hT num chunks hm) fun q r hqr => pairs_bind (a.flush hqr.1.2 hn) fun x y hxy => pairs_some ?_
  have app : ∀ a b : List Trace, printedLines (a ++ b) = printedLines a ++ printedLines b := fun a b => List.filterMap_append
  rw [app, app]
  exact a.append hqr.2 hxy.2

end

end Redsea
