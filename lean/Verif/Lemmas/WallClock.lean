import Verif.Lemmas.OutputOptionsRun
import Verif.Lemmas.ChannelParts
import Verif.Lemmas.Alike
import Verif.Spec.WallClock

/-
Lemmas for property C97: without `-t`, no time that is measured or given has an effect on what is printed.
-/

namespace Redsea
open _root_.Redsea.Spec

/-! ### The options of a station do not change -/

/-- The new station has the same options. -/
def KeepsOptions (st : Station) (x : Option (Station × List JOp)) : Prop := ∀ q, x = some q → q.1.options = st.options

section
variable {st : Station}

theorem ko_some {s : Station} {l : List JOp} (h : s.options = st.options) : KeepsOptions st (some (s, l)) := by
  intro q hq
  cases hq
  exact h

theorem ko_ite {p : Prop} [Decidable p] {x y : Option (Station × List JOp)} (hx : KeepsOptions st x) (hy : KeepsOptions st y) :
    KeepsOptions st (if p then x else y) := by
  split
  · exact hx
  · exact hy

theorem ko_bind {α : Type} {x : Option α} {f : α → Option (Station × List JOp)} (h : ∀ a, KeepsOptions st (f a)) :
    KeepsOptions st (x >>= f) := by
  intro q hq
  obtain ⟨a, -, ha⟩ := Option.bind_eq_some_iff.mp hq
  exact h a q ha

theorem ko_map {α : Type} {x : Option α} {f : α → Station × List JOp} (h : ∀ a, (f a).1.options = st.options) :
    KeepsOptions st (x.map f) := by
  intro q hq
  obtain ⟨a, -, rfl⟩ := Option.map_eq_some_iff.mp hq
  exact h a

theorem ko_ps (env : Env) (s : Station) (g : Group) : (s.decodePs env g).1.options = s.options := by
  unfold Station.decodePs
  split <;> rfl

/-- Goes through a decoder. -/
macro "keeps_options" : tactic => `(tactic|
  repeat' first
    | exact ko_some rfl
    | exact ko_some (ko_ps _ _ _)
    | refine ko_ite ?_ ?_
    | refine ko_bind fun _ => ?_
    | exact ko_map fun _ => rfl)

theorem ko_type0 (env : Env) (g : Group) : KeepsOptions st (st.decodeType0 env g) := by
  unfold Station.decodeType0
  keeps_options

theorem ko_type3A (g : Group) : KeepsOptions st (st.decodeType3A g) := by
  unfold Station.decodeType3A
  dsimp only
  keeps_options

theorem ko_type5 (env : Env) (g : Group) : KeepsOptions st (st.decodeType5 env g) := by
  intro q hq
  have h := opt_type5 env st st.options g
  rw [show st.opt st.options = st from rfl, hq] at h
  have e : q.1 = q.1.opt st.options := congrArg Prod.fst (Option.some.inj h)
  rw [e]
  rfl

theorem ko_type10A (env : Env) (g : Group) : (st.decodeType10A env g).1.options = st.options := by
  unfold Station.decodeType10A
  split <;> rfl

theorem ko_eon (env : Env) (g : Group) : KeepsOptions st (st.eonVariant env g) := by
  unfold Station.eonVariant
  dsimp only
  keeps_options

theorem ko_type14 (env : Env) (g : Group) : KeepsOptions st (st.decodeType14 env g) := by
  unfold Station.decodeType14
  dsimp only
  refine ko_ite (ko_some rfl) (ko_ite (ko_some rfl) (ko_ite (ko_some rfl) ?_))
  intro q hq
  obtain ⟨r, h1, h2⟩ := Option.bind_eq_some_iff.mp hq
  cases h2
  exact ko_eon env g r h1

theorem ko_tmc (env : Env) (g : Group) : KeepsOptions st (st.decodeTmc env g) := by
  unfold Station.decodeTmc
  keeps_options

theorem ko_oda (env : Env) (g : Group) : KeepsOptions st (st.decodeODAGroup env g) := by
  unfold Station.decodeODAGroup
  split
  · exact ko_some rfl
  · unfold Station.decodeODAApp
    dsimp only
    keeps_options

theorem ko_C (g : Group) : KeepsOptions st (st.decodeC g) := by
  unfold Station.decodeC
  dsimp only
  keeps_options

theorem ko_dispatch (env : Env) (g : Group) : KeepsOptions st (st.dispatch env g) := by
  unfold Station.dispatch
  dsimp only
  refine ko_ite (ko_C g) (ko_ite (ko_type0 env g) (ko_ite (ko_map fun _ => rfl) (ko_ite (ko_some rfl) (ko_ite (ko_type3A g)
    (ko_ite (ko_some rfl) (ko_ite (ko_some (ko_type10A env g)) (ko_ite (ko_type14 env g) (ko_ite (ko_map fun _ => rfl)
    (ko_ite (ko_oda env g) (ko_ite (ko_type5 env g) (ko_ite (ko_some rfl) (ko_ite (ko_some rfl) (ko_ite (ko_tmc env g)
    (ko_ite (ko_some rfl) (ko_ite (ko_some rfl) (ko_oda env g))))))))))))))))

end

theorem checkPI_options (st : Station) (g : Group) : (st.checkPI g).1.options = st.options := by
  unfold Station.checkPI
  repeat' split
  all_goals rfl

theorem update_options {env : Env} {st : Station} {g : Group} {q : Station × Option (List JOp)}
    (h : st.update env g = some q) : q.1.options = st.options := by
  unfold Station.update at h
  dsimp only at h
  split at h
  · cases h
    rfl
  · split at h
    · cases h
      exact checkPI_options st g
    · obtain ⟨b, -, h⟩ := Option.bind_eq_some_iff.mp h
      split at h
      · obtain ⟨r, h1, h⟩ := Option.bind_eq_some_iff.mp h
        cases h
        exact (ko_dispatch env g r h1).trans (checkPI_options st g)
      · cases h
        exact checkPI_options st g

theorem updateAndPrint_options {env : Env} {st : Station} {g : Group} {q : Station × Option Line}
    (h : st.updateAndPrint env g = some q) : q.1.options = st.options := by
  unfold Station.updateAndPrint at h
  obtain ⟨r, h1, h⟩ := Option.bind_eq_some_iff.mp h
  split at h
  · cases h
    exact update_options h1
  · obtain ⟨j, -, h⟩ := Option.bind_eq_some_iff.mp h
    cases h
    exact update_options h1

/-! ### One group -/

/-- A station without `-t` does not use the time of a group, or the format for times. -/
theorem update_untimed (env : Env) (f : Int → Str) (st : Station) (g : Group) (t : Option Int)
    (h : st.options.timestamp = false) : st.update (env.clock f) (g.tag t g.bler) = st.update env g := by
  have hh : st.headerOps (env.clock f) (g.tag t g.bler) = st.headerOps env g := by
    have ht : Station.timeOps (env.clock f) st (g.tag t g.bler) = Station.timeOps env st g := by
      unfold Station.timeOps
      rw [h, if_neg Bool.false_ne_true, if_neg Bool.false_ne_true]
    unfold Station.headerOps
    rw [ht]
    rfl
  have hc : st.checkPI (g.tag t g.bler) = st.checkPI g := rfl
  unfold Station.update
  rw [hh, hc]
  simp only [tag_dispatch, clock_dispatch, basics_tag, show (g.tag t g.bler).hasType = g.hasType from rfl]

theorem updateAndPrint_untimed (env : Env) (f : Int → Str) (st : Station) (g : Group) (t : Option Int)
    (h : st.options.timestamp = false) :
    st.updateAndPrint (env.clock f) (g.tag t g.bler) = st.updateAndPrint env g := by
  unfold Station.updateAndPrint
  rw [update_untimed env f st g t h]

/-! ### Channels -/

/-- A channel that remembers another time. -/
def Channel.late (c : Channel) (x : Int) : Channel := { c with lastRxTime := x }

/-- Times are off in the channel and in its station. -/
def Channel.TimesOff (c : Channel) : Prop := c.options.timestamp = false ∧ c.station.options.timestamp = false

theorem untimed_new (o : Options) (w : Nat) (h : o.timestamp = false) : (Channel.new o w).TimesOff := ⟨h, h⟩

section
variable {env : Env} {f : Int → Str} {c : Channel} (u : c.TimesOff)
include u

theorem untimed_late (x : Int) : (c.late x).TimesOff := u

theorem untimed_updatePI (g : Group) : (c.updatePI g).TimesOff := by
  unfold Channel.updatePI
  split
  · dsimp only
    split
    · exact ⟨u.1, u.1⟩
    · exact u
  · exact u

theorem untimed_output {g : Group} {q : Channel × Option Line} (h : c.output env g = some q) : q.1.TimesOff := by
  unfold Channel.output at h
  split at h
  · cases h
    exact u
  · obtain ⟨r, h1, h⟩ := Option.bind_eq_some_iff.mp h
    cases h
    exact ⟨u.1, by show r.1.options.timestamp = false; rw [updateAndPrint_options h1]; exact u.2⟩

theorem late_output (x : Int) (g : Group) (t : Option Int) :
    (c.late x).output (env.clock f) (g.tag t g.bler) = (c.output env g).map fun q => (q.1.late x, q.2) := by
  unfold Channel.output
  rw [show (c.late x).options = c.options from rfl, show (c.late x).station = c.station from rfl,
    updateAndPrint_untimed env f c.station g t u.2, u.1]
  split
  · rfl
  · cases c.station.updateAndPrint env g <;> rfl

omit u in
theorem late_bler (x : Int) (g : Group) (t : Option Int) :
    (c.late x).addBler (g.tag t g.bler) = (c.addBler g).map fun q => (q.1.late x, q.2.tag t q.2.bler) := by
  unfold Channel.addBler
  rw [show (c.late x).options = c.options from rfl, show (c.late x).blerAverage = c.blerAverage from rfl,
    show (g.tag t g.bler).getNumErrors = g.getNumErrors from rfl]
  split
  · cases c.blerAverage.push g.getNumErrors <;> rfl
  · rfl

theorem untimed_bler {g : Group} {q : Channel × Group} (h : c.addBler g = some q) : q.1.TimesOff := by
  unfold Channel.addBler at h
  split at h
  · obtain ⟨r, -, h⟩ := Option.bind_eq_some_iff.mp h
    cases h
    exact u
  · cases h
    exact u

omit u in
theorem late_pi (x : Int) (g : Group) (t : Option Int) : (c.late x).updatePI (g.tag t g.bler) = (c.updatePI g).late x := by
  unfold Channel.updatePI
  rw [show (g.tag t g.bler).hasPI = g.hasPI from rfl, show (g.tag t g.bler).getPI = g.getPI from rfl,
    show (c.late x).cachedPi = c.cachedPi from rfl]
  dsimp only
  split
  · split <;> rfl
  · rfl

theorem late_handle (x : Int) (g : Group) (t : Option Int) (n : Nat) :
    (c.late x).handleGroup (env.clock f) (g.tag t g.bler) n =
      (c.handleGroup env g n).map fun q => (q.1.late x, ⟨q.2.group.tag t q.2.group.bler, q.2.line⟩) := by
  unfold Channel.handleGroup
  rw [late_bler]
  cases h : c.addBler g with
  | none => rfl
  | some q =>
    have u1 := untimed_bler u h
    simp only [Option.map_some, Option.bind_eq_bind, Option.bind_some]
    rw [(mark_tag q.2 t q.2.bler n).1]
    have e : q.2.bler = (Channel.markStream q.2 n).bler := (mark_tag q.2 t q.2.bler n).2.2.symm
    rw [e, late_pi, late_output (untimed_updatePI u1 _)]
    cases (q.1.updatePI (Channel.markStream q.2 n)).output env (Channel.markStream q.2 n) <;> rfl

theorem untimed_handle {g : Group} {n : Nat} {q : Channel × Handled} (h : c.handleGroup env g n = some q) : q.1.TimesOff := by
  unfold Channel.handleGroup at h
  obtain ⟨r, h1, h⟩ := Option.bind_eq_some_iff.mp h
  obtain ⟨s, h2, h⟩ := Option.bind_eq_some_iff.mp h
  cases h
  exact untimed_output (untimed_updatePI (untimed_bler u h1) _) h2

theorem stamp_off (now : Int) (g : Group) : c.stampGroup now g = (c, g) := by
  unfold Channel.stampGroup
  rw [u.1]
  rfl

/-- A group is handled the same, whatever the clock and the time of the group. -/
theorem late_group (x : Int) (now now' : Int) (g : Group) (t : Option Int) (n : Nat) :
    (c.late x).processGroup (env.clock f) now' (g.tag t g.bler) n =
      (c.processGroup env now g n).map fun q => (q.1.late x, ⟨q.2.group.tag t q.2.group.bler, q.2.line⟩) := by
  unfold Channel.processGroup
  rw [stamp_off u, stamp_off (untimed_late u x)]
  exact late_handle u x g t n

theorem untimed_group {now : Int} {g : Group} {n : Nat} {q : Channel × Handled} (h : c.processGroup env now g n = some q) :
    q.1.TimesOff := by
  unfold Channel.processGroup at h
  rw [stamp_off u] at h
  exact untimed_handle u h

end

/-- Two channels without `-t` that have received the same at different times. -/
def TimeTwin (c d : Channel) : Prop := c.TimesOff ∧ ∃ x, d = c.late x

/-- The lines of two channels that have handled the same groups. -/
def SameOutput (q r : Channel × List Handled) : Prop :=
  TimeTwin q.1 r.1 ∧ printedLines (r.2.map .handled) = printedLines (q.2.map .handled)

section
variable {env : Env} (f : Int → Str)

theorem late_push (c : Channel) (x : Int) (b : Bool) (n : Nat) :
    (c.late x).pushBit b n = (c.pushBit b n).map fun q => (q.1.late x, q.2) := by
  unfold Channel.pushBit
  rw [show (c.late x).blockStreams = c.blockStreams from rfl]
  cases c.blockStreams[n]? <;> rfl

theorem off_push {c : Channel} (u : c.TimesOff) {b : Bool} {n : Nat} {q : Channel × Option Group}
    (h : c.pushBit b n = some q) : q.1.TimesOff := by
  unfold Channel.pushBit at h
  obtain ⟨s, -, h⟩ := Option.bind_eq_some_iff.mp h
  cases h
  exact u

theorem times_push {c d : Channel} (w : TimeTwin c d) (b : Bool) (n : Nat) :
    Pairs True (fun q r => TimeTwin q.1 r.1 ∧ r.2 = q.2) (c.pushBit b n) (d.pushBit b n) := by
  obtain ⟨u, x, rfl⟩ := w
  rw [late_push]
  cases h : c.pushBit b n with
  | none => exact pairs_none
  | some q => exact pairs_some ⟨⟨off_push u h, x, rfl⟩, rfl⟩

theorem times_group {c d : Channel} (w : TimeTwin c d) (now now' : Int) (g : Group) (t : Option Int) (n : Nat) :
    Pairs True (fun q r => TimeTwin q.1 r.1 ∧ r.2.line = q.2.line) (c.processGroup env now g n)
      (d.processGroup (env.clock f) now' (g.tag t g.bler) n) := by
  obtain ⟨u, x, rfl⟩ := w
  rw [late_group u x now]
  cases h : c.processGroup env now g n with
  | none => exact pairs_none
  | some q => exact pairs_some ⟨⟨untimed_group u h, x, rfl⟩, rfl⟩

theorem printed_cons (h : Handled) (l : List Handled) :
    printedLines ((h :: l).map .handled) = h.line.toList ++ printedLines (l.map .handled) := by
  rw [List.map_cons, printedLines_one]
  congr 1

theorem times_cons {q r : Channel × Handled} {x y : Channel × List Handled} (h1 : r.2.line = q.2.line)
    (h2 : SameOutput x y) : SameOutput (x.1, q.2 :: x.2) (y.1, r.2 :: y.2) := by
  refine ⟨h2.1, ?_⟩
  rw [printed_cons, printed_cons, h1, h2.2]

theorem times_bits {delay delay' : Nat → Int} {t t' : Int} {n : Nat} (bits : List Bool) {c d : Channel} (w : TimeTwin c d) :
    Pairs True SameOutput (Channel.processBits env delay t n c bits) (Channel.processBits (env.clock f) delay' t' n d bits) := by
  induction bits generalizing c d with
  | nil => exact pairs_some ⟨w, rfl⟩
  | cons b bits ih =>
    rw [Channel.processBits, Channel.processBits]
    refine pairs_bind (times_push w b n) fun q r hqr => ?_
    rw [hqr.2]
    cases q.2 with
    | none => exact ih hqr.1
    | some g =>
      refine pairs_bind (times_group f hqr.1 0 0 (g.setTime _) (some _) n) fun x y hxy => ?_
      refine pairs_bind (ih ?_) fun k l hkl => pairs_some (times_cons hxy.2 hkl)
      obtain ⟨u, z, e⟩ := hxy.1
      rw [e]
      exact ⟨u, _, rfl⟩

theorem times_flush {now now' : Nat → Int} (l : List Nat) {c d : Channel} (w : TimeTwin c d) :
    Pairs True SameOutput (Channel.flushStreams env now c l) (Channel.flushStreams (env.clock f) now' d l) := by
  induction l generalizing c d with
  | nil => exact pairs_some ⟨w, rfl⟩
  | cons i l ih =>
    rw [Channel.flushStreams, Channel.flushStreams, show d.blockStreams = c.blockStreams by
      obtain ⟨-, x, rfl⟩ := w; rfl]
    refine pairs_bind_same _ fun s _ => ?_
    dsimp only
    split
    · exact ih w
    · refine pairs_bind (times_group f w (now i) (now' i) s.flushCurrentGroup s.flushCurrentGroup.time i) fun x y hxy => ?_
      exact pairs_bind (ih hxy.1) fun k l hkl => pairs_some (times_cons hxy.2 hkl)

/-- Without `-t`, the clock, the delay of bits and the format of times do not matter. -/
theorem alike_clocks (delay delay' : Nat → Int) :
    Alike True env (env.clock f) delay delay' TimeTwin (fun _ _ => True) (fun a b => b = a) where
  nil := rfl
  append h1 h2 := by rw [h1, h2]
  streams := by
    rintro c d ⟨-, x, rfl⟩
    rfl
  reset := by
    rintro c d ⟨u, x, rfl⟩
    exact ⟨u, x, rfl⟩
  bits n l w _ := times_bits f l w
  flush w _ := times_flush f [1, 2, 3] w

/-! ### Calls -/

theorem times_step {delay delay' : Nat → Int} {c d : Channel} {e e' : ChannelEvent} (w : TimeTwin c d) (he : SameCall e e') :
    Pairs True (fun q r => TimeTwin q.1 r.1 ∧ printedLines r.2 = printedLines q.2) (c.step env delay e)
      (d.step (env.clock f) delay' e') := by
  cases he with
  | bit t t' b n =>
    refine pairs_map (R := SameOutput) ?_ fun q r h => h
    unfold Channel.processBit
    refine pairs_bind (times_push w b n) fun q r hqr => ?_
    rw [hqr.2]
    cases q.2 with
    | none => exact pairs_some ⟨hqr.1, rfl⟩
    | some g =>
      exact pairs_bind (times_group f hqr.1 t t' g g.time n) fun x y hxy =>
        pairs_some (times_cons (x := (x.1, [])) (y := (y.1, [])) hxy.2 ⟨hxy.1, rfl⟩)
  | bits t t' l n => exact pairs_map (times_bits f l w) fun q r h => h
  | group t t' g n =>
    refine pairs_map (times_group f w t t' g g.time n) fun q r h => ⟨h.1, ?_⟩
    exact (times_cons (x := (q.1, [])) (y := (r.1, [])) h.2 ⟨h.1, rfl⟩).2
  | flush now now' => exact pairs_map (times_flush f _ w) fun q r h => h
  | resetPI => exact pairs_some ⟨(alike_clocks (env := env) f delay delay').reset w, rfl⟩

theorem times_run_times {delay delay' : Nat → Int} {es es' : List ChannelEvent} (he : List.Forall₂ SameCall es es') {c d : Channel}
    (w : TimeTwin c d) :
    Pairs True (fun q r => printedLines r.2 = printedLines q.2) (Channel.run env delay c es)
      (Channel.run (env.clock f) delay' d es') := by
  induction he generalizing c d with
  | nil => exact pairs_some rfl
  | cons hx _ ih =>
    rw [Channel.run, Channel.run]
    refine pairs_bind (times_step f w hx) fun q r hqr => pairs_bind (ih hqr.1) fun x y hxy => pairs_some ?_
    have app : ∀ a b : List Trace, printedLines (a ++ b) = printedLines a ++ printedLines b := fun a b => List.filterMap_append
    rw [app, app, hqr.2, hxy]

end

end Redsea
