import Verif.Model.CachedPI
import Verif.Lemmas.ListAux

/-
Properties C15, C16, C17: confirmation of PI codes.
-/

namespace Redsea

/-- What can happen to the PI cache: a PI code is received, or the channel resets the
cache (`Channel::resetPI`, called by the main loop when the carrier was lost). -/
inductive PIEvent where
  | recv (pi : Word)
  | reset
  deriving DecidableEq, Repr

/-- Effect of one event. -/
def CachedPI.event (c : CachedPI) : PIEvent → CachedPI
  | .recv p => (c.update p).1
  | .reset => c.reset

/-- The cache after a history of events, from start-up. -/
def piAfter (es : List PIEvent) : CachedPI := es.foldl CachedPI.event {}

theorem piAfter_snoc (es : List PIEvent) (e : PIEvent) :
    piAfter (es ++ [e]) = (piAfter es).event e := by
  simp [piAfter]

/-- What the cache knows about the history. -/
private structure PIInv (es : List PIEvent) (c : CachedPI) : Prop where
  /-- the newest entry is the last event -/
  newest : c.hasPrevious = true → ∃ es', es = es' ++ [.recv c.prev1]
  /-- the older entry is the event before, unless it was zeroed -/
  older : c.hasPrevious = true →
    (∃ es', es = es' ++ [.recv c.prev2, .recv c.prev1]) ∨ (c.prev2 = 0 ∧ c.confirmed = 0)
  /-- after a drop -/
  dropped : c.hasPrevious = false → c.confirmed = 0 ∧ c.prev2 = 0 ∧
    ((∃ es', es = es' ++ [.recv c.prev1]) ∨ c.prev1 = 0)

private theorem piInv (es : List PIEvent) : PIInv es (piAfter es) := by
  induction es using snocInduction with
  | nil => exact ⟨by simp [piAfter], by simp [piAfter], by simp [piAfter]⟩
  | snoc es e ih =>
    rw [piAfter_snoc]
    generalize piAfter es = c at ih
    cases e with
    | reset =>
      exact ⟨by simp [CachedPI.event, CachedPI.reset], by simp [CachedPI.event, CachedPI.reset],
        by simp [CachedPI.event, CachedPI.reset]⟩
    | recv p =>
      obtain ⟨conf, a, b, hp⟩ := c
      cases hp with
      | false =>
        obtain ⟨h1, h2, h3⟩ := ih.dropped rfl
        simp only at h1 h2 h3
        subst h1 h2
        have he : CachedPI.event ⟨0, a, 0, false⟩ (.recv p) = ⟨0, p, a, true⟩ := by
          simp [CachedPI.event, CachedPI.update, CachedPI.confirm, CachedPI.dropIfNoisy]
        rw [he]
        refine ⟨fun _ => ⟨es, rfl⟩, fun _ => ?_, by simp⟩
        rcases h3 with ⟨es', h3⟩ | h3
        · exact .inl ⟨es', by simp [h3]⟩
        · exact .inr ⟨h3, rfl⟩
      | true =>
        obtain ⟨es', h1⟩ := ih.newest rfl
        simp only at h1
        subst h1
        by_cases hn : (CachedPI.event ⟨conf, a, b, true⟩ (.recv p)).hasPrevious = true
        · have ha : (CachedPI.event ⟨conf, a, b, true⟩ (.recv p)).prev1 = p := rfl
          have hb : (CachedPI.event ⟨conf, a, b, true⟩ (.recv p)).prev2 = a := by
            revert hn
            simp only [CachedPI.event, CachedPI.update, CachedPI.confirm, CachedPI.dropIfNoisy]
            split <;> split <;> simp [CachedPI.reset]
          refine ⟨fun _ => ⟨_, by rw [ha]⟩, fun _ => .inl ⟨es', by rw [ha, hb]; simp⟩, ?_⟩
          intro h; rw [hn] at h; cases h
        · refine ⟨fun h => absurd h hn, fun h => absurd h hn, fun _ => ?_⟩
          revert hn
          simp only [CachedPI.event, CachedPI.update, CachedPI.confirm, CachedPI.dropIfNoisy]
          split <;> split <;> simp [CachedPI.reset]
          exact .inl ⟨es' ++ [.recv a], by simp⟩

/-- **C15.** For every history of received PI codes and cache resets: if receiving `p`
confirms a change of station, then the two events directly before it were receptions of
the same `p` (in particular there was no reset in between). -/
theorem C15_three_consecutive (es : List PIEvent) (p : Word)
    (h : ((piAfter es).update p).2 = .changeConfirmed) :
    ∃ es', es = es' ++ [.recv p, .recv p] := by
  have inv := piInv es
  generalize piAfter es = c at h inv
  obtain ⟨conf, a, b, hp⟩ := c
  cases hp with
  | false => simp [CachedPI.update, CachedPI.confirm] at h
  | true =>
    simp only [CachedPI.update, CachedPI.confirm] at h
    split at h
    · rename_i hc
      simp at hc
      obtain ⟨hab, hpa⟩ := hc
      subst hab hpa
      rcases inv.older rfl with h1 | ⟨h1, h2⟩
      · exact h1
      · simp only at h1 h2
        subst h1 h2
        simp at h
    · simp at h

/-- Non-trivial instance: the third reception of 0x6204 after a drop-out announces it. -/
example : ((piAfter [.recv 0x6204, .recv 0x1234, .reset, .recv 0x6204, .recv 0x6204]).update
    0x6204).2 = .changeConfirmed := by decide

/-- Two receptions never suffice, not even after another station (the hypothesis of C15 is
not met one reception earlier). -/
example : ((piAfter [.recv 1, .recv 1, .recv 1, .recv 0x6204]).update 0x6204).2 =
    .spuriousChange := by decide

/-- The results of receiving a list of PI codes one after the other. -/
def CachedPI.results : CachedPI → List Word → List PIResult
  | _, [] => []
  | c, p :: ps => (c.update p).2 :: CachedPI.results (c.update p).1 ps

/-- The cache after receiving a list of PI codes. -/
def CachedPI.feed (c : CachedPI) (ps : List Word) : CachedPI :=
  ps.foldl (fun c p => (c.update p).1) c

/-- No two codes in a row differ from `p`; `before` is the code received before. -/
def IsolatedErrors (p : Word) : Word → List Word → Prop
  | _, [] => True
  | before, x :: xs => (before = p ∨ x = p) ∧ IsolatedErrors p x xs

/-- **C16.** Let `p` be confirmed (in any state in which the cache has confirmed `p` and
just received it). However many of the following PI codes are wrong, as long as no two wrong
ones follow each other directly, no station change is announced, neither to another station
nor again to `p`, and `p` stays the confirmed code. -/
theorem C16_isolated_errors_harmless (c : CachedPI) (p : Word) (hc : c.confirmed = p)
    (h1 : c.prev1 = p) (hp : c.hasPrevious = true) (ps : List Word)
    (h : IsolatedErrors p p ps) :
    (∀ r ∈ c.results ps, r ≠ .changeConfirmed) ∧ (c.feed ps).get = p := by
  -- generalised: the last code may be wrong if the one before was right
  suffices H : ∀ (ps : List Word) (c : CachedPI), c.confirmed = p → c.hasPrevious = true →
      (c.prev1 = p ∨ c.prev2 = p) → IsolatedErrors p c.prev1 ps →
      (∀ r ∈ c.results ps, r ≠ .changeConfirmed) ∧ (c.feed ps).get = p from
    H ps c hc hp (.inl h1) (by rw [h1]; exact h)
  clear h h1 hp hc c ps
  intro ps
  induction ps with
  | nil => intro c hc _ _ _; exact ⟨by simp [CachedPI.results], hc⟩
  | cons x xs ih =>
    intro c hc hp h12 hi
    obtain ⟨conf, a, b, hp'⟩ := c
    simp only at hc hp h12
    subst hc hp
    obtain ⟨hi1, hi2⟩ := hi
    simp only at hi1
    have hu : (CachedPI.update ⟨conf, a, b, true⟩ x).2 ≠ .changeConfirmed ∧
        (CachedPI.update ⟨conf, a, b, true⟩ x).1 = ⟨conf, x, a, true⟩ := by
      simp only [CachedPI.update, CachedPI.confirm, CachedPI.dropIfNoisy]
      by_cases hax : a = conf
      · subst hax
        by_cases hx : x = a
        · subst hx; by_cases hb : x = b <;> simp [hb]
        · simp [hx]
      · have hx : x = conf := hi1.resolve_left hax
        have hb : b = conf := h12.resolve_left hax
        subst hx
        simp [hb, hax]
    have hrec := ih (CachedPI.update ⟨conf, a, b, true⟩ x).1 (by rw [hu.2]) (by rw [hu.2])
      (by rw [hu.2]; exact hi1.symm.imp id id) (by rw [hu.2]; exact hi2)
    refine ⟨?_, ?_⟩
    · intro r hr
      simp only [CachedPI.results, List.mem_cons] at hr
      rcases hr with hr | hr
      · rw [hr]; exact hu.1
      · exact hrec.1 r hr
    · simpa [CachedPI.feed] using hrec.2

/-- The hypotheses of C16 hold after any reception that announced a station. -/
theorem C16_applies_after_confirmation (c : CachedPI) (p : Word)
    (h : (c.update p).2 = .changeConfirmed) :
    (c.update p).1.confirmed = p ∧ (c.update p).1.prev1 = p ∧
      (c.update p).1.hasPrevious = true := by
  revert h
  simp only [CachedPI.update, CachedPI.confirm, CachedPI.dropIfNoisy]
  split <;> simp

example : IsolatedErrors 0x6204 0x6204 [0x6205, 0x6204, 0x6204, 0xFFFF, 0x6204, 0xFFFF, 0x6204] := by
  simp [IsolatedErrors]

/-- Limit of C16: two *different* wrong codes in a row make the cache forget the station; the
same PI is then announced again as a change (and `Channel::processGroup` throws away all
station data). -/
theorem C16_two_errors_reannounce_violated :
    CachedPI.results {} [7, 7, 7, 8, 9, 7, 7, 7] =
      [.spuriousChange, .spuriousChange, .changeConfirmed, .spuriousChange, .spuriousChange,
       .spuriousChange, .spuriousChange, .changeConfirmed] := by decide

/-- **C17** (all PI codes except 0x0000). In whatever state the cache is, three receptions
in a row of a PI code `p ≠ 0` make `p` the confirmed code, and if another code was confirmed
before, one of the three receptions announces the change.
Missing for the full property: `p = 0`, see `C17_pi_zero_violated`. -/
theorem C17_three_in_a_row_partial (c : CachedPI) (p : Word) (hp : p ≠ 0) :
    (c.feed [p, p, p]).get = p ∧
      (c.confirmed ≠ p → .changeConfirmed ∈ c.results [p, p, p]) := by
  obtain ⟨conf, a, b, hv⟩ := c
  have hp' : ¬ (0 : Word) = p := fun h => hp h.symm
  -- after the first reception
  have first : ∀ c : CachedPI, ∃ x h, (c.update p).1 = ⟨(c.update p).1.confirmed, p, x, h⟩ ∧
      (h = true ∨ (c.update p).1.confirmed = 0) ∧
      ((c.update p).2 = .changeConfirmed ∨ (c.update p).1.confirmed = c.confirmed ∨
        (c.update p).1.confirmed = 0) := by
    intro c
    simp only [CachedPI.update, CachedPI.confirm, CachedPI.dropIfNoisy]
    split <;> split <;> simp [CachedPI.reset]
    · rename_i h; exact .inl (by simpa using h)
  obtain ⟨x, h, he, hh, hann⟩ := first ⟨conf, a, b, hv⟩
  -- after the second
  have second : ∀ (k : Word), (h = true ∨ k = 0) →
      ∃ k', (CachedPI.update ⟨k, p, x, h⟩ p).1 = ⟨k', p, p, true⟩ ∧
        ((CachedPI.update ⟨k, p, x, h⟩ p).2 = .changeConfirmed ∨ k' = k) := by
    intro k hk
    cases h with
    | false => exact ⟨k, by simp [CachedPI.update, CachedPI.confirm, CachedPI.dropIfNoisy]⟩
    | true =>
      by_cases hx : p = x
      · subst hx
        refine ⟨p, by simp [CachedPI.update, CachedPI.confirm, CachedPI.dropIfNoisy], ?_⟩
        by_cases hkp : p = k
        · exact .inr hkp
        · exact .inl (by simp [CachedPI.update, CachedPI.confirm, hkp])
      · exact ⟨k, by simp [CachedPI.update, CachedPI.confirm, CachedPI.dropIfNoisy, hx]⟩
  obtain ⟨k', he2, hann2⟩ := second _ hh
  have third : (CachedPI.update ⟨k', p, p, true⟩ p).1.confirmed = p ∧
      ((CachedPI.update ⟨k', p, p, true⟩ p).2 = .changeConfirmed ∨ k' = p) := by
    by_cases hk : p = k' <;> simp [CachedPI.update, CachedPI.confirm, CachedPI.dropIfNoisy, hk]
  generalize (CachedPI.update ⟨conf, a, b, hv⟩ p).1.confirmed = k at *
  refine ⟨?_, fun hne => ?_⟩
  · simp only [CachedPI.feed, List.foldl, CachedPI.get]
    rw [he, he2]; exact third.1
  · simp only [CachedPI.results, List.mem_cons]
    rw [he, he2]
    rcases hann with h1 | h1 | h1
    · exact .inl h1.symm
    all_goals
      rcases hann2 with h2 | h2
      · exact .inr (.inl h2.symm)
      · rcases third.2 with h3 | h3
        · exact .inr (.inr (.inl h3.symm))
        · subst h3
          first
          | exact absurd (h1.symm.trans h2.symm) hne
          | exact absurd (h1.symm.trans h2.symm) hp'

/-- From start-up it is exactly the third group that announces the station. -/
theorem C17_startup_third_group (p : Word) (hp : p ≠ 0) :
    CachedPI.results {} [p, p, p] = [.spuriousChange, .spuriousChange, .changeConfirmed] := by
  have hp : ¬ p = 0#16 := hp
  simp [CachedPI.results, CachedPI.update, CachedPI.confirm, CachedPI.dropIfNoisy, hp]

/-- The full C17 is violated for the PI code 0x0000: however often it is received after
start-up, no station is ever announced, so nothing is ever decoded. -/
theorem C17_pi_zero_violated (n : Nat) :
    .changeConfirmed ∉ CachedPI.results {} (List.replicate n 0) := by
  suffices H : ∀ (n : Nat) (hp : Bool),
      .changeConfirmed ∉ CachedPI.results ⟨0, 0, 0, hp⟩ (List.replicate n 0) from H n false
  intro n
  induction n with
  | zero => intro hp; simp [CachedPI.results]
  | succ n ih =>
    intro hp
    rw [List.replicate_succ, CachedPI.results]
    have hu : CachedPI.update ⟨0, 0, 0, hp⟩ 0 =
        (⟨0, 0, 0, true⟩, (CachedPI.update ⟨0, 0, 0, hp⟩ 0).2) := by cases hp <;> rfl
    have h2 : (CachedPI.update ⟨0, 0, 0, hp⟩ 0).2 ≠ .changeConfirmed := by cases hp <;> decide
    rw [hu]
    simp only [List.mem_cons, not_or]
    exact ⟨h2.symm, ih true⟩

end Redsea
