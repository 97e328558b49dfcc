import Verif.Lemmas.AltFreq

/-
Frequency lists and the codes they were received as.
-/

namespace Redsea

open Spec

theorem listBody_snoc_inv {cs : List Nat} {c : Nat} {fs' : List Int} {p' : Bool}
    (h : ListBody (cs ++ [c]) fs' p') :
    ∃ fs p, ListBody cs fs p ∧
      ((p = false ∧ 1 ≤ c ∧ c ≤ 204 ∧ fs' = fs ++ [fmKhz c] ∧ p' = false) ∨
       (p = true ∧ 1 ≤ c ∧ c ≤ 135 ∧ fs' = fs ++ [lfMfKhz c] ∧ p' = false) ∨
       ((c = 205 ∨ c = 224) ∧ fs' = fs ∧ p' = false) ∨
       (c = 250 ∧ fs' = fs ∧ p' = true)) := by
  generalize he : cs ++ [c] = l at h
  cases h with
  | start => simp at he
  | fm h h1 h2 =>
    obtain ⟨rfl, hc⟩ := List.append_inj' he rfl
    simp only [List.cons.injEq, and_true] at hc; subst hc
    exact ⟨_, _, h, .inl ⟨rfl, h1, h2, rfl, rfl⟩⟩
  | lfMf h h1 h2 =>
    obtain ⟨rfl, hc⟩ := List.append_inj' he rfl
    simp only [List.cons.injEq, and_true] at hc; subst hc
    exact ⟨_, _, h, .inr (.inl ⟨rfl, h1, h2, rfl, rfl⟩)⟩
  | filler h h1 =>
    obtain ⟨rfl, hc⟩ := List.append_inj' he rfl
    simp only [List.cons.injEq, and_true] at hc; subst hc
    exact ⟨_, _, h, .inr (.inr (.inl ⟨h1, rfl, rfl⟩))⟩
  | lfMfFollows h =>
    obtain ⟨rfl, hc⟩ := List.append_inj' he rfl
    simp only [List.cons.injEq, and_true] at hc; subst hc
    exact ⟨_, _, h, .inr (.inr (.inr ⟨rfl, rfl, rfl⟩))⟩

theorem listBody_nil_inv {fs : List Int} {p : Bool} (h : ListBody [] fs p) : fs = [] ∧ p = false := by
  generalize he : ([] : List Nat) = l at h
  cases h <;> simp at he <;> simp

theorem listBody_prefix {cs : List Nat} {c : Nat} {fs' : List Int} {p' : Bool}
    (h : ListBody (cs ++ [c]) fs' p') :
    ∃ fs p, ListBody cs fs p ∧ fs <+: fs' := by
  obtain ⟨fs, p, h1, h2⟩ := listBody_snoc_inv h
  refine ⟨fs, p, h1, ?_⟩
  rcases h2 with ⟨-, -, -, rfl, -⟩ | ⟨-, -, -, rfl, -⟩ | ⟨-, rfl, -⟩ | ⟨-, rfl, -⟩ <;> simp

/-- The list is receiving the `n` announced frequencies and has `fs` so far. -/
structure Tracks (l : AltFreqList) (n : Nat) (fs : List Int) (p : Bool) : Prop where
  wf : AfWF l
  expected : l.numExpected = n
  received : l.numReceived = fs.length
  raw : l.freqs.take l.numReceived = fs
  follows : l.lfMfFollows = p

theorem tracks_announce {l : AltFreqList} (wf : AfWF l) {n : Nat} (h1 : 1 ≤ n) (h2 : n ≤ 25) :
    ∃ l', l.insert (224 + n) = some l' ∧ Tracks l' n [] false := by
  rcases insert_cases l (224 + n) wf with h | h | h | h | h
  · have := h.2.1; split at this <;> omega
  · rcases h.2 with h | h
    · have := h.2.1; split at this <;> omega
    · have := h.2.2.2.1; omega
  · have := h.1; omega
  · refine ⟨_, h.2.2, ⟨wf.len, Nat.zero_le _, by simp; omega, by simp⟩, by simp, rfl, by simp, rfl⟩
  · have := h.1; omega

theorem tracks_snoc_freq {l : AltFreqList} {n : Nat} {fs : List Int} {p : Bool} (t : Tracks l n fs p)
    (hlt : fs.length < n) (f : Int) (hf : 153 ≤ f ∧ f ≤ 107900) :
    Tracks { l with freqs := l.freqs.set l.numReceived f, numReceived := l.numReceived + 1,
                    lfMfFollows := false } n (fs ++ [f]) false := by
  obtain ⟨⟨len, rle, ele, ran⟩, te, tr, traw, tf⟩ := t
  refine ⟨⟨by simp [len], by simp; omega, ele, fun x hx => (mem_take_set hx).elim (fun e => e ▸ hf) (ran x)⟩, te,
    by simp [tr], ?_, rfl⟩
  have hlt' : l.numReceived < (l.freqs.set l.numReceived f).length := by simp; omega
  simp only
  rw [List.take_succ_eq_append_getElem hlt']
  simp only [List.take_set_of_le (Nat.le_refl _), List.getElem_set_self, traw]

theorem tracks_step {l : AltFreqList} {n : Nat} {cs : List Nat} {c : Nat} {fs' : List Int}
    {p' : Bool} (h : ListBody (cs ++ [c]) fs' p') (hle : fs'.length ≤ n)
    (ht : ∀ fs p, ListBody cs fs p → fs <+: fs' → Tracks l n fs p) :
    ∃ l', l.insert c = some l' ∧ Tracks l' n fs' p' := by
  obtain ⟨fs, p, hb, hc⟩ := listBody_snoc_inv h
  have hpre : fs <+: fs' := by
    rcases hc with ⟨-, -, -, rfl, -⟩ | ⟨-, -, -, rfl, -⟩ | ⟨-, rfl, -⟩ | ⟨-, rfl, -⟩ <;> simp
  have t := ht fs p hb hpre
  have ic := insert_cases l c t.wf
  rw [t.follows] at ic
  rcases hc with ⟨rfl, h1, h2, rfl, rfl⟩ | ⟨rfl, h1, h2, rfl, rfl⟩ | ⟨h1, rfl, rfl⟩ | ⟨h1, rfl, rfl⟩
  · simp only [Bool.false_eq_true, if_false] at ic
    simp only [List.length_append, List.length_singleton] at hle
    rcases ic with h | h | h | h | h
    · exact ⟨_, h.2.2.2, tracks_snoc_freq t (by omega) _ (khz_range false c h1 h2)⟩
    · rcases h.2 with h | h
      · have := t.received; have := t.expected; omega
      · omega
    · omega
    · omega
    · omega
  · simp only [if_true] at ic
    simp only [List.length_append, List.length_singleton] at hle
    rcases ic with h | h | h | h | h
    · exact ⟨_, h.2.2.2, tracks_snoc_freq t (by omega) _ (khz_range true c h1 h2)⟩
    · rcases h.2 with h | h
      · have := t.received; have := t.expected; omega
      · omega
    · omega
    · omega
    · omega
  · have hno : ¬ c ≤ (if p then 135 else 204) := by split <;> omega
    rcases ic with h | h | h | h | h
    · exact absurd h.2.1 hno
    · rcases h.2 with h | h
      · exact absurd h.2.1 hno
      · omega
    · exact ⟨_, h.2, ⟨t.wf.len, t.wf.rec_le, t.wf.exp_le, t.wf.range⟩, t.expected, t.received, t.raw, rfl⟩
    · omega
    · omega
  · have hno : ¬ c ≤ (if p then 135 else 204) := by split <;> omega
    rcases ic with h | h | h | h | h
    · exact absurd h.2.1 hno
    · rcases h.2 with h | h
      · exact absurd h.2.1 hno
      · omega
    · omega
    · omega
    · exact ⟨_, h.2, ⟨t.wf.len, t.wf.rec_le, t.wf.exp_le, t.wf.range⟩, t.expected, t.received, t.raw, rfl⟩

/-- Codes as operations. -/
def insAll (l : AltFreqList) (cs : List Nat) : Option AltFreqList :=
  cs.foldl (fun l c => l.bind (·.insert c)) (some l)

theorem insAll_snoc (l : AltFreqList) (cs : List Nat) (c : Nat) :
    insAll l (cs ++ [c]) = (insAll l cs).bind (·.insert c) := by simp [insAll]

theorem insAll_cons (l l' : AltFreqList) (cs : List Nat) (c : Nat) (h : l.insert c = some l') :
    insAll l (c :: cs) = insAll l' cs := by simp [insAll, h]

theorem tracks_insAll {l : AltFreqList} {n : Nat} (t : Tracks l n [] false) {cs : List Nat}
    {fs : List Int} {p : Bool} (h : ListBody cs fs p) (hle : fs.length ≤ n) :
    ∃ l', insAll l cs = some l' ∧ Tracks l' n fs p := by
  induction cs using snocInduction generalizing fs p with
  | nil => obtain ⟨rfl, rfl⟩ := listBody_nil_inv h; exact ⟨l, rfl, t⟩
  | snoc cs c ih =>
    obtain ⟨fs1, p1, hb1, hpre⟩ := listBody_prefix h
    have hl := hpre.length_le
    obtain ⟨l1, hi, _⟩ := ih hb1 (by omega)
    rw [insAll_snoc, hi]
    refine tracks_step h hle fun fs2 p2 hb2 hpre2 => ?_
    have hl2 := hpre2.length_le
    obtain ⟨l2, hi2, t2⟩ := ih hb2 (by omega)
    rw [hi] at hi2
    cases hi2
    exact t2

/-- Conversely: the origin of what the list holds. `codes` are all codes inserted so far. -/
structure AfOrigin (codes : List Nat) (l : AltFreqList) : Prop where
  wf : AfWF l
  origin : 0 < l.numExpected → ∃ pre cs, codes = pre ++ (224 + l.numExpected) :: cs ∧
    ListBody cs (l.freqs.take l.numReceived) l.lfMfFollows

theorem afOrigin_insert {codes : List Nat} {l : AltFreqList} (o : AfOrigin codes l) (c : Nat) :
    ∃ l', l.insert c = some l' ∧ AfOrigin (codes ++ [c]) l' := by
  obtain ⟨l', hl', wf'⟩ := afWF_insert o.wf c
  refine ⟨l', hl', wf', ?_⟩
  have len := o.wf.len
  rcases insert_cases l c o.wf with h | h | h | h | h
  · obtain ⟨h1, h2, h3, h4⟩ := h
    rw [h4] at hl'
    cases hl'
    intro hpos
    obtain ⟨pre, cs, hc, hb⟩ := o.origin hpos
    refine ⟨pre, cs ++ [c], by simp [hc], ?_⟩
    have hlt' : l.numReceived <
        (l.freqs.set l.numReceived (if l.lfMfFollows = true then lfMfKhz c else fmKhz c)).length := by
      have := o.wf.exp_le; simp; omega
    dsimp only
    rw [List.take_succ_eq_append_getElem hlt']
    simp only [List.take_set_of_le (Nat.le_refl _), List.getElem_set_self]
    cases hp : l.lfMfFollows
    · rw [hp] at hb h2
      simp only [Bool.false_eq_true, if_false] at h2 ⊢
      exact .fm hb h1 h2
    · rw [hp] at hb h2
      simp only [if_true] at h2 ⊢
      exact .lfMf hb h1 h2
  · rw [h.1] at hl'; cases hl'
    intro hpos; simp at hpos
  · obtain ⟨h1, h2⟩ := h
    rw [h2] at hl'; cases hl'
    intro hpos
    obtain ⟨pre, cs, hc, hb⟩ := o.origin hpos
    exact ⟨pre, cs ++ [c], by simp [hc], .filler hb h1⟩
  · obtain ⟨h1, h2, h3⟩ := h
    rw [h3] at hl'; cases hl'
    intro hpos
    refine ⟨codes, [], ?_, by simpa using ListBody.start⟩
    dsimp only
    rw [show 224 + (c - 224) = c by omega]
  · obtain ⟨h1, h2⟩ := h
    rw [h2] at hl'; cases hl'
    intro hpos
    obtain ⟨pre, cs, hc, hb⟩ := o.origin hpos
    exact ⟨pre, cs ++ [c], by simp [hc], by rw [h1]; exact .lfMfFollows hb⟩

theorem afOrigin_clear {codes : List Nat} {l : AltFreqList} (o : AfOrigin codes l) :
    AfOrigin codes l.clear := ⟨afWF_clear o.wf, fun h => by simp [AltFreqList.clear] at h⟩

end Redsea
