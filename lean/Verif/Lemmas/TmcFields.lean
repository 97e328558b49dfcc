import Verif.Spec.TmcMessage
import Verif.Props.TmcMulti

/-
The message that results from its fields.
-/

namespace Redsea

open _root_.Redsea.Spec Message

theorem dataOf_snoc (l : Nat) (fs : List (Nat × Nat)) (f : Nat × Nat) :
    dataOf l (fs ++ [f]) = dataOf l fs ++ if f.1 = l then [f.2] else [] := by
  unfold dataOf
  rw [List.filter_append, List.map_append]
  congr 1
  by_cases h : f.1 = l
  · simp [h]
  · simp [h]

theorem controlCount_snoc (c : Nat) (fs : List (Nat × Nat)) (f : Nat × Nat) :
    controlCount c (fs ++ [f]) = controlCount c fs + if f = (1, c) then 1 else 0 := by
  unfold controlCount
  rw [dataOf_snoc, List.count_append]
  congr 1
  obtain ⟨a, b⟩ := f
  by_cases h : a = 1
  · by_cases h2 : b = c
    · simp [h, h2]
    · simp [h, h2]
  · simp [h]

theorem eventParts_ne (c : Nat) (fs : List (Nat × Nat)) : eventParts c fs ≠ [] := by
  induction fs generalizing c with
  | nil => simp [eventParts]
  | cons f fs ih =>
    unfold eventParts
    split
    · simp
    · have := ih c
      split
      · contradiction
      · simp

/-- One more field: either a new event, or a field that follows the last event. -/
theorem eventParts_snoc (c : Nat) (fs : List (Nat × Nat)) (f : Nat × Nat) :
    ∃ init last, eventParts c fs = init ++ [last] ∧
      eventParts c (fs ++ [f]) =
        if f.1 = 9 then init ++ [last, (f.2, [])] else init ++ [(last.1, last.2 ++ [f])] := by
  induction fs generalizing c with
  | nil =>
    refine ⟨[], (c, []), rfl, ?_⟩
    rw [List.nil_append, eventParts]
    split <;> rfl
  | cons g fs ih =>
    rw [List.cons_append, eventParts, eventParts]
    by_cases hg : g.1 = 9
    · rw [if_pos hg, if_pos hg]
      obtain ⟨init, last, h1, h2⟩ := ih g.2
      refine ⟨(c, []) :: init, last, by rw [h1]; rfl, ?_⟩
      rw [h2]
      split <;> rfl
    · rw [if_neg hg, if_neg hg]
      obtain ⟨init, last, h1, h2⟩ := ih c
      rw [h1, h2]
      cases init with
      | nil =>
        refine ⟨[], (last.1, g :: last.2), rfl, ?_⟩
        by_cases hf : f.1 = 9
        · rw [if_pos hf, if_pos hf]; rfl
        · rw [if_neg hf, if_neg hf]; rfl
      | cons p init =>
        refine ⟨(p.1, g :: p.2) :: init, last, rfl, ?_⟩
        by_cases hf : f.1 = 9
        · rw [if_pos hf, if_pos hf]; rfl
        · rw [if_neg hf, if_neg hf]; rfl

theorem eventParts_codes (c : Nat) (fs : List (Nat × Nat)) :
    (eventParts c fs).map (·.1) = c :: dataOf 9 fs := by
  induction fs generalizing c with
  | nil => rfl
  | cons g fs ih =>
    rw [eventParts]
    by_cases hg : g.1 = 9
    · rw [if_pos hg, List.map_cons, ih]
      simp [dataOf, hg]
    · rw [if_neg hg]
      have := ih c
      cases h : eventParts c fs with
      | nil => exact absurd h (eventParts_ne c fs)
      | cons p more =>
        rw [h] at this
        simp only [List.map_cons] at this ⊢
        rw [this]
        simp [dataOf, hg]

theorem turnUrgency_add (v : Urgency) (a b : Nat) :
    turnUrgency (turnUrgency v a) b = turnUrgency v (a + b) := by
  have ha : a % 3 < 3 := Nat.mod_lt _ (by decide)
  have hb : b % 3 < 3 := Nat.mod_lt _ (by decide)
  have h : (a + b) % 3 = (a % 3 + b % 3) % 3 := Nat.add_mod a b 3
  unfold turnUrgency
  rw [h]
  generalize a % 3 = a at *
  generalize b % 3 = b at *
  cases v <;> match a, b, ha, hb with
    | 0, 0, _, _ | 0, 1, _, _ | 0, 2, _, _ | 1, 0, _, _ | 1, 1, _, _ | 1, 2, _, _ | 2, 0, _, _ | 2, 1, _, _
    | 2, 2, _, _ => rfl

theorem increase_turn (v : Urgency) : increaseUrgency v = turnUrgency v 1 := by cases v <;> rfl
theorem reduce_turn (v : Urgency) : reduceUrgency v = turnUrgency v 2 := by cases v <;> rfl

/-- The quantifier held for the event with this position. -/
def HoldsQuantifiers (env : TmcEnv) (qs : List (Nat × Nat)) (parts : List (Nat × List (Nat × Nat))) : Prop :=
  ∀ i, qs.lookup i = (parts[i]?).bind fun p => quantifierOf (env.getEvent p.1) p.2

/-- What is known about the message after its fields. -/
structure FieldFacts (env : TmcEnv) (m0 m : Message) (c : Nat) (fs : List (Nat × Nat)) : Prop where
  events : m.events = c :: dataOf 9 fs
  supplementary : m.supplementary = m0.supplementary ++ dataOf 6 fs
  diversion : m.diversion = m0.diversion ++ dataOf 10 fs
  speedLimit : m.speedLimit = ((dataOf 3 fs).getLast?.map fun v => v * 5 % 2 ^ 16).or m0.speedLimit
  starts : m.timeStarts = (dataOf 7 fs).getLast?.or m0.timeStarts
  until_ : m.timeUntil = (dataOf 8 fs).getLast?.or m0.timeUntil
  extent : m.extent % 2 ^ 16 = (m0.extent + 8 * controlCount 6 fs + 16 * controlCount 7 fs) % 2 ^ 16
  extentLt : m0.extent < 2 ^ 16 → m.extent < 2 ^ 16
  both : m.both = (m0.both ^^ decide (controlCount 2 fs % 2 = 1))
  urgency : m.urgency = turnUrgency m0.urgency (controlCount 0 fs + 2 * controlCount 1 fs)
  quantifiers : HoldsQuantifiers env m.quantifiers (eventParts c fs)
  complete : m.isComplete = m0.isComplete
  location : m.location = m0.location
  encryptedLocation : m.encryptedLocation = m0.encryptedLocation
  isEncrypted : m.isEncrypted = m0.isEncrypted
  wasEncrypted : m.wasEncrypted = m0.wasEncrypted
  negative : m.negative = m0.negative

theorem quantifierOf_snoc (e : Event) (l : List (Nat × Nat)) (f : Nat × Nat) :
    quantifierOf e (l ++ [f]) =
      (quantifierOf e l).or
        (if e.allowsQuantifier = true ∧ f.1 = (if getQuantifierSize e.quantifierType = 5 then 4 else 5)
         then some f.2 else none) := by
  unfold quantifierOf
  cases e.allowsQuantifier with
  | false => simp
  | true =>
    simp only [if_true, true_and]
    rw [dataOf_snoc, List.head?_append]
    congr 1
    generalize (if getQuantifierSize e.quantifierType = 5 then 4 else 5) = l
    by_cases h : f.1 = l
    · rw [if_pos h, if_pos h]; rfl
    · rw [if_neg h, if_neg h]; rfl

theorem holds_event {env : TmcEnv} {qs : List (Nat × Nat)} {init : List (Nat × List (Nat × Nat))}
    {last : Nat × List (Nat × Nat)} (h : HoldsQuantifiers env qs (init ++ [last])) (d : Nat) :
    HoldsQuantifiers env qs (init ++ [last, (d, [])]) := by
  intro i
  rw [show init ++ [last, (d, [])] = (init ++ [last]) ++ [(d, [])] by simp, List.getElem?_append, h i]
  split
  · rfl
  · rename_i hi
    rw [List.getElem?_eq_none (by omega)]
    rcases Nat.eq_zero_or_pos (i - (init ++ [last]).length) with h0 | h0
    · rw [h0]
      simp [quantifierOf, dataOf]
    · rw [List.getElem?_eq_none (by simp; simp at h0; omega)]

theorem holds_follow {env : TmcEnv} {qs qs' : List (Nat × Nat)} {init : List (Nat × List (Nat × Nat))}
    {last : Nat × List (Nat × Nat)} (h : HoldsQuantifiers env qs (init ++ [last])) (f : Nat × Nat)
    (hne : ∀ i, i ≠ init.length → qs'.lookup i = qs.lookup i)
    (heq : qs'.lookup init.length = quantifierOf (env.getEvent last.1) (last.2 ++ [f])) :
    HoldsQuantifiers env qs' (init ++ [(last.1, last.2 ++ [f])]) := by
  intro i
  by_cases hi : i = init.length
  · rw [hi, heq]
    simp
  · rw [hne i hi, h i, List.getElem?_append, List.getElem?_append]
    split
    · rfl
    · rw [List.getElem?_eq_none (by simp; omega), List.getElem?_eq_none (by simp; omega)]

theorem holds_at {env : TmcEnv} {qs : List (Nat × Nat)} {init : List (Nat × List (Nat × Nat))}
    {last : Nat × List (Nat × Nat)} (h : HoldsQuantifiers env qs (init ++ [last])) :
    qs.lookup init.length = quantifierOf (env.getEvent last.1) last.2 := by
  rw [h]
  simp

theorem quantifierSize_cases (t : QuantifierType) : getQuantifierSize t = 5 ∨ getQuantifierSize t = 8 := by
  cases t <;> simp [getQuantifierSize]

/-- The quantifier of the last event. -/
theorem holds_quantifier {env : TmcEnv} {m : Message} {init : List (Nat × List (Nat × Nat))}
    {last : Nat × List (Nat × Nat)} (he : m.events = (init ++ [last]).map (·.1))
    (h : HoldsQuantifiers env m.quantifiers (init ++ [last])) (label size data : Nat)
    (hl : label = 4 ∧ size = 5 ∨ label = 5 ∧ size = 8) :
    HoldsQuantifiers env (m.quantifier env size data).quantifiers (init ++ [(last.1, last.2 ++ [(label, data)])]) := by
  have hat := holds_at h
  have hlen : m.events.length - 1 = init.length := by rw [he]; simp
  have hlast : m.events.getLast? = some last.1 := by rw [he]; simp
  have hsz : label = (if getQuantifierSize (env.getEvent last.1).quantifierType = 5 then 4 else 5) ↔
      getQuantifierSize (env.getEvent last.1).quantifierType = size := by
    rcases quantifierSize_cases (env.getEvent last.1).quantifierType with h5 | h5 <;> rw [h5] <;>
      rcases hl with ⟨rfl, rfl⟩ | ⟨rfl, rfl⟩ <;> decide
  unfold quantifier
  rw [hlast, hlen, hat]
  dsimp only
  split
  · rename_i hc
    obtain ⟨hc1, hc2, hc3⟩ := hc
    dsimp only
    refine holds_follow h _ ?_ ?_
    · intro i hi
      rw [List.lookup_append]
      have : ((init.length, data) :: []).lookup i = none := by
        simp [List.lookup, beq_eq_false_iff_ne.mpr hi]
      rw [this, Option.or_none]
    · rw [List.lookup_append, hat, quantifierOf_snoc, if_pos ⟨hc2, hsz.mpr hc3⟩]
      simp [List.lookup]
  · rename_i hc
    refine holds_follow h _ (fun _ _ => rfl) ?_
    rw [hat, quantifierOf_snoc]
    cases hq : quantifierOf (env.getEvent last.1) last.2 with
    | some q => rfl
    | none =>
      rw [if_neg]
      · rfl
      · intro hx
        exact hc ⟨by rw [hq]; rfl, hx.1, hsz.mp hx.2⟩

/-- A field that is no event and no quantifier. -/
theorem holds_other {env : TmcEnv} {qs : List (Nat × Nat)} {init : List (Nat × List (Nat × Nat))}
    {last : Nat × List (Nat × Nat)} (h : HoldsQuantifiers env qs (init ++ [last])) (f : Nat × Nat)
    (h4 : f.1 ≠ 4) (h5 : f.1 ≠ 5) : HoldsQuantifiers env qs (init ++ [(last.1, last.2 ++ [f])]) := by
  refine holds_follow h f (fun _ _ => rfl) ?_
  rw [holds_at h, quantifierOf_snoc, if_neg, Option.or_none]
  rintro ⟨-, hx⟩
  split at hx <;> contradiction

/-- The effect of one field on each member. -/
theorem field_step (env : TmcEnv) (m : Message) (label d : Nat) :
    (m.field env (label, d)).events = m.events ++ (if label = 9 then [d] else []) ∧
    (m.field env (label, d)).supplementary = m.supplementary ++ (if label = 6 then [d] else []) ∧
    (m.field env (label, d)).diversion = m.diversion ++ (if label = 10 then [d] else []) ∧
    (m.field env (label, d)).speedLimit = (if label = 3 then some (d * 5 % 2 ^ 16) else m.speedLimit) ∧
    (m.field env (label, d)).timeStarts = (if label = 7 then some d else m.timeStarts) ∧
    (m.field env (label, d)).timeUntil = (if label = 8 then some d else m.timeUntil) ∧
    (m.field env (label, d)).extent = (if (label, d) = (1, 6) then (m.extent + 8) % 2 ^ 16
      else if (label, d) = (1, 7) then (m.extent + 16) % 2 ^ 16 else m.extent) ∧
    (m.field env (label, d)).both = (if (label, d) = (1, 2) then !m.both else m.both) ∧
    (m.field env (label, d)).urgency = (if (label, d) = (1, 0) then increaseUrgency m.urgency
      else if (label, d) = (1, 1) then reduceUrgency m.urgency else m.urgency) := by
  have keep : ∀ n x, ((m.quantifier env n x).events = m.events ∧ (m.quantifier env n x).supplementary = m.supplementary) ∧
      ((m.quantifier env n x).diversion = m.diversion ∧ (m.quantifier env n x).speedLimit = m.speedLimit) ∧
      ((m.quantifier env n x).timeStarts = m.timeStarts ∧ (m.quantifier env n x).timeUntil = m.timeUntil) ∧
      ((m.quantifier env n x).extent = m.extent ∧ (m.quantifier env n x).both = m.both) ∧
      (m.quantifier env n x).urgency = m.urgency := by
    intro n x
    unfold quantifier
    split
    · simp
    · split <;> simp
  unfold Message.field
  dsimp only
  split
  · unfold Message.control
    split
    · simp
    · simp
    · simp
    · simp
    · simp
    · rename_i n0 n1 n2 n6 n7
      have n0 : d ≠ 0 := n0
      have n1 : d ≠ 1 := n1
      have n2 : d ≠ 2 := n2
      have n6 : d ≠ 6 := n6
      have n7 : d ≠ 7 := n7
      simp [n0, n1, n2, n6, n7]
  · simp
  · simp [keep]
  · simp [keep]
  · simp
  · simp
  · simp
  · simp
  · simp
  · rename_i n1 n3 n4 n5 n6 n7 n8 n9 n10
    have n1 : label ≠ 1 := n1
    have n3 : label ≠ 3 := n3
    have n6 : label ≠ 6 := n6
    have n7 : label ≠ 7 := n7
    have n8 : label ≠ 8 := n8
    have n9 : label ≠ 9 := n9
    have n10 : label ≠ 10 := n10
    simp [n1, n3, n6, n7, n8, n9, n10]

theorem fields_facts (env : TmcEnv) (m0 : Message) (c : Nat) (h0 : m0.events = [c]) (hq : m0.quantifiers = [])
    (fs : List (Nat × Nat)) : FieldFacts env m0 (fs.foldl (Message.field env) m0) c fs := by
  induction fs using snocInduction with
  | nil =>
    constructor <;> try rfl
    · exact h0
    · simp [dataOf]
    · simp [dataOf]
    · exact id
    · simp [controlCount, dataOf]
    · show m0.urgency = turnUrgency m0.urgency 0
      cases m0.urgency <;> rfl
    · intro i
      show m0.quantifiers.lookup i = _
      rw [hq]
      cases i <;> simp [eventParts, quantifierOf, dataOf]
  | snoc fs f ih =>
    rw [List.foldl_append, List.foldl_cons, List.foldl_nil]
    generalize fs.foldl (Message.field env) m0 = m at *
    obtain ⟨label, d⟩ := f
    obtain ⟨init, last, hp1, hp2⟩ := eventParts_snoc c fs (label, d)
    have hhold := ih.quantifiers
    rw [hp1] at hhold
    have hev : m.events = (init ++ [last]).map (·.1) := by rw [← hp1, eventParts_codes, ih.events]
    have hquant : HoldsQuantifiers env (m.field env (label, d)).quantifiers (eventParts c (fs ++ [(label, d)])) := by
      rw [hp2]
      dsimp only
      by_cases h9 : label = 9
      · subst h9
        exact holds_event hhold d
      rw [if_neg h9]
      by_cases h4 : label = 4
      · subst h4
        exact holds_quantifier hev hhold 4 5 d (.inl ⟨rfl, rfl⟩)
      by_cases h5 : label = 5
      · subst h5
        exact holds_quantifier hev hhold 5 8 d (.inr ⟨rfl, rfl⟩)
      have hk : (m.field env (label, d)).quantifiers = m.quantifiers := by
        unfold Message.field
        dsimp only
        split
        · unfold Message.control
          split <;> rfl
        all_goals first | rfl | contradiction
      rw [hk]
      exact holds_other hhold _ h4 h5
    obtain ⟨k1, k2, k3, k4, k5, k6, -⟩ := field_keeps env m (label, d)
    obtain ⟨e1, e2, e3, e4, e5, e6, e7, e8, e9⟩ := field_step env m label d
    constructor
    · rw [e1, ih.events, dataOf_snoc]; rfl
    · rw [e2, ih.supplementary, dataOf_snoc, List.append_assoc]
    · rw [e3, ih.diversion, dataOf_snoc, List.append_assoc]
    · rw [e4, ih.speedLimit, dataOf_snoc]
      by_cases h : label = 3 <;> simp [h]
    · rw [e5, ih.starts, dataOf_snoc]
      by_cases h : label = 7 <;> simp [h]
    · rw [e6, ih.until_, dataOf_snoc]
      by_cases h : label = 8 <;> simp [h]
    · rw [e7, controlCount_snoc, controlCount_snoc]
      have := ih.extent
      by_cases h6 : (label, d) = (1, 6)
      · rw [if_pos h6, if_pos h6, if_neg (by rw [h6]; decide)]
        omega
      · rw [if_neg h6, if_neg h6]
        by_cases h7 : (label, d) = (1, 7)
        · rw [if_pos h7, if_pos h7]
          omega
        · rw [if_neg h7, if_neg h7]
          omega
    · intro hx
      have := ih.extentLt hx
      rw [e7]
      split
      · exact Nat.mod_lt _ (by decide)
      · split
        · exact Nat.mod_lt _ (by decide)
        · exact this
    · rw [e8, ih.both, controlCount_snoc]
      by_cases h2 : (label, d) = (1, 2)
      · rw [if_pos h2, if_pos h2]
        rcases Nat.mod_two_eq_zero_or_one (controlCount 2 fs) with h | h
        · rw [show (controlCount 2 fs + 1) % 2 = 1 by omega, h]
          cases m0.both <;> rfl
        · rw [show (controlCount 2 fs + 1) % 2 = 0 by omega, h]
          cases m0.both <;> rfl
      · rw [if_neg h2, if_neg h2, Nat.add_zero]
    · rw [e9, ih.urgency, controlCount_snoc, controlCount_snoc]
      by_cases h0 : (label, d) = (1, 0)
      · rw [if_pos h0, if_pos h0, if_neg (by rw [h0]; decide), increase_turn, turnUrgency_add]
        congr 1
        omega
      · rw [if_neg h0, if_neg h0]
        by_cases h1 : (label, d) = (1, 1)
        · rw [if_pos h1, if_pos h1, reduce_turn, turnUrgency_add]
          congr 1
        · rw [if_neg h1, if_neg h1]
          rfl
    · exact hquant
    · rw [k1, ih.complete]
    · rw [k2, ih.location]
    · rw [k3, ih.encryptedLocation]
    · rw [k4, ih.isEncrypted]
    · rw [k5, ih.wasEncrypted]
    · rw [k6, ih.negative]

end Redsea
