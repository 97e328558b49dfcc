import Verif.Lemmas.ChannelParts
import Verif.Lemmas.ChannelId
import Verif.Spec.DataStreams

/-
Lemmas for property C100: the data streams of a channel are decoded on their own.
-/

namespace Redsea
open _root_.Redsea.Spec BlockStream

theorem streamBlocks_append (i : Nat) (a b : List Trace) : streamBlocks i (a ++ b) = streamBlocks i a ++ streamBlocks i b := by
  unfold streamBlocks
  exact List.filterMap_append

/-- What is known about a group that was handled for the stream `n`. -/
theorem streamBlocks_one {env : Env} {c c' : Channel} {now : Int} {g : Group} {n : Nat} {h : Handled}
    (he : c.processGroup env now g n = some (c', h)) (i : Nat) (l : List Handled) :
    streamBlocks i ((h :: l).map .handled) = (if n = i then [g.fourBlocks] else []) ++ streamBlocks i (l.map .handled) := by
  unfold Channel.processGroup at he
  obtain ⟨-, e5, e1, e2, e3, e4, -⟩ := handleGroup_keeps he
  have hg : (c.stampGroup now g).2.fourBlocks = g.fourBlocks := by
    unfold Channel.stampGroup
    split <;> rfl
  have hb : h.group.fourBlocks = g.fourBlocks := by
    rw [← hg]
    unfold Group.fourBlocks
    rw [e1, e2, e3, e4]
  unfold streamBlocks
  rw [List.map_cons, List.filterMap_cons]
  dsimp only
  rw [e5, hb]
  by_cases hn : n = i
  · rw [if_pos hn, if_pos hn]
    rfl
  · rw [if_neg hn, if_neg hn]
    rfl

theorem pushBit_group {c c' : Channel} {b : Bool} {n : Nat} {s : BlockStream} {o : Option Group}
    (hs : c.blockStreams[n]? = some s) (he : c.pushBit b n = some (c', o)) : o = (s.step c.options.useFec b).2 := by
  unfold Channel.pushBit at he
  rw [hs] at he
  have := Option.some.inj he
  simp only [Prod.mk.injEq] at this
  exact this.2.symm

theorem pushBit_stream {c : Channel} {b : Bool} {n : Nat} {q : Channel × Option Group} (he : c.pushBit b n = some q) :
    ∃ s, c.blockStreams[n]? = some s := by
  unfold Channel.pushBit at he
  obtain ⟨s, h, -⟩ := Option.bind_eq_some_iff.mp he
  exact ⟨s, h⟩

/-- The groups of the stream `i`, from bits for the stream `n`. -/
theorem bits_streamBlocks {env : Env} {delay : Nat → Int} {t : Int} {n : Nat} (bits : List Bool) {c : Channel} {i : Nat}
    {s : BlockStream} {q : Channel × List Handled} (h0 : c.blockStreams[i]? = some s)
    (he : Channel.processBits env delay t n c bits = some q) :
    streamBlocks i (q.2.map .handled) =
      (run c.options.useFec s (if n = i then bits else [])).2.map Group.fourBlocks := by
  induction bits generalizing c q s with
  | nil =>
    have := Option.some.inj he
    rw [← this]
    split <;> rfl
  | cons b bits ih =>
    rw [Channel.processBits] at he
    obtain ⟨⟨c1, o⟩, h1, he⟩ := Option.bind_eq_some_iff.mp he
    have f := pushBit_fed h1 i
    have f1 : c1.options = c.options := f.1
    have f2 := f.2 s h0
    dsimp only at he
    by_cases hn : n = i
    · subst hn
      have ho := pushBit_group h0 h1
      rw [if_pos rfl] at f2 ⊢
      have f2 : c1.blockStreams[n]? = some (s.step c.options.useFec b).1 := f2
      rw [run_cons, ← ho, List.map_append]
      cases o with
      | none =>
        have := ih f2 he
        rw [if_pos rfl, f1] at this
        exact this
      | some g =>
        dsimp only at he
        obtain ⟨⟨c2, h⟩, h2, he⟩ := Option.bind_eq_some_iff.mp he
        obtain ⟨r3, h3, he⟩ := Option.bind_eq_some_iff.mp he
        have := Option.some.inj he
        rw [← this]
        obtain ⟨k1, k2⟩ := processGroup_streams h2
        have key := ih (s := (s.step c.options.useFec b).1)
          (by show c2.blockStreams[n]? = _; rw [k1]; exact f2) h3
        rw [if_pos rfl] at key
        rw [streamBlocks_one h2, if_pos rfl, key]
        dsimp only
        rw [k2, f1]
        rfl
    · rw [if_neg hn] at f2 ih ⊢
      have f2 : c1.blockStreams[i]? = some s := f2
      cases o with
      | none =>
        have := ih f2 he
        rw [f1] at this
        exact this
      | some g =>
        dsimp only at he
        obtain ⟨⟨c2, h⟩, h2, he⟩ := Option.bind_eq_some_iff.mp he
        obtain ⟨r3, h3, he⟩ := Option.bind_eq_some_iff.mp he
        have := Option.some.inj he
        rw [← this]
        obtain ⟨k1, k2⟩ := processGroup_streams h2
        have key := ih (s := s) (by show c2.blockStreams[i]? = _; rw [k1]; exact f2) h3
        rw [streamBlocks_one h2, if_neg hn, key]
        rfl

theorem bit_as_bits {env : Env} {now : Int} {b : Bool} {n : Nat} {c : Channel} {i : Nat} {s : BlockStream}
    {q : Channel × List Handled} (h0 : c.blockStreams[i]? = some s) (he : c.processBit env now b n = some q) :
    streamBlocks i (q.2.map .handled) =
      (run c.options.useFec s (if n = i then [b] else [])).2.map Group.fourBlocks := by
  unfold Channel.processBit at he
  obtain ⟨⟨c1, o⟩, h1, he⟩ := Option.bind_eq_some_iff.mp he
  dsimp only at he
  by_cases hn : n = i
  · subst hn
    have ho := pushBit_group h0 h1
    rw [if_pos rfl, run_cons, ← ho, run_nil, List.append_nil]
    cases o with
    | none =>
      have := Option.some.inj he
      rw [← this]
      rfl
    | some g =>
      dsimp only at he
      obtain ⟨⟨c2, h⟩, h2, he⟩ := Option.bind_eq_some_iff.mp he
      have := Option.some.inj he
      rw [← this, streamBlocks_one h2, if_pos rfl]
      rfl
  · rw [if_neg hn]
    cases o with
    | none =>
      have := Option.some.inj he
      rw [← this]
      rfl
    | some g =>
      dsimp only at he
      obtain ⟨⟨c2, h⟩, h2, he⟩ := Option.bind_eq_some_iff.mp he
      have := Option.some.inj he
      rw [← this, streamBlocks_one h2, if_neg hn]
      rfl

theorem step_streamBlocks {env : Env} {delay : Nat → Int} {c c' : Channel} {i : Nat} {s : BlockStream} {tr : List Trace}
    (e : ChannelEvent) (hb : e.IsBits) (h0 : c.blockStreams[i]? = some s) (he : c.step env delay e = some (c', tr)) :
    streamBlocks i tr = (run c.options.useFec s (e.bitsFor i)).2.map Group.fourBlocks := by
  cases e with
  | bit now b n =>
    obtain ⟨q, h1, h2⟩ := Option.map_eq_some_iff.mp he
    cases h2
    exact bit_as_bits h0 h1
  | bits t l n =>
    obtain ⟨q, h1, h2⟩ := Option.map_eq_some_iff.mp he
    cases h2
    exact bits_streamBlocks l h0 h1
  | group now g n => exact absurd hb id
  | flush now => exact absurd hb id
  | resetPI =>
    cases he
    rfl

theorem run_streamBlocks {env : Env} {delay : Nat → Int} (es : List ChannelEvent) (hb : ∀ e ∈ es, e.IsBits) {c : Channel} {i : Nat}
    {s : BlockStream} {q : Channel × List Trace} (h0 : c.blockStreams[i]? = some s)
    (he : Channel.run env delay c es = some q) :
    streamBlocks i q.2 = (run c.options.useFec s (fedBits i es)).2.map Group.fourBlocks := by
  induction es generalizing c s q with
  | nil =>
    have := Option.some.inj he
    rw [← this]
    rfl
  | cons e es ih =>
    rw [Channel.run] at he
    obtain ⟨⟨c1, t1⟩, h1, he⟩ := Option.bind_eq_some_iff.mp he
    obtain ⟨⟨c2, t2⟩, h2, he⟩ := Option.bind_eq_some_iff.mp he
    have := Option.some.inj he
    have f := step_fed e h1 i
    have e1 := step_streamBlocks e (hb e (List.mem_cons_self ..)) h0 h1
    have e2 := ih (fun x hx => hb x (List.mem_cons_of_mem _ hx)) (f.2 s h0) h2
    rw [← this, streamBlocks_append, e1, e2, show fedBits i (e :: es) = e.bitsFor i ++ fedBits i es from rfl, run_append,
      List.map_append, f.1]

/-- The groups that a flush hands over for the stream `i`. -/
theorem flush_streamBlocks {env : Env} {c : Channel} {now : Nat → Int} {q : Channel × List Handled} {i : Nat} {s : BlockStream}
    (h0 : c.blockStreams[i]? = some s) (he : c.flush env now = some q) :
    streamBlocks i (q.2.map .handled) =
      if (i = 1 ∨ i = 2 ∨ i = 3) ∧ s.currentGroup.hasNothing = false then [s.currentGroup.fourBlocks] else [] := by
  have e1 : ∀ l : List Handled, streamBlocks i (l.map .handled) =
      (l.map fun h => ([h.group.block1, h.group.block2, h.group.block3, h.group.block4], h.group.dataStream)).filterMap
        fun p => if p.2 = i then some p.1 else none := by
    intro l
    unfold streamBlocks
    rw [List.filterMap_map, List.filterMap_map]
    rfl
  rw [e1, flush_groups [1, 2, 3] he, List.filterMap_filterMap]
  have e2 : ∀ k, ((c.blockStreams[k]?.bind fun s => if s.currentGroup.hasNothing then none else
      some ([s.currentGroup.block1, s.currentGroup.block2, s.currentGroup.block3, s.currentGroup.block4], k)).bind
      fun p => if p.2 = i then some p.1 else none) =
      if k = i ∧ s.currentGroup.hasNothing = false then some s.currentGroup.fourBlocks else none := by
    intro k
    by_cases hk : k = i
    · subst hk
      rw [h0, Option.bind_some]
      cases s.currentGroup.hasNothing with
      | true => simp
      | false => simp [Group.fourBlocks]
    · rw [if_neg (fun x => hk x.1)]
      cases c.blockStreams[k]? with
      | none => rfl
      | some r =>
        rw [Option.bind_some]
        cases r.currentGroup.hasNothing with
        | true => rfl
        | false =>
          show (if k = i then _ else none) = none
          rw [if_neg hk]
  simp only [e2]
  cases s.currentGroup.hasNothing with
  | true => simp
  | false =>
    by_cases h1 : i = 1
    · subst h1; simp
    · by_cases h2 : i = 2
      · subst h2; simp
      · by_cases h3 : i = 3
        · subst h3; simp
        · simp [h1, h2, h3, eq_comm]

end Redsea
