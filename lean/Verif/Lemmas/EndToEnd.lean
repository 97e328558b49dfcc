import Verif.Spec.OnAir
import Verif.Props.Stream
import Verif.Props.Station
import Verif.Props.GroupFields

/-
From the bits that a channel is fed to the lines of its station.
-/

namespace Redsea
open _root_.Spec _root_.Redsea.Spec BlockStream

/-! ### The groups of a channel are those of its stream -/

/-- A group without what the channel adds. -/
def Group.core (g : Group) : Group := { g with time := none, bler := none, dataStream := 0 }

theorem processGroup_core {env : Env} {c c' : Channel} {now : Int} {g : Group} {h : Handled}
    (he : c.processGroup env now g 0 = some (c', h)) :
    (h.group.core, h.group.dataStream) = (g.core, 0) := by
  unfold Channel.processGroup at he
  obtain ⟨c1, g1, h1, hg, -⟩ := handleGroup_parts he
  obtain ⟨b, r, hb, -⟩ := addBler_group _ _ c1 g1 h1
  rw [hg, hb]
  unfold Channel.stampGroup Channel.markStream
  rw [if_neg (by decide)]
  split <;> rfl

theorem pushBit_parts {c c' : Channel} {b : Bool} {s : BlockStream} {o : Option Group}
    (hs : c.blockStreams[0]? = some s) (he : c.pushBit b 0 = some (c', o)) :
    o = (s.step c.options.useFec b).2 ∧ c'.options = c.options ∧
      c'.blockStreams[0]? = some (s.step c.options.useFec b).1 := by
  have f := pushBit_fed he 0
  rw [if_pos rfl] at f
  refine ⟨?_, f.1, f.2 s hs⟩
  unfold Channel.pushBit at he
  rw [hs] at he
  have := Option.some.inj he
  simp only [Prod.mk.injEq] at this
  exact this.2.symm

theorem processBits_groups {env : Env} {delay : Nat → Int} {t : Int} (bits : List Bool)
    {c : Channel} {s : BlockStream} {q : Channel × List Handled} (h0 : c.blockStreams[0]? = some s)
    (he : Channel.processBits env delay t 0 c bits = some q) :
    q.2.map (fun h => (h.group.core, h.group.dataStream)) = (run c.options.useFec s bits).2.map fun g => (g.core, 0) := by
  induction bits generalizing c q s with
  | nil =>
    have := Option.some.inj he
    rw [← this]; rfl
  | cons b bits ih =>
    rw [Channel.processBits] at he
    simp only [Option.bind_eq_bind, Option.bind_eq_some_iff] at he
    obtain ⟨⟨c1, o⟩, h1, he⟩ := he
    obtain ⟨p1, p2, p3⟩ := pushBit_parts h0 h1
    rw [run_cons, ← p1, List.map_append]
    cases o with
    | none =>
      have := ih p3 he
      rw [p2] at this
      exact this
    | some g =>
      simp only [Option.bind_eq_some_iff] at he
      obtain ⟨⟨c2, h⟩, h2, r3, h3, he⟩ := he
      have := Option.some.inj he
      rw [← this]
      obtain ⟨k1, k2⟩ := processGroup_streams h2
      have := ih (s := (s.step c.options.useFec b).1)
        (by show c2.blockStreams[0]? = _; rw [k1]; exact p3) h3
      simp only [k2, p2] at this
      simp only [List.map_cons, Option.toList_some, List.map_nil, List.cons_append, List.nil_append,
        this, processGroup_core h2]
      rfl

theorem step_groups {env : Env} {delay : Nat → Int} {c c' : Channel} {s : BlockStream}
    {tr : List Trace} (e : ChannelEvent) (hb : e.OnlyBits) (h0 : c.blockStreams[0]? = some s)
    (he : c.step env delay e = some (c', tr)) :
    ∃ hs : List Handled, tr = hs.map .handled ∧
      hs.map (fun h => (h.group.core, h.group.dataStream)) = (run c.options.useFec s (e.bitsFor 0)).2.map fun g => (g.core, 0) := by
  cases e with
  | bit now b st =>
    have hb : st = 0 := hb
    subst hb
    simp only [Channel.step, Option.map_eq_some_iff] at he
    obtain ⟨⟨c1, hs⟩, h1, he⟩ := he
    simp only [Prod.mk.injEq] at he
    refine ⟨hs, he.2.symm, ?_⟩
    unfold Channel.processBit at h1
    simp only [Option.bind_eq_bind, Option.bind_eq_some_iff] at h1
    obtain ⟨⟨c2, o⟩, h2, h1⟩ := h1
    obtain ⟨p1, p2, p3⟩ := pushBit_parts h0 h2
    rw [show ChannelEvent.bitsFor 0 (.bit now b 0) = [b] from rfl, run_cons, ← p1, run_nil,
      List.append_nil]
    cases o with
    | none =>
      have := Option.some.inj h1
      simp only [Prod.mk.injEq] at this
      rw [← this.2]; rfl
    | some g =>
      simp only [Option.bind_eq_some_iff] at h1
      obtain ⟨⟨c3, h⟩, h3, h1⟩ := h1
      have := Option.some.inj h1
      simp only [Prod.mk.injEq] at this
      rw [← this.2]
      simp only [List.map_cons, List.map_nil, Option.toList_some, processGroup_core h3]
  | bits t l st =>
    have hb : st = 0 := hb
    subst hb
    simp only [Channel.step, Option.map_eq_some_iff] at he
    obtain ⟨⟨c1, hs⟩, h1, he⟩ := he
    simp only [Prod.mk.injEq] at he
    exact ⟨hs, he.2.symm, processBits_groups l h0 h1⟩
  | group now g st => exact absurd hb id
  | flush now => exact absurd hb id
  | resetPI => exact absurd hb id

/-- The groups that a channel hands over are those that its stream delivers. -/
theorem run_handled {env : Env} {delay : Nat → Int} (es : List ChannelEvent)
    (hb : ∀ e ∈ es, e.OnlyBits) {c : Channel} {s : BlockStream} {q : Channel × List Trace}
    (h0 : c.blockStreams[0]? = some s) (he : Channel.run env delay c es = some q) :
    ∃ hs : List Handled, q.2 = hs.map .handled ∧
      hs.map (fun h => (h.group.core, h.group.dataStream)) = (run c.options.useFec s (fedBits 0 es)).2.map fun g => (g.core, 0) := by
  induction es generalizing c s q with
  | nil =>
    have := Option.some.inj he
    exact ⟨[], by rw [← this]; rfl, rfl⟩
  | cons e es ih =>
    rw [Channel.run] at he
    simp only [Option.bind_eq_bind, Option.bind_eq_some_iff] at he
    obtain ⟨⟨c1, t1⟩, h1, r2, h2, he⟩ := he
    have := Option.some.inj he
    have f := step_fed e h1 0
    obtain ⟨hs1, e1, e2⟩ := step_groups e (hb e (by simp)) h0 h1
    obtain ⟨hs2, e3, e4⟩ := ih (fun x hx => hb x (by simp [hx])) (f.2 s h0) h2
    refine ⟨hs1 ++ hs2, ?_, ?_⟩
    · rw [← this, e1, e3, List.map_append]
    · rw [f.1] at e4
      rw [List.map_append, e2, e4, show fedBits 0 (e :: es) = e.bitsFor 0 ++ fedBits 0 es from rfl,
        run_append, List.map_append]

theorem run_run {env : Env} {delay : Nat → Int} (es1 es2 : List ChannelEvent) (c : Channel) :
    Channel.run env delay c (es1 ++ es2) = (Channel.run env delay c es1).bind fun r =>
      (Channel.run env delay r.1 es2).map fun q => (q.1, r.2 ++ q.2) := by
  induction es1 generalizing c with
  | nil =>
    simp only [List.nil_append, Channel.run, Option.bind_some, List.nil_append]
    cases Channel.run env delay c es2 <;> rfl
  | cons e es ih =>
    rw [List.cons_append, Channel.run, Channel.run]
    cases c.step env delay e with
    | none => rfl
    | some r =>
      simp only [Option.bind_eq_bind, Option.bind_some, ih]
      cases Channel.run env delay r.1 es with
      | none => rfl
      | some q =>
        simp only [Option.bind_some, Option.pure_def]
        cases Channel.run env delay q.1 es2 with
        | none => rfl
        | some u => simp

/-! ### A group as it was sent -/

/-- `core` keeps what was heard. -/
theorem core_facts (g : Group) : g.core.type = g.type ∧ g.core.hasType = g.hasType ∧
    g.core.block1 = g.block1 ∧ g.core.block2 = g.block2 ∧ g.core.block3 = g.block3 ∧
    g.core.block4 = g.block4 := ⟨rfl, rfl, rfl, rfl, rfl, rfl⟩

theorem rxGroup_blocks (t : TxGroup) (e : Damage) :
    (rxGroup t e).block1 = rxBlock t.d1 .A e.e1 ∧ (rxGroup t e).block2 = rxBlock t.d2 .B e.e2 ∧
    (rxGroup t e).block3 = rxBlock t.d3 t.third e.e3 ∧ (rxGroup t e).block4 = rxBlock t.d4 .D e.e4 := by
  have h : (rxGroup t e).block .b1 = rxBlock t.d1 .A e.e1 ∧
      (rxGroup t e).block .b2 = rxBlock t.d2 .B e.e2 ∧
      (rxGroup t e).block .b3 = rxBlock t.d3 t.third e.e3 ∧
      (rxGroup t e).block .b4 = rxBlock t.d4 .D e.e4 := by
    refine ⟨?_, ?_, ?_, ?_⟩ <;> simp [rxGroup, block_setBlock]
  exact h

/-- The type of a group from its block 2. -/
theorem block2_code {s : Broadcast} (v : s.Valid) : GroupType.ofCode (getBits 5 s.block2 11) =
    ⟨s.number, if s.versionB then .B else .A⟩ := by
  rw [getBits_eq_div, block2_nat v]
  have h1 := v.number
  have h2 := v.pty
  have h3 := v.low
  have h4 := s.tp.toNat_lt
  have e : (s.number * 4096 + s.versionB.toNat * 2048 + s.tp.toNat * 1024 + s.pty * 32 + s.low) / 2 ^ 11
      % 2 ^ 5 = s.number * 2 + s.versionB.toNat := by
    have := s.versionB.toNat_lt
    omega
  rw [e]
  simp only [GroupType.ofCode, Nat.shiftRight_eq_div_pow, GroupType.mk.injEq]
  cases s.versionB
  · refine ⟨by simp only [Bool.toNat_false]; omega, ?_⟩
    rw [if_pos (by simp only [Bool.toNat_false]; omega), if_neg (by decide)]
  · refine ⟨by simp only [Bool.toNat_true]; omega, ?_⟩
    rw [if_neg (by simp only [Bool.toNat_true]; omega), if_pos rfl]

theorem four_type (b1 b2 b3 b4 : Block) (t : GroupType) (h1 : b1.offset ≠ .Cprime)
    (h2 : b2.offset ≠ .Cprime) (hr : b2.isReceived = true)
    (ht : GroupType.ofCode (getBits 5 b2.data 11) = t)
    (h : t.version = .A ∨ t.version = .B ∧ b3.offset = .Cprime) :
    let g := (((({} : Group).setBlock .b1 b1).setBlock .b2 b2).setBlock .b3 b3).setBlock .b4 b4
    g.hasType = true ∧ g.type = t := by
  subst ht
  intro g
  show Group.hasType ((((({} : Group).setBlock .b1 b1).setBlock .b2 b2).setBlock .b3 b3).setBlock .b4 b4) =
    true ∧ Group.type ((((({} : Group).setBlock .b1 b1).setBlock .b2 b2).setBlock .b3 b3).setBlock .b4 b4) = _
  have e1 : ({} : Group).setBlock .b1 b1 = { block1 := b1 } := by
    simp [Group.setBlock, Group.putBlock, Group.recogniseType, h1]
  rw [e1]
  rcases h with h | ⟨h, h3⟩
  · have e2 : Group.setBlock { block1 := b1 } BlockNum.b2 b2 =
        { block1 := b1, block2 := b2, hasType := true, type := GroupType.ofCode (getBits 5 b2.data 11) } := by
      simp [Group.setBlock, Group.putBlock, Group.recogniseType, h2, h]
    rw [e2]
    exact ⟨rfl, rfl⟩
  · have e2 : Group.setBlock { block1 := b1 } BlockNum.b2 b2 =
        { block1 := b1, block2 := b2, hasType := false, type := GroupType.ofCode (getBits 5 b2.data 11) } := by
      simp [Group.setBlock, Group.putBlock, Group.recogniseType, h2, h]
    rw [e2]
    have e3 : Group.setBlock
        { block1 := b1, block2 := b2, hasType := false, type := GroupType.ofCode (getBits 5 b2.data 11) }
          BlockNum.b3 b3 =
        { block1 := b1, block2 := b2, block3 := b3, hasType := true
          type := GroupType.ofCode (getBits 5 b2.data 11) } := by
      simp [Group.setBlock, Group.putBlock, Group.recogniseType, h3, h, Group.has, Group.block, hr]
    rw [e3]
    exact ⟨rfl, rfl⟩

theorem rxGroup_type (s : Broadcast) (v : s.Valid) (p : Word) (e : Damage) :
    (rxGroup (s.onAir p) e).hasType = true ∧
    (rxGroup (s.onAir p) e).type = ⟨s.number, if s.versionB then .B else .A⟩ := by
  refine four_type _ _ _ _ _ (show Offset.A ≠ _ by decide) (show Offset.B ≠ _ by decide) rfl (block2_code v) ?_
  cases hB : s.versionB
  · exact .inl rfl
  · refine .inr ⟨rfl, ?_⟩
    show toOffset (TxGroup.third (s.onAir p)) = _
    unfold TxGroup.third Broadcast.onAir
    rw [hB]
    rfl

/-- What is known about a group that was received as sent. -/
structure Intact (s : Broadcast) (p : Word) (g : Group) : Prop where
  heard : s.HeardAs g
  pi : groupPI g = some p
  isAB : g.isAB = true
  something : g.hasNothing = false
  received3 : g.block3.isReceived = true
  received4 : g.block4.isReceived = true
  stream : g.dataStream = 0
  received1 : g.block1.isReceived = true
  block1 : g.block1.data = p

theorem intact_of_core {s : Broadcast} {p : Word} {e : Damage} {g : Group} (v : s.Valid)
    (h : g.core = (rxGroup (s.onAir p) e).core) (hs : g.dataStream = 0) : Intact s p g := by
  obtain ⟨t1, t2⟩ := rxGroup_type s v p e
  obtain ⟨b1, b2, b3, b4⟩ := rxGroup_blocks (s.onAir p) e
  have f := core_facts g
  have f' := core_facts (rxGroup (s.onAir p) e)
  rw [h] at f
  obtain ⟨f1, f2, f3, f4, f5, f6⟩ := f'
  obtain ⟨g1, g2, g3, g4, g5, g6⟩ := f
  rw [f1, t2] at g1
  rw [f2, t1] at g2
  rw [f3, b1] at g3
  rw [f4, b2] at g4
  rw [f5, b3] at g5
  rw [f6, b4] at g6
  have hab : g.isAB = true := by
    unfold Group.isAB
    rw [← g1]
    cases s.versionB <;> rfl
  refine ⟨⟨g2.symm, g1.symm, by rw [← g4]; rfl, by rw [← g4]; rfl, fun _ => by rw [← g5]; rfl,
    fun _ => by rw [← g6]; rfl⟩, ?_, hab, ?_, by rw [← g5]; rfl, by rw [← g6]; rfl, hs,
    by rw [← g3]; rfl, by rw [← g3]; rfl⟩
  · unfold groupPI
    rw [hab, ← g3]
    rfl
  · unfold Group.hasNothing
    rw [← g3]
    rfl

/-! ### The station is found -/

/-- The PI code is confirmed and it is the station's. -/
structure Settled (p : Word) (tr : List Trace) : Prop where
  confirmed : (tr.foldl stationStep ({}, none)).1.confirmed = p
  prev1 : (tr.foldl stationStep ({}, none)).1.prev1 = p
  prev : (tr.foldl stationStep ({}, none)).1.hasPrevious = true

/-- If a code other than 0 is confirmed, it is that of the current station. -/
theorem confirmed_current (tr : List Trace) (h : (tr.foldl stationStep ({}, none)).1.confirmed ≠ 0) :
    (currentStation tr).map Prod.fst = some (tr.foldl stationStep ({}, none)).1.confirmed := by
  unfold currentStation
  induction tr using snocInduction with
  | nil => exact absurd rfl h
  | snoc tr t ih =>
    rw [List.foldl_append, List.foldl_cons, List.foldl_nil] at *
    generalize tr.foldl stationStep ({}, none) = q at *
    cases t with
    | reset => exact absurd rfl h
    | handled x =>
      simp only [stationStep] at h ⊢
      cases hp : groupPI x.group with
      | none =>
        rw [hp] at h
        have := ih h
        dsimp only at this ⊢
        rw [Option.map_map, ← this]
        rfl
      | some p =>
        rw [hp] at h
        dsimp only at h ⊢
        by_cases hc : (q.1.update p).2 = .changeConfirmed
        · rw [if_pos hc, confirmed_update _ _ hc]
          rfl
        · rw [if_neg hc]
          have key : (q.1.update p).1.confirmed = 0 ∨ (q.1.update p).1.confirmed = q.1.confirmed := by
            revert hc
            obtain ⟨⟨conf, a, b, hv⟩, -⟩ := q
            simp only [CachedPI.update, CachedPI.confirm, CachedPI.dropIfNoisy]
            split
            · intro hc
              right
              split at hc
              · rename_i hx _ hy
                have hy : p = conf := by simpa using hy
                subst hy
                simp
              · exact absurd rfl hc
            · intro _
              split
              · left; rfl
              · right; rfl
          rcases key with hz | hz
          · exact absurd hz h
          · rw [hz] at h
            have := ih h
            rw [hz, Option.map_map, ← this]
            rfl

/-- Three groups in a row with a PI code other than 0. -/
theorem settled_three (p : Word) (hp : p ≠ 0) (tr : List Trace) (x y z : Handled)
    (hx : groupPI x.group = some p) (hy : groupPI y.group = some p) (hz : groupPI z.group = some p) :
    Settled p (tr ++ [Trace.handled x, Trace.handled y, Trace.handled z]) ∧
    ∃ hs, currentStation (tr ++ [Trace.handled x, Trace.handled y, Trace.handled z]) = some (p, hs ++ [z]) := by
  have hcache : ((tr ++ [Trace.handled x, Trace.handled y, Trace.handled z]).foldl stationStep ({}, none)).1 =
      (tr.foldl stationStep ({}, none)).1.feed [p, p, p] := by
    rw [List.foldl_append]
    generalize tr.foldl stationStep ({}, none) = q
    simp only [List.foldl_cons, List.foldl_nil, stationStep, hx, hy, hz, CachedPI.feed]
  have hcur := confirmed_current (tr ++ [Trace.handled x, Trace.handled y, Trace.handled z])
  have h3 := (C17_three_in_a_row_partial (tr.foldl stationStep ({}, none)).1 p hp).1
  have hconf : ((tr ++ [Trace.handled x, Trace.handled y, Trace.handled z]).foldl stationStep ({}, none)).1.confirmed =
      p := by rw [hcache]; exact h3
  rw [hconf] at hcur
  have hcur := hcur hp
  have hp' : ((tr ++ [Trace.handled x, Trace.handled y, Trace.handled z]).foldl stationStep ({}, none)).1.prev1 = p ∧
      ((tr ++ [Trace.handled x, Trace.handled y, Trace.handled z]).foldl stationStep ({}, none)).1.hasPrevious = true := by
    have e : ((tr ++ [Trace.handled x, Trace.handled y, Trace.handled z]).foldl stationStep ({}, none)).1 =
        (((tr ++ [Trace.handled x, Trace.handled y]).foldl stationStep ({}, none)).1.update p).1 := by
      rw [show tr ++ [Trace.handled x, Trace.handled y, Trace.handled z] = (tr ++ [Trace.handled x, Trace.handled y]) ++ [Trace.handled z]
        by simp, List.foldl_append, List.foldl_cons, List.foldl_nil]
      generalize (tr ++ [Trace.handled x, Trace.handled y]).foldl stationStep ({}, none) = q
      simp only [stationStep, hz]
    rw [e] at hconf ⊢
    generalize ((tr ++ [Trace.handled x, Trace.handled y]).foldl stationStep ({}, none)).1 = c at hconf ⊢
    refine ⟨by simp [CachedPI.update], ?_⟩
    revert hconf
    unfold CachedPI.update
    generalize c.confirm p = q
    obtain ⟨q1, q2⟩ := q
    dsimp only [CachedPI.dropIfNoisy]
    split
    · intro h; exact absurd h.symm hp
    · intro _; rfl
  refine ⟨⟨hconf, hp'.1, hp'.2⟩, ?_⟩
  unfold currentStation at hcur ⊢
  rw [show tr ++ [Trace.handled x, Trace.handled y, Trace.handled z] = (tr ++ [Trace.handled x, Trace.handled y]) ++ [Trace.handled z]
    by simp, List.foldl_append, List.foldl_cons, List.foldl_nil] at hcur ⊢
  generalize (tr ++ [Trace.handled x, Trace.handled y]).foldl stationStep ({}, none) = q at hcur ⊢
  simp only [stationStep, hz] at hcur ⊢
  split at hcur <;> rename_i hc
  · rw [if_pos hc]
    exact ⟨[], rfl⟩
  · rw [if_neg hc]
    cases hq : q.2 with
    | none => rw [hq] at hcur; cases hcur
    | some a =>
      rw [hq] at hcur
      have : a.1 = p := Option.some.inj hcur
      exact ⟨a.2, by rw [← this]; rfl⟩

/-- A further group with the same PI code. -/
theorem settled_more {p : Word} {tr : List Trace} (h : Settled p tr) {hs : List Handled}
    (hc : currentStation tr = some (p, hs)) (x : Handled) (hx : groupPI x.group = some p) :
    Settled p (tr ++ [Trace.handled x]) ∧ currentStation (tr ++ [Trace.handled x]) = some (p, hs ++ [x]) := by
  obtain ⟨h1, h2, h3⟩ := h
  have key : ∀ c : CachedPI, c.confirmed = p → c.prev1 = p → c.hasPrevious = true →
      (c.update p).2 ≠ .changeConfirmed ∧ (c.update p).1.confirmed = p ∧ (c.update p).1.prev1 = p ∧
      (c.update p).1.hasPrevious = true := by
    rintro ⟨conf, a, b, hv⟩ k1 k2 k3
    dsimp only at k1 k2 k3
    subst k1 k2 k3
    simp only [CachedPI.update, CachedPI.confirm, CachedPI.dropIfNoisy]
    by_cases hab : a = b <;> simp [hab]
  unfold currentStation at hc ⊢
  have e : (tr ++ [Trace.handled x]).foldl stationStep ({}, none) =
      stationStep (tr.foldl stationStep ({}, none)) (Trace.handled x) := by
    rw [List.foldl_append, List.foldl_cons, List.foldl_nil]
  have s : ∀ q, (tr ++ [Trace.handled x]).foldl stationStep ({}, none) = q →
      q.1.confirmed = p ∧ q.1.prev1 = p ∧ q.1.hasPrevious = true ∧ q.2 = some (p, hs ++ [x]) := by
    intro q hq
    rw [← hq, e]
    generalize tr.foldl stationStep ({}, none) = r at *
    obtain ⟨k1, k2, k3, k4⟩ := key r.1 h1 h2 h3
    simp only [stationStep, hx, if_neg k1, hc, Option.map_some]
    exact ⟨k2, k3, k4, trivial⟩
  obtain ⟨s1, s2, s3, s4⟩ := s _ rfl
  exact ⟨⟨s1, s2, s3⟩, s4⟩

/-- All groups have the PI code: the station is found with the third. -/
theorem settled_all (p : Word) (hp : p ≠ 0) (tr : List Trace) (x y z : Handled) (hs : List Handled)
    (hx : groupPI x.group = some p) (hy : groupPI y.group = some p) (hz : groupPI z.group = some p)
    (h : ∀ u ∈ hs, groupPI u.group = some p) :
    ∃ old, currentStation (tr ++ (x :: y :: z :: hs).map .handled) = some (p, old ++ z :: hs) := by
  suffices H : Settled p (tr ++ (x :: y :: z :: hs).map .handled) ∧
      ∃ old, currentStation (tr ++ (x :: y :: z :: hs).map .handled) = some (p, old ++ z :: hs) from H.2
  induction hs using snocInduction with
  | nil => exact settled_three p hp tr x y z hx hy hz
  | snoc hs u ih =>
    obtain ⟨i1, old, i2⟩ := ih fun v hv => h v (by simp [hv])
    obtain ⟨k1, k2⟩ := settled_more i1 i2 u (h u (by simp))
    have e : tr ++ (x :: y :: z :: (hs ++ [u])).map Trace.handled =
        tr ++ (x :: y :: z :: hs).map .handled ++ [Trace.handled u] := by simp
    rw [e]
    exact ⟨k1, old, by rw [k2]; simp⟩

/-- The PI code of the current station is the one announced last. -/
theorem announced_current (tr : List Trace) :
    (tr.foldl stationStep ({}, none)).1 = piAfter (piEvents tr) ∧
    announcedPI tr = (currentStation tr).map Prod.fst := by
  unfold currentStation
  induction tr using snocInduction with
  | nil => exact ⟨rfl, rfl⟩
  | snoc tr t ih =>
    obtain ⟨i1, i2⟩ := ih
    rw [announcedPI_append, piEvents_append, piAfter_append, List.foldl_append, List.foldl_cons,
      List.foldl_nil, i2, ← i1]
    generalize tr.foldl stationStep ({}, none) = q
    cases t with
    | reset => exact ⟨rfl, rfl⟩
    | handled x =>
      simp only [stationStep, piEvents, List.flatMap_cons, List.flatMap_nil, List.append_nil,
        Trace.piEvents]
      cases groupPI x.group with
      | none =>
        refine ⟨rfl, ?_⟩
        simp only [Option.map_none, Option.toList_none, lastAnnounced, Option.map_map]
        cases q.2 <;> rfl
      | some p =>
        refine ⟨rfl, ?_⟩
        simp only [Option.map_some, Option.toList_some, lastAnnounced]
        split
        · rfl
        · cases q.2 <;> rfl

/-! ### Parts of a reception -/

theorem receive_split {env : Env} {st st'' : Station} (gs : List Group) (g : Group) (gs' : List Group)
    {ls : List (Option Line)} (h : Station.receive env st (gs ++ g :: gs') = some (st'', ls)) :
    ∃ st1 ls1 st2 l, Station.receive env st gs = some (st1, ls1) ∧
      st1.updateAndPrint env g = some (st2, l) ∧ ls1 = ls.take gs.length ∧ ls[gs.length]? = some l := by
  induction gs generalizing st ls with
  | nil =>
    simp only [List.nil_append, Station.receive, Option.bind_eq_some_iff, Option.map_eq_some_iff,
      Prod.mk.injEq] at h
    obtain ⟨q, h1, q', -, -, hl⟩ := h
    exact ⟨st, [], q.1, q.2, rfl, h1, rfl, by rw [← hl]; rfl⟩
  | cons a gs ih =>
    simp only [List.cons_append, Station.receive, Option.bind_eq_some_iff, Option.map_eq_some_iff,
      Prod.mk.injEq] at h
    obtain ⟨q, h1, q', h2, hst, hl⟩ := h
    obtain ⟨st1, ls1, st2, l, i1, i2, i3, i4⟩ := ih (ls := q'.2) (by rw [h2, ← hst])
    refine ⟨st1, q.2 :: ls1, st2, l, ?_, i2, ?_, ?_⟩
    · simp only [Station.receive, h1, Option.bind_some, i1, Option.map_some]
    · rw [← hl, i3]; rfl
    · rw [← hl]; exact i4

theorem decodedGroups_append (a b : List Group) (la lb : List (Option Line)) (h : la.length = a.length) :
    decodedGroups (a ++ b) (la ++ lb) = decodedGroups a la ++ decodedGroups b lb := by
  induction a generalizing la with
  | nil =>
    have : la = [] := List.length_eq_zero_iff.mp h
    subst this
    rfl
  | cons g a ih =>
    cases la with
    | nil => simp at h
    | cons l la =>
      have := ih la (by simpa using h)
      cases l with
      | none => exact this
      | some l => exact congrArg (g :: ·) this

theorem decodedGroups_all (hs : List Handled) (h : ∀ x ∈ hs, x.line.isSome = true) :
    decodedGroups (hs.map Handled.group) (hs.map Handled.line) = hs.map Handled.group := by
  induction hs with
  | nil => rfl
  | cons x hs ih =>
    have h1 := h x (by simp)
    have h2 := ih fun y hy => h y (by simp [hy])
    obtain ⟨g, l⟩ := x
    cases l with
    | none => cases h1
    | some l => exact congrArg (g :: ·) h2

end Redsea
