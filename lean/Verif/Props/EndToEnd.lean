import Verif.Lemmas.EndToEnd
import Verif.Props.StationTexts
import Verif.Props.StationRadiotext
import Verif.Props.Utf8

/-
Property C70: from the bits of a station, in whatever portions and with repairable errors, to the lines
that are printed.
-/

namespace Redsea
open _root_.Spec _root_.Redsea.Spec BlockStream

/-- The bits of a station reach a channel. The calls `past` were made before; they may be anything,
as long as a group was just completed (the receiver is synchronised). The calls `calls` then bring
the bits of the groups `sent` by a station with PI code `p`, in any portions, with errors that can be
corrected. -/
structure Reception (o : Options) (past calls : List ChannelEvent) (p : Word)
    (sent : List (Broadcast × Damage)) : Prop where
  past_valid : ∀ e ∈ past, e.Valid
  sync : ∃ bs bit g, fedBits 0 past = bs ++ [bit] ∧ deliveredAt o.useFec bs bit = some g
  only_bits : ∀ e ∈ calls, e.OnlyBits
  bits : fedBits 0 calls = sent.flatMap fun q => (q.1.onAir p).damagedBits q.2
  sendable : ∀ q ∈ sent, q.1.Sendable p
  repairable : ∀ q ∈ sent, Repairable o.useFec (q.1.onAir p) q.2
  tolerable : ∀ k, let log := checkLog o.useFec (fedBits 0 past) ++ (sent.flatMap fun q => q.2.hits).take k
    (log.drop (log.length - 50)).sum ≤ 42

section

variable {env : Env} (hk : env.tmc.KeysOk) (delay : Nat → Int) {o : Options} (w : Nat)
  {past calls : List ChannelEvent} {p : Word} {sent : List (Broadcast × Damage)}
  (r : Reception o past calls p sent)

include hk r

/-- The groups of a reception are handled one by one. -/
theorem reception_handled : ∃ c0 c tr0, ∃ hs : List Handled,
    Channel.run env delay (Channel.new o w) past = some (c0, tr0) ∧
    Channel.run env delay (Channel.new o w) (past ++ calls) = some (c, tr0 ++ hs.map .handled) ∧
    hs.length = sent.length ∧
    ∀ (i : Nat) (s : Broadcast) (e : Damage), sent[i]? = some (s, e) → ∃ x : Handled, hs[i]? = some x ∧ Intact s p x.group ∧
      x.group.core = (rxGroup (s.onAir p) e).core := by
  obtain ⟨c, tr, hrun⟩ := C60_never_fails env hk delay o w (past ++ calls) (by
    intro e he
    rcases List.mem_append.mp he with he | he
    · exact r.past_valid e he
    · have := r.only_bits e he
      cases e with
      | bit _ _ s => exact (show s = 0 from this) ▸ (by decide : (0 : Nat) < 4)
      | bits _ _ s => exact (show s = 0 from this) ▸ (by decide : (0 : Nat) < 4)
      | group => trivial
      | flush => trivial
      | resetPI => trivial)
  have hrun' := hrun
  rw [run_run] at hrun
  obtain ⟨⟨c0, tr0⟩, h0, hrun⟩ := Option.bind_eq_some_iff.mp hrun
  obtain ⟨q, h1, hq⟩ := Option.map_eq_some_iff.mp hrun
  simp only [Prod.mk.injEq] at hq
  obtain ⟨rfl, htr⟩ := hq
  obtain ⟨bs, bit, g, hb, hd⟩ := r.sync
  have hstream := run_streams past h0 0 (by omega)
  obtain ⟨hs, e1, e2⟩ := run_handled calls r.only_bits hstream h1
  have hopt : c0.options = o := (run_fed past h0 0).1
  obtain ⟨a1, a2, -⟩ := delivered_boundary hd
  have htol := r.tolerable
  rw [hb] at htol
  obtain ⟨t, hr, -⟩ := run_groups (sent.map fun q => (q.1.onAir p, q.2)) (stateAfter o.useFec (bs ++ [bit]))
    (checkLog o.useFec (bs ++ [bit])) a1 a2 (by
      intro q hq
      obtain ⟨q0, hq0, rfl⟩ := List.mem_map.mp hq
      exact (r.repairable q0 hq0).acceptable) (inv_stateAfter o.useFec (bs ++ [bit])).rot
    (by intro k; rw [errWindow_sum, List.flatMap_map]; exact htol k)
  rw [List.flatMap_map] at hr
  dsimp only at hr
  rw [hopt, r.bits, hb, hr, List.map_map, List.map_map] at e2
  have hlen : hs.length = sent.length := by
    have := congrArg List.length e2
    simpa using this
  refine ⟨c0, q.1, tr0, hs, h0, ?_, hlen, ?_⟩
  · rw [hrun', ← htr, e1]
  · intro i s e hi
    have hil : i < hs.length := by
      rw [hlen]
      exact (List.getElem?_eq_some_iff.mp hi).1
    refine ⟨hs[i], List.getElem?_eq_getElem hil, ?_⟩
    have hc : hs[i].group.core = (rxGroup (s.onAir p) e).core ∧ hs[i].group.dataStream = 0 := by
      have := congrArg (fun l => l[i]?) e2
      simp only [List.getElem?_map, hi, List.getElem?_eq_getElem hil, Option.map_some,
        Function.comp_apply] at this
      have := Option.some.inj this
      simp only [Prod.mk.injEq] at this
      exact this
    exact ⟨intact_of_core (r.sendable _ (List.mem_of_getElem? hi)).valid hc.1 hc.2, hc.1⟩

omit r in
/-- The station when a group of a reception comes, from the third group on. -/
theorem reception_line (ho : o.outputType ≠ .hex) (hp : p ≠ 0) {c : Channel} {tr0 : List Trace}
    {hs : List Handled}
    (hrun : Channel.run env delay (Channel.new o w) (past ++ calls) = some (c, tr0 ++ hs.map .handled))
    (hlen : hs.length = sent.length)
    (hall : ∀ (i : Nat) (s : Broadcast) (e : Damage), sent[i]? = some (s, e) →
      ∃ x : Handled, hs[i]? = some x ∧ Intact s p x.group ∧ x.group.core = (rxGroup (s.onAir p) e).core)
    (i : Nat) (hi : 2 ≤ i) (x : Handled) (hx : hs[i]? = some x) :
    ∃ old st st' ls l ds, Station.receive env (Station.withPI o w p)
        ((old ++ (hs.take i).drop 2).map Handled.group) = some (st, ls) ∧
      st.updateAndPrint env x.group = some (st', some l) ∧ x.line = some l ∧
      decodedGroups ((old ++ (hs.take i).drop 2).map Handled.group) ls =
        ds ++ ((hs.take i).drop 2).map Handled.group := by
  have hil := (List.getElem?_eq_some_iff.mp hx).1
  have hin : ∀ (k : Nat) (u : Handled), hs[k]? = some u → ∃ s e, sent[k]? = some (s, e) ∧ Intact s p u.group := by
    intro k u hu
    have hk' := (List.getElem?_eq_some_iff.mp hu).1
    obtain ⟨u', h1, h2, -⟩ := hall k sent[k].1 sent[k].2 (List.getElem?_eq_getElem (by omega))
    rw [hu] at h1
    cases h1
    exact ⟨_, _, List.getElem?_eq_getElem (by omega), h2⟩
  have hpi : ∀ u ∈ hs, groupPI u.group = some p ∧ u.group.hasNothing = false := by
    intro u hu
    obtain ⟨k, hk', rfl⟩ := List.getElem_of_mem hu
    obtain ⟨s, e, -, h2⟩ := hin k _ (List.getElem?_eq_getElem hk')
    exact ⟨h2.pi, h2.something⟩
  -- the first three groups
  obtain ⟨h0, h1, h2, rest, rfl⟩ : ∃ h0 h1 h2 rest, hs = h0 :: h1 :: h2 :: rest := by
    match hs, hil with
    | h0 :: h1 :: h2 :: rest, _ => exact ⟨h0, h1, h2, rest, rfl⟩
    | [], hil => simp at hil
    | [_], hil => simp at hil; omega
    | [_, _], hil => simp at hil; omega
  have hcur : ∀ l, l <+: rest → ∃ old, currentStation (tr0 ++ (h0 :: h1 :: h2 :: l).map .handled) =
      some (p, old ++ h2 :: l) := fun l hl =>
    settled_all p hp tr0 h0 h1 h2 l (hpi h0 (by simp)).1 (hpi h1 (by simp)).1 (hpi h2 (by simp)).1
      fun u hu => (hpi u (by simp [hl.subset hu])).1
  -- all lines from the third on are printed
  have hlines : ∀ u ∈ h2 :: rest, u.line.isSome = true := by
    intro u hu
    obtain ⟨a, b, hab⟩ := List.append_of_mem hu
    refine (C23_printed_iff env hk delay o w _ _ _ hrun ho (tr0 ++ (h0 :: h1 :: a).map .handled) u
      (b.map .handled) (by simp [hab])).mpr ⟨?_, fun _ => ⟨(hpi u (by simp [List.mem_cons.mp hu])).2, .inl ?_⟩⟩
    · rw [(announced_current _).2]
      cases a with
      | nil =>
        simp only [List.nil_append, List.cons.injEq] at hab
        obtain ⟨old, ho'⟩ := hcur [] List.nil_prefix
        have e : tr0 ++ [h0, h1].map Trace.handled ++ [Trace.handled u] =
            tr0 ++ [h0, h1, h2].map Trace.handled := by simp [hab.1]
        rw [e, ho']
        rfl
      | cons y a =>
        simp only [List.cons_append, List.cons.injEq] at hab
        obtain ⟨rfl, hab⟩ := hab
        obtain ⟨old, ho'⟩ := hcur (a ++ [u]) ⟨b, by rw [hab]; simp⟩
        have e : tr0 ++ (h0 :: h1 :: h2 :: a).map Trace.handled ++ [Trace.handled u] =
            tr0 ++ (h0 :: h1 :: h2 :: (a ++ [u])).map Trace.handled := by simp
        rw [e, ho']
        rfl
    · rw [(hpi u (by simp [List.mem_cons.mp hu])).1]
      rfl
  obtain ⟨old, hcr⟩ := hcur rest (List.prefix_refl _)
  have hrec := C19_station_of_channel env delay o ho w _ _ _ hrun p _ hcr
  -- up to the group
  obtain ⟨k, rfl⟩ : ∃ k, i = k + 2 := ⟨i - 2, by omega⟩
  have hxk : (h2 :: rest)[k]? = some x := hx
  have hmid : ((h0 :: h1 :: h2 :: rest).take (k + 2)).drop 2 = (h2 :: rest).take k := rfl
  rw [hmid]
  have hsplit : old ++ h2 :: rest = (old ++ (h2 :: rest).take k) ++ x :: (h2 :: rest).drop (k + 1) := by
    have : (h2 :: rest).drop k = x :: (h2 :: rest).drop (k + 1) := by
      obtain ⟨hlt, hxe⟩ := List.getElem?_eq_some_iff.mp hxk
      rw [List.drop_eq_getElem_cons hlt, hxe]
    rw [List.append_assoc, ← this, List.take_append_drop]
  rw [hsplit, List.map_append, List.map_cons] at hrec
  obtain ⟨st1, ls1, st2, l, r1, r2, r3, r4⟩ := receive_split _ _ _ hrec
  have hls : List.map Handled.line ((old ++ (h2 :: rest).take k) ++ x :: (h2 :: rest).drop (k + 1)) =
      (old ++ (h2 :: rest).take k).map Handled.line ++ x.line :: ((h2 :: rest).drop (k + 1)).map Handled.line := by
    simp
  rw [hls] at r3 r4
  rw [List.length_map, List.take_left' (by simp)] at r3
  rw [List.length_map, List.getElem?_append_right (by simp), List.length_map, Nat.sub_self] at r4
  have r4 : some x.line = some l := r4
  have hxl := hlines x (List.mem_of_getElem? hxk)
  obtain ⟨l', hl'⟩ := Option.isSome_iff_exists.mp hxl
  rw [hl'] at r4
  cases Option.some.inj r4
  refine ⟨old, st1, st2, ls1, l', decodedGroups (old.map Handled.group) (old.map Handled.line), r1, r2, hl', ?_⟩
  rw [r3, List.map_append, List.map_append, decodedGroups_append _ _ _ _ (by simp),
    decodedGroups_all ((h2 :: rest).take k) fun u hu => hlines u (List.mem_of_mem_take hu)]

/-- The lines of a reception. -/
theorem reception_lines : ∃ c tr0, ∃ hs : List Handled,
    Channel.run env delay (Channel.new o w) (past ++ calls) = some (c, tr0 ++ hs.map .handled) ∧
    linesDuring env delay o w past calls = some (hs.map Handled.line) ∧
    hs.length = sent.length ∧
    ∀ (i : Nat) (s : Broadcast) (e : Damage), sent[i]? = some (s, e) → ∃ x : Handled, hs[i]? = some x ∧ Intact s p x.group ∧
      x.group.core = (rxGroup (s.onAir p) e).core := by
  obtain ⟨c0, c, tr0, hs, h0, h1, h2, h3⟩ := reception_handled hk delay w r
  refine ⟨c, tr0, hs, h1, ?_, h2, h3⟩
  rw [run_run, h0, Option.bind_some] at h1
  obtain ⟨q, hq, he⟩ := Option.map_eq_some_iff.mp h1
  simp only [Prod.mk.injEq, List.append_cancel_left_eq] at he
  unfold linesDuring
  rw [h0, Option.bind_eq_bind, Option.bind_some, hq, Option.bind_some, he.2, Option.pure_def,
    List.filterMap_map]
  exact congrArg some (congrFun (List.filterMap_eq_map (f := Handled.line)) hs)

end

theorem inOrder_zip (bs : List Byte) :
    ((List.range bs.length).zip bs).map (fun x => TextOp.recv x.1 x.2) = inOrder 0 bs := by
  have key : ∀ (bs : List Byte) (k : Nat),
      ((List.range' k bs.length).zip bs).map (fun x => TextOp.recv x.1 x.2) = inOrder k bs := by
    intro bs
    induction bs with
    | nil => intro k; rfl
    | cons b bs ih =>
      intro k
      rw [List.length_cons, List.range'_succ, List.zip_cons_cons, List.map_cons, ih]
      rfl
  rw [List.range_eq_range']
  exact key bs 0

/-- What the groups of a reception have in common with the groups sent. -/
theorem map_intact {α : Type} {hs : List Handled} {sent : List (Broadcast × Damage)} {p : Word}
    (hlen : hs.length = sent.length)
    (hall : ∀ (i : Nat) (s : Broadcast) (e : Damage), sent[i]? = some (s, e) →
      ∃ x : Handled, hs[i]? = some x ∧ Intact s p x.group ∧ x.group.core = (rxGroup (s.onAir p) e).core)
    (valid : ∀ q ∈ sent, q.1.Valid) (F : Group → α) (G : Broadcast → α)
    (h : ∀ s g, s.Valid → Intact s p g → F g = G s) :
    hs.map (fun x => F x.group) = sent.map fun q => G q.1 := by
  apply List.ext_getElem?
  intro i
  rw [List.getElem?_map, List.getElem?_map]
  cases hs' : sent[i]? with
  | none => rw [List.getElem?_eq_none (by rw [hlen]; exact List.getElem?_eq_none_iff.mp hs')]; rfl
  | some q =>
    obtain ⟨x, hx, hi, -⟩ := hall i q.1 q.2 hs'
    rw [hx]
    exact congrArg some (h q.1 x.group (valid q (List.mem_of_getElem? hs')) hi)

theorem heard_low {s : Broadcast} {g : Group} (v : s.Valid) (h : s.HeardAs g) :
    g.block2.data.toNat % 32 = s.low := by
  rw [h.block2, block2_nat v]
  have := v.low
  omega

theorem intact_ps {s : Broadcast} {p : Word} {g : Group} (v : s.Valid) (h : Intact s p g) (ds : List Group) :
    psOps ds g = s.psChars.map fun x => .recv x.1 x.2 := by
  have hl := heard_low v h.heard
  have e : g.block2.data.toNat % 4 = s.low % 4 := by omega
  unfold psOps Broadcast.psChars
  rw [e, h.heard.block4 h.received4, h.heard.type, h.heard.typed]
  have hu : RtUsable g = true := by unfold RtUsable; rw [h.received3, h.received4]; rfl
  by_cases h0 : s.number = 0
  · rw [if_pos h0, if_pos]
    · rfl
    · refine ⟨rfl, ?_, hu⟩
      rw [h0]
      cases s.versionB
      · exact .inl rfl
      · exact .inr rfl
  · rw [if_neg h0, if_neg]
    · rfl
    · rintro ⟨-, h1 | h1, -⟩ <;> exact h0 (congrArg GroupType.number h1)

theorem history_flatMap {α : Type} (f : List Group → Group → List α) (F : Group → List α)
    (h : ∀ ds g, f ds g = F g) (gs : List Group) : history f gs = gs.flatMap F := by
  induction gs using snocInduction with
  | nil => rfl
  | snoc gs g ih => rw [history_snoc, ih, h, List.flatMap_append, List.flatMap_singleton]

theorem hexPadded4 (d : Word) : hexPadded 4 d.toNat = hexWord d := by
  have hp : d.toNat < 65536 := d.isLt
  have h4 : d.toNat / 16 / 16 / 16 % 16 = d.toNat / 4096 := by omega
  have h3 : d.toNat / 16 / 16 % 16 = d.toNat / 256 % 16 := by omega
  simp only [hexPadded, hexDigit_eq, hexWord, h3, h4, List.nil_append, List.cons_append]

/-- Lines in hexadecimal form. -/
theorem run_hexFacts (env : Env) (hk : env.tmc.KeysOk) (delay : Nat → Int) (o : Options) (w : Nat)
    (es : List ChannelEvent) (c : Channel) (tr : List Trace)
    (h : Channel.run env delay (Channel.new o w) es = some (c, tr)) (ho : o.outputType = .hex)
    (ht : o.timestamp = false)
    (pre : List Trace) (x : Handled) (post : List Trace) (htr : tr = pre ++ .handled x :: post) :
    x.line = if x.group.isEmpty then none else some (.hex (printAsHex x.group none)) := by
  have I := inv_facts (idInv hk o w)
    (fun _ x => x.line = if x.group.isEmpty then none else some (.hex (printAsHex x.group none)))
    (by
      intro tr c g s c' h i he
      obtain ⟨c1, g1, h1, -, hout⟩ := handleGroup_parts he
      obtain ⟨b, r, -, rfl⟩ := addBler_group c g c1 g1 h1
      have hopt : (Channel.updatePI { c with blerAverage := r } h.group).options = o := by
        rw [← i.options]
        unfold Channel.updatePI
        dsimp only
        split
        · split <;> rfl
        · rfl
      unfold Channel.output at hout
      rw [hopt, if_pos ho, ht] at hout
      exact (congrArg Prod.snd (Option.some.inj hout)).symm)
  have := inv_calls I es (tr := []) (c := Channel.new o w)
    ⟨⟨channel_new_good o w, rfl, rfl, rfl, rfl, (by intro p hp; cases hp),
      (by intro _ hh; cases hh), rfl, rfl⟩, by intro pre h post hh; simp at hh⟩ h
  rw [List.nil_append] at this
  exact this.2 pre x post htr

/-- What is seen of a group with regard to RadioText. -/
def rtView (g : Group) : Bool × Bool × Bool × List (Nat × Byte) × Bool :=
  (rtGroup g, rtIsA g, rtFlag g, rtReceptions g, g.hasType && decide (g.type ∈ fixedTypes))

theorem intact_rt {s : Broadcast} {p : Word} {g : Group} (v : s.Valid) (h : Intact s p g) :
    rtView g = (decide (s.number = 2), !s.versionB, s.textFlag == 1,
      (if s.versionB then [(2 * (s.low % 16), hiByte s.block4), (2 * (s.low % 16) + 1, loByte s.block4)]
      else [(4 * (s.low % 16), hiByte s.block3), (4 * (s.low % 16) + 1, loByte s.block3),
        (4 * (s.low % 16) + 2, hiByte s.block4), (4 * (s.low % 16) + 3, loByte s.block4)]), decide s.Fixed) := by
  have hl := heard_low v h.heard
  have hlow := v.low
  have e : g.block2.data.toNat % 16 = s.low % 16 := by omega
  have hu : RtUsable g = true := by unfold RtUsable; rw [h.received3, h.received4]; rfl
  have hA : rtIsA g = !s.versionB := by
    unfold rtIsA
    rw [h.heard.type]
    cases s.versionB <;> rfl
  unfold rtView rtGroup rtReceptions Broadcast.Fixed
  simp only [Prod.mk.injEq]
  refine ⟨?_, hA, ?_, ?_, ?_⟩
  · rw [hu, h.heard.typed, h.heard.type, Bool.true_and, Bool.and_true]
    cases s.versionB <;> simp
  · unfold rtFlag Broadcast.textFlag
    have : g.block2.data.toNat / 16 % 2 = s.low / 16 := by omega
    rw [this]
  · rw [hA, e, h.heard.block3 h.received3, h.heard.block4 h.received4]
    cases s.versionB <;> rfl
  · rw [h.heard.typed, h.heard.type, Bool.true_and]

theorem rt_historyFrom (before : List Group) (g1 : Group) (h1 : rtGroup g1 = true) (gs : List Group)
    (hf : ∀ g ∈ gs, (g.hasType && decide (g.type ∈ fixedTypes)) = true)
    (hs : ∀ g ∈ gs, rtGroup g = true → rtFlag g = rtFlag g1) :
    ∃ c, historyFrom radiotextOps before (g1 :: gs) = c ++ (g1 :: gs).flatMap fun g =>
        if rtGroup g then (rtReceptions g).map fun x => TextOp.recv x.1 x.2 else [] := by
  have hlast : ∀ l : List Group, (∀ g ∈ l, rtGroup g = true → rtFlag g = rtFlag g1) →
      lastFlag rtGroup (before ++ g1 :: l) = rtFlag g1 := by
    intro l
    induction l using snocInduction with
    | nil => intro _; rw [lastFlag_snoc, if_pos h1]
    | snoc l g ih =>
      intro h
      have := ih fun u hu => h u (by simp [hu])
      rw [show before ++ g1 :: (l ++ [g]) = (before ++ g1 :: l) ++ [g] by simp, lastFlag_snoc]
      split
      · rename_i hg
        exact h g (by simp) hg
      · exact this
  induction gs using snocInduction with
  | nil =>
    refine ⟨if rtFlag g1 != lastFlag rtGroup before then [.clear] else [], ?_⟩
    simp only [historyFrom, radiotextOps, h1, if_true, List.append_nil, List.flatMap_singleton]
  | snoc gs g ih =>
    obtain ⟨c, hc⟩ := ih (fun u hu => hf u (by simp [hu])) fun u hu => hs u (by simp [hu])
    refine ⟨c, ?_⟩
    rw [← List.cons_append, historyFrom_snoc, hc, List.flatMap_append, List.flatMap_singleton,
      List.append_assoc]
    congr 2
    unfold radiotextOps
    cases hg : rtGroup g with
    | true =>
      rw [if_pos rfl, if_pos rfl, hlast gs fun u hu => hs u (by simp [hu]), hs g (by simp) hg,
        bne_self_eq_false, if_neg (by decide), List.nil_append]
    | false =>
      have := hf g (by simp)
      simp only [Bool.and_eq_true, decide_eq_true_eq] at this
      have hn : appGroup 0x4BD7 (before ++ g1 :: gs) g = false := by
        unfold appGroup
        rw [decide_eq_false (not_not.mpr this.2)]
        simp
      rw [hn]
      rfl

section

variable {env : Env} (hk : env.tmc.KeysOk) (delay : Nat → Int) {o : Options} (w : Nat)
  {past calls : List ChannelEvent} {p : Word} {sent : List (Broadcast × Damage)}
  (r : Reception o past calls p sent)

include hk r

/-- **C70**, every group is printed. Whatever the channel received before, if a station with PI code `p` is then
received in synchronism and with correctable errors only, there is one output for each group that was sent, and
from the third on it is a line with the PI code, the type of the group, the traffic programme flag and the
programme type. The line is an error report at most if the group may belong to an open data application. -/
theorem C70_every_group_printed (he : env.Utf8) (ho : o.outputType ≠ .hex) (hp : p ≠ 0) :
    ∃ lines, linesDuring env delay o w past calls = some lines ∧ lines.length = sent.length ∧
      ∀ (i : Nat) (s : Broadcast) (e : Damage), 2 ≤ i → sent[i]? = some (s, e) →
        ∃ l, lines[i]? = some (some l) ∧ (s.Fixed → l ≠ .error) ∧
          (l = .error ∨ ∃ j, l = .json j ∧ j.get? "pi" = some (.str (piText p)) ∧
            j.at? ["group"] = some (.str (typeText s.number s.versionB)) ∧
            j.at? ["tp"] = some (.bool s.tp) ∧
            ∃ t, ptyName o.rbds s.pty = some t ∧ j.at? ["prog_type"] = some (.str t)) := by
  obtain ⟨c, tr0, hs, hrun, hlines, hlen, hall⟩ := reception_lines hk delay w r
  refine ⟨_, hlines, by rw [List.length_map, hlen], ?_⟩
  intro i s e hi hse
  obtain ⟨x, hx, hint, -⟩ := hall i s e hse
  obtain ⟨old, st, st', ls, l, ds, h1, h2, h3, h4⟩ := reception_line hk delay w ho hp hrun hlen hall i hi x hx
  refine ⟨l, by rw [List.getElem?_map, hx, Option.map_some, h3], ?_, ?_⟩
  · intro hfix
    have hm : x.group.type ∈ fixedTypes := by rw [hint.heard.type]; exact hfix
    obtain ⟨j, hj, -⟩ := C71_valid_output_partial env hk he o w p _ st ls h1 x.group st' l h2
      (fun _ => by unfold plainGroup; rw [decide_eq_true hm]; simp)
      (by unfold trafficGroup; rw [decide_eq_false (not_not.mpr hm)]; intro h; cases h)
    rw [hj]
    intro h
    cases h
  · have hil := (List.getElem?_eq_some_iff.mp hx).1
    have hsplit : hs = hs.take i ++ x :: hs.drop (i + 1) := by
      have hd : hs.drop i = x :: hs.drop (i + 1) := by
        obtain ⟨hlt, hxe⟩ := List.getElem?_eq_some_iff.mp hx
        rw [List.drop_eq_getElem_cons hlt, hxe]
      rw [← hd, List.take_append_drop]
    obtain ⟨p', ha, hcase⟩ := C18_json_has_confirmed_pi_partial env hk delay o w _ _ _ hrun ho
      (tr0 ++ (hs.take i).map .handled) x ((hs.drop (i + 1)).map .handled)
      (by conv => lhs; rw [hsplit]
          simp) l h3
    rcases hcase with rfl | ⟨j, rfl, hpi⟩
    · exact .inl rfl
    · refine .inr ⟨j, rfl, ?_, C62_common hk h1 h2 (r.sendable _ (List.mem_of_getElem? hse)).valid hint.heard⟩
      rw [hpi hint.isAB]
      have hpis : ∀ u ∈ hs, groupPI u.group = some p := by
        intro u hu
        obtain ⟨k, hk', rfl⟩ := List.getElem_of_mem hu
        obtain ⟨u', e1, e2, -⟩ := hall k sent[k].1 sent[k].2 (List.getElem?_eq_getElem (by omega))
        rw [List.getElem?_eq_getElem hk'] at e1
        cases e1
        exact e2.pi
      have hcur : ∃ old', currentStation (tr0 ++ (hs.take i).map Trace.handled ++ [Trace.handled x]) = some (p, old') := by
        have e1 : tr0 ++ (hs.take i).map Trace.handled ++ [Trace.handled x] =
            tr0 ++ (hs.take (i + 1)).map Trace.handled := by
          rw [List.take_add_one, hx]
          simp
        rw [e1]
        have hpis' : ∀ u ∈ hs.take (i + 1), groupPI u.group = some p := fun u hu => hpis u (List.mem_of_mem_take hu)
        have hl : 3 ≤ (hs.take (i + 1)).length := by
          rw [List.length_take]
          omega
        generalize hs.take (i + 1) = hs' at hpis' hl
        match hs', hpis', hl with
        | a :: b :: c :: l, hpis', _ =>
          obtain ⟨old', h⟩ := settled_all p hp tr0 a b c l (hpis' a (by simp)) (hpis' b (by simp)) (hpis' c (by simp))
            fun u hu => hpis' u (by simp [hu])
          exact ⟨_, h⟩
      obtain ⟨old', hcur⟩ := hcur
      have := (announced_current (tr0 ++ (hs.take i).map Trace.handled ++ [Trace.handled x])).2
      rw [ha, hcur] at this
      cases Option.some.inj this
      rfl

omit r in
/-- A group of a reception that has a fixed function, and the station's history. -/
theorem fixed_line (he : env.Utf8) (ho : o.outputType ≠ .hex) (hp : p ≠ 0) {c : Channel} {tr0 : List Trace}
    {hs : List Handled}
    (hrun : Channel.run env delay (Channel.new o w) (past ++ calls) = some (c, tr0 ++ hs.map .handled))
    (hlen : hs.length = sent.length)
    (hall : ∀ (i : Nat) (s : Broadcast) (e : Damage), sent[i]? = some (s, e) →
      ∃ x : Handled, hs[i]? = some x ∧ Intact s p x.group ∧ x.group.core = (rxGroup (s.onAir p) e).core)
    (i : Nat) (hi : 2 ≤ i) (s : Broadcast) (e : Damage) (hse : sent[i]? = some (s, e)) (hfix : s.Fixed) :
    ∃ x : Handled, hs[i]? = some x ∧ Intact s p x.group ∧ ∃ gs st st' ls j ds,
      Station.receive env (Station.withPI o w p) gs = some (st, ls) ∧
      st.updateAndPrint env x.group = some (st', some (.json j)) ∧ x.line = some (.json j) ∧
      decodedGroups gs ls ++ [x.group] = ds ++ ((hs.take (i + 1)).drop 2).map Handled.group := by
  obtain ⟨x, hx, hint, -⟩ := hall i s e hse
  obtain ⟨old, st, st', ls, l, ds, h1, h2, h3, h4⟩ := reception_line hk delay w ho hp hrun hlen hall i hi x hx
  have hm : x.group.type ∈ fixedTypes := by rw [hint.heard.type]; exact hfix
  obtain ⟨j, rfl, -⟩ := C71_valid_output_partial env hk he o w p _ st ls h1 x.group st' l h2
    (fun _ => by unfold plainGroup; rw [decide_eq_true hm]; simp)
    (by unfold trafficGroup; rw [decide_eq_false (not_not.mpr hm)]; intro h; cases h)
  refine ⟨x, hx, hint, _, st, st', ls, j, ds, h1, h2, h3, ?_⟩
  have hlt := (List.getElem?_eq_some_iff.mp hx).1
  rw [h4, List.append_assoc, List.take_add_one, hx, List.drop_append_of_le_length (by rw [List.length_take]; omega),
    List.map_append]
  rfl

/-- **C70**, the programme service name is printed. In a reception as in `C70_every_group_printed`, if the
characters sent in the groups from the third to the `i`-th end in a whole name in order (with anything after its
end), and group `i` is of type 0, then the name is printed with group `i`. -/
theorem C70_ps_printed (he : env.Utf8) (ho : o.outputType ≠ .hex) (hp : p ≠ 0) (i : Nat) (hi : 2 ≤ i) (s : Broadcast)
    (e : Damage) (hse : sent[i]? = some (s, e)) (h0 : s.number = 0) (earlier later : List (Nat × Byte))
    (bs : List Byte) (hw : WholeText 8 bs) (hl : ∀ x ∈ later, bs.length ≤ x.1)
    (hchars : (((sent.take (i + 1)).drop 2).flatMap fun q => q.1.psChars) =
      earlier ++ (List.range bs.length).zip bs ++ later) :
    ∃ lines j, linesDuring env delay o w past calls = some lines ∧ lines[i]? = some (some (.json j)) ∧
      j.at? ["ps"] = some (.str (rdsText (bs.map display))) := by
  obtain ⟨c, tr0, hs, hrun, hlines, hlen, hall⟩ := reception_lines hk delay w r
  have hfix : s.Fixed := by
    unfold Broadcast.Fixed
    rw [h0]
    cases s.versionB <;> decide
  obtain ⟨x, hx, hint, gs, st, st', ls, j, ds, h1, h2, h3, h4⟩ :=
    fixed_line hk delay w he ho hp hrun hlen hall i hi s e hse hfix
  have hval : ∀ q ∈ sent, q.1.Valid := fun q hq => (r.sendable q hq).valid
  refine ⟨_, j, hlines, by rw [List.getElem?_map, hx, Option.map_some, h3], ?_⟩
  refine C63_ps_complete env hk o w p gs st ls h1 x.group st' j h2 ?_
    (history psOps ds ++ earlier.map fun x => .recv x.1 x.2) bs hw later hl ?_
  · rw [intact_ps (hval _ (List.mem_of_getElem? hse)) hint, Broadcast.psChars, if_pos h0]
    simp
  · have hmap := map_intact hlen hall hval (psOps []) (fun s => s.psChars.map fun x => TextOp.recv x.1 x.2)
      fun s g v h => intact_ps v h []
    have hmap := congrArg (fun l => ((l.take (i + 1)).drop 2).flatten) hmap
    simp only [← List.map_take, ← List.map_drop, ← List.flatMap_def] at hmap
    have hconst : ∀ ds g, psOps ds g = psOps [] g := fun _ _ => rfl
    rw [h4, history_flatMap psOps (psOps []) hconst, List.flatMap_append, List.flatMap_map, hmap,
      ← history_flatMap psOps (psOps []) hconst ds, List.append_assoc]
    congr 1
    have := congrArg (List.map fun x : Nat × Byte => TextOp.recv x.1 x.2) hchars
    rw [List.map_flatMap] at this
    rw [this, List.map_append, List.map_append, inOrder_zip, List.append_assoc]

/-- **C70**, RadioText is printed. In a reception as in `C70_every_group_printed`, consider the groups from some type 2
group `s1` (the third group or later) up to the `i`-th. If they have fixed functions, are not mixed from 2A and 2B, and
do not change the A/B flag, and the characters sent in them end in a whole text in order (with anything after its
end), and group `i` is of type 2, then the text is printed with group `i`, without trailing blanks. -/
theorem C70_radiotext_printed (he : env.Utf8) (ho : o.outputType ≠ .hex) (hp : p ≠ 0) (i : Nat) (hi : 2 ≤ i)
    (s : Broadcast) (e : Damage) (hse : sent[i]? = some (s, e)) (h2 : s.number = 2)
    (before : List (Broadcast × Damage)) (s1 : Broadcast × Damage) (rest : List (Broadcast × Damage))
    (hsent : (sent.take (i + 1)).drop 2 = before ++ s1 :: rest) (hs1 : s1.1.number = 2)
    (hfix : ∀ q ∈ rest, q.1.Fixed)
    (hsame : ∀ q ∈ rest, q.1.number = 2 → q.1.versionB = s1.1.versionB ∧ q.1.textFlag = s1.1.textFlag)
    (earlier later : List (Nat × Byte)) (bs : List Byte)
    (hw : WholeText (if s1.1.versionB then 32 else 64) bs) (hl : ∀ x ∈ later, bs.length ≤ x.1)
    (hchars : ((s1 :: rest).flatMap fun q => q.1.rtChars) = earlier ++ (List.range bs.length).zip bs ++ later) :
    ∃ lines j, linesDuring env delay o w past calls = some lines ∧ lines[i]? = some (some (.json j)) ∧
      j.at? ["radiotext"] = some (.str (rtrim (rdsText (bs.map display)))) := by
  obtain ⟨c, tr0, hs, hrun, hlines, hlen, hall⟩ := reception_lines hk delay w r
  have hfixs : s.Fixed := by
    unfold Broadcast.Fixed
    rw [h2]
    cases s.versionB <;> decide
  obtain ⟨x, hx, hint, gs, st, st', ls, j, ds, k1, k2, k3, k4⟩ :=
    fixed_line hk delay w he ho hp hrun hlen hall i hi s e hse hfixs
  have hval : ∀ q ∈ sent, q.1.Valid := fun q hq => (r.sendable q hq).valid
  refine ⟨_, j, hlines, by rw [List.getElem?_map, hx, Option.map_some, k3], ?_⟩
  have hmap := map_intact hlen hall hval rtView _ fun s g v h => intact_rt v h
  have hmap := congrArg (fun l => (l.take (i + 1)).drop 2) hmap
  simp only [← List.map_take, ← List.map_drop] at hmap
  rw [hsent, List.map_append, List.map_cons] at hmap
  obtain ⟨ha, hb, hab, -, hb'⟩ := List.map_eq_append_iff.mp hmap
  obtain ⟨x1, hr, rfl, hx1, hrest⟩ := List.map_eq_cons_iff.mp hb'
  simp only [rtView, Prod.mk.injEq] at hx1
  obtain ⟨g1, g2, g3, g4, -⟩ := hx1
  rw [hs1, decide_eq_true rfl] at g1
  have hview : ∀ u ∈ hr, ∃ q ∈ rest, rtGroup u.group = decide (q.1.number = 2) ∧ rtIsA u.group = !q.1.versionB ∧
      rtFlag u.group = (q.1.textFlag == 1) ∧
      (u.group.hasType && decide (u.group.type ∈ fixedTypes)) = decide q.1.Fixed := by
    intro u hu
    have : rtView u.group ∈ hr.map fun x => rtView x.group := List.mem_map_of_mem hu
    rw [hrest] at this
    obtain ⟨q, hq, hqe⟩ := List.mem_map.mp this
    simp only [rtView, Prod.mk.injEq] at hqe
    exact ⟨q, hq, hqe.1.symm, hqe.2.1.symm, hqe.2.2.1.symm, hqe.2.2.2.2.symm⟩
  rw [hab, List.map_append, List.map_cons, ← List.append_assoc] at k4
  obtain ⟨cl, hcl⟩ := rt_historyFrom (ds ++ ha.map Handled.group) x1.group g1 (hr.map Handled.group) (by
      intro g hg
      obtain ⟨u, hu, rfl⟩ := List.mem_map.mp hg
      obtain ⟨q, hq, -, -, -, e4⟩ := hview u hu
      rw [e4]
      exact decide_eq_true (hfix q hq)) (by
      intro g hg hrt
      obtain ⟨u, hu, rfl⟩ := List.mem_map.mp hg
      obtain ⟨q, hq, e1, -, e3, -⟩ := hview u hu
      rw [e3, g3, (hsame q hq (by rw [hrt] at e1; exact of_decide_eq_true e1.symm)).2])
  refine C63_radiotext_complete env hk o w p gs st ls k1 x.group st' j k2 ?_ _ _ _ k4 g1 ?_
    (cl ++ earlier.map fun x => .recv x.1 x.2) bs ?_ later hl ?_
  · have := intact_rt (hval _ (List.mem_of_getElem? hse)) hint
    simp only [rtView, Prod.mk.injEq] at this
    rw [this.1, h2]
    rfl
  · intro g hg hrt
    obtain ⟨u, hu, rfl⟩ := List.mem_map.mp hg
    obtain ⟨q, hq, e1, e2, -, -⟩ := hview u hu
    rw [e2, g2, (hsame q hq (by rw [hrt] at e1; exact of_decide_eq_true e1.symm)).1]
  · unfold rtLength
    rw [g2]
    revert hw
    cases s1.1.versionB <;> exact id
  · rw [hcl, List.append_assoc]
    congr 1
    have hF := congrArg (List.map fun v : Bool × Bool × Bool × List (Nat × Byte) × Bool =>
      if v.1 then v.2.2.2.1.map fun x => TextOp.recv x.1 x.2 else []) hb'
    have hF := congrArg List.flatten hF
    simp only [List.map_map, ← List.flatMap_def] at hF
    have := congrArg (List.map fun x : Nat × Byte => TextOp.recv x.1 x.2) hchars
    rw [List.map_flatMap] at this
    rw [← List.map_cons, List.flatMap_map]
    refine Eq.trans hF (Eq.trans ?_ (this.trans ?_))
    · rw [List.flatMap_cons, List.flatMap_cons, List.flatMap_map]
      congr 1
      · simp only [Broadcast.rtChars, decide_eq_true_eq]
        split <;> rfl
      · refine congrArg (fun f => List.flatMap f rest) (funext fun q => ?_)
        simp only [Broadcast.rtChars, decide_eq_true_eq]
        split <;> rfl
    · rw [List.map_append, List.map_append, inOrder_zip, List.append_assoc]

/-- **C70**, hexadecimal output. In a reception as in `C70_every_group_printed`, exactly the groups that were sent
are printed, from the first on and with any PI code. -/
theorem C70_hex_lines (ho : o.outputType = .hex) (ht : o.timestamp = false) :
    linesDuring env delay o w past calls = some (sent.map fun q => some (.hex (q.1.hexLine p))) := by
  obtain ⟨c, tr0, hs, hrun, hlines, hlen, hall⟩ := reception_lines hk delay w r
  rw [hlines]
  congr 1
  apply List.ext_getElem?
  intro i
  rw [List.getElem?_map, List.getElem?_map]
  cases hs' : sent[i]? with
  | none => rw [List.getElem?_eq_none (by rw [hlen]; exact List.getElem?_eq_none_iff.mp hs')]; rfl
  | some q =>
    obtain ⟨x, hx, hint, -⟩ := hall i q.1 q.2 hs'
    rw [hx]
    refine congrArg some ?_
    have hsplit : hs = hs.take i ++ x :: hs.drop (i + 1) := by
      have hd : hs.drop i = x :: hs.drop (i + 1) := by
        obtain ⟨hlt, hxe⟩ := List.getElem?_eq_some_iff.mp hx
        rw [List.drop_eq_getElem_cons hlt, hxe]
      rw [← hd, List.take_append_drop]
    have hline := run_hexFacts env hk delay o w _ _ _ hrun ho ht (tr0 ++ (hs.take i).map .handled) x
      ((hs.drop (i + 1)).map .handled) (by
        conv => lhs; rw [hsplit]
        simp)
    rw [hline, isEmpty_eq, hint.something, if_neg (by decide)]
    refine congrArg (fun t => some (Line.hex t)) ?_
    unfold printAsHex Group.printHex Broadcast.hexLine
    rw [isEmpty_eq, hint.something, if_neg (by decide), hint.stream, if_neg (by decide)]
    have b1 : x.group.block .b1 = x.group.block1 := rfl
    have b2 : x.group.block .b2 = x.group.block2 := rfl
    have b3 : x.group.block .b3 = x.group.block3 := rfl
    have b4 : x.group.block .b4 = x.group.block4 := rfl
    dsimp only
    rw [b1, b2, b3, b4, hint.received1, hint.heard.received2, hint.received3, hint.received4, hint.block1,
      hint.heard.block2, hint.heard.block3 hint.received3, hint.heard.block4 hint.received4]
    simp only [if_true, hexPadded4, List.append_nil, List.nil_append]
    rfl

end

/-! ### Example -/

/-- The groups of a station, after those of `demoBits`: the name "YLE áPOP", then "Hi" as RadioText. There are bit
errors in some of the blocks. -/
def demoSent : List (Broadcast × Damage) :=
  [({ number := 0, tp := true, pty := 10, low := 8, block3 := 0xE0CD, block4 := 0x594C }, {}),
   ({ number := 15, versionB := true, tp := true, pty := 10, low := 8, block3 := 0x6204, block4 := 0xFC88 }, {}),
   ({ number := 0, tp := true, pty := 10, low := 8, block3 := 0xE0CD, block4 := 0x594C },
    { e2 := BitVec.twoPow 26 7 ^^^ BitVec.twoPow 26 8 }),
   ({ number := 0, tp := true, pty := 10, low := 9, block3 := 0xE0CD, block4 := 0x4520 }, {}),
   ({ number := 0, tp := true, pty := 10, low := 10, block3 := 0xE0CD, block4 := 0x8050 },
    { e1 := BitVec.twoPow 26 0, e4 := BitVec.twoPow 26 25 }),
   ({ number := 2, tp := true, pty := 10, low := 0, block3 := 0x4869, block4 := 0x0D20 }, {}),
   ({ number := 0, tp := true, pty := 10, low := 11, block3 := 0xE0CD, block4 := 0x4F50 }, {})]

/-- The bits come in portions that have nothing to do with groups. -/
def demoPortions : List ChannelEvent :=
  let bits := demoSent.flatMap fun q => (q.1.onAir 0x6204).damagedBits q.2
  [.bits 700 (bits.take 333) 0, .bit 701 (bits.getD 333 false) 0, .bits 2000 (bits.drop 334) 0]

theorem demo_reception : Reception {} [.bits 0 demoBits 0] demoPortions 0x6204 demoSent where
  past_valid := by simp [ChannelEvent.Valid]
  sync := by
    obtain ⟨g, hg⟩ := Option.isSome_iff_exists.mp demo_delivers_last
    refine ⟨_, _, g, ?_, hg⟩
    decide +kernel
  only_bits := by
    intro e he
    simp only [demoPortions, List.mem_cons, List.not_mem_nil, or_false] at he
    rcases he with rfl | rfl | rfl <;> rfl
  bits := by decide +kernel
  sendable := by
    intro q hq
    refine ⟨⟨?_, ?_, ?_⟩, ?_⟩ <;> revert q <;> decide
  repairable := by
    intro q hq
    simp only [demoSent, List.mem_cons, List.not_mem_nil, or_false] at hq
    rcases hq with rfl | rfl | rfl | rfl | rfl | rfl | rfl
    · exact ⟨fun _ => ⟨.inl rfl, .inl rfl, .inl rfl, .inl rfl⟩, by simp⟩
    · exact ⟨fun _ => ⟨.inl rfl, .inl rfl, rfl, .inl rfl⟩, by simp⟩
    · exact ⟨fun _ => ⟨.inl rfl, .inr (.double 7 (by omega)), .inl rfl, .inl rfl⟩, by simp⟩
    · exact ⟨fun _ => ⟨.inl rfl, .inl rfl, .inl rfl, .inl rfl⟩, by simp⟩
    · exact ⟨fun _ => ⟨.inr (.single 0 (by omega)), .inl rfl, .inl rfl, .inr (.single 25 (by omega))⟩, by simp⟩
    · exact ⟨fun _ => ⟨.inl rfl, .inl rfl, .inl rfl, .inl rfl⟩, by simp⟩
    · exact ⟨fun _ => ⟨.inl rfl, .inl rfl, .inl rfl, .inl rfl⟩, by simp⟩
  tolerable := by
    have hb : fedBits 0 [.bits 0 demoBits 0] = demoBits := by decide +kernel
    rw [hb]
    have h8 : ∀ k, k < 29 → ((checkLog true demoBits ++
        (demoSent.flatMap fun p => p.2.hits).take k).drop ((checkLog true demoBits ++
        (demoSent.flatMap fun p => p.2.hits).take k).length - 50)).sum ≤ 42 := by
      decide +kernel
    intro k
    by_cases hk : k < 29
    · exact h8 k hk
    · have h : (demoSent.flatMap fun p => p.2.hits).length = 28 := rfl
      have e : (demoSent.flatMap fun p => p.2.hits).take k = (demoSent.flatMap fun p => p.2.hits).take 28 := by
        rw [List.take_of_length_le (by omega), List.take_of_length_le (by omega)]
      dsimp only
      rw [e]
      exact h8 28 (by omega)

/-- The other hypotheses of `C70_ps_printed` hold with the last group. -/
example : (((demoSent.take (6 + 1)).drop 2).flatMap fun q => q.1.psChars) =
      [] ++ (List.range 8).zip (ascii "YLE \x80POP") ++ [] ∧ WholeText 8 (ascii "YLE \x80POP") := by
  unfold WholeText
  decide

/-- The other hypotheses of `C70_radiotext_printed` hold with the sixth group. -/
example : (([demoSent.getD 5 (demoSent.headD ({ number := 0 }, {}))]).flatMap fun q => q.1.rtChars) =
      [] ++ (List.range 3).zip (ascii "Hi" ++ [0x0D]) ++ [(3, 0x20)] ∧ WholeText 64 (ascii "Hi" ++ [0x0D]) := by
  unfold WholeText
  decide

/-- What is printed. (The last of the groups before had the same PI code, so the second group is printed too.) -/
example : ((linesDuring demoEnv (fun _ => 0) {} 0 [.bits 0 demoBits 0] demoPortions).map fun ls => ls.map fun l =>
      match l with
      | some (.json j) => [["group"], ["ps"], ["radiotext"]].map fun k => match j.at? k with
        | some (.str t) => t
        | _ => []
      | _ => []) = some [[], [ascii "15B", [], []], [ascii "0A", [], []], [ascii "0A", [], []],
        [ascii "0A", [], []], [ascii "2A", [], ascii "Hi"], [ascii "0A", ascii "YLE " ++ [0xC3, 0xA1] ++ ascii "POP", []]] := by
  decide +kernel

end Redsea
