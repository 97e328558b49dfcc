import Verif.Lemmas.AltFreqList

/-
C30-C33: alternative frequencies.
-/

namespace Redsea

open Spec

/-- What the decoder can get for the frequency part of type 0A groups: a group with block 3,
or one without. -/
inductive AfEvent where
  | recv (block3 : Word)
  | missing
  deriving DecidableEq, Repr

def afStep (showPartial : Bool) (l : AltFreqList) : AfEvent → Option (AltFreqList × AfOut)
  | .recv w => afReceive showPartial l w
  | .missing => (afMissing l).map fun l => (l, .nothing)

/-- The list after a sequence of groups; `none` after an invalid access. -/
def afDecode (showPartial : Bool) (evs : List AfEvent) : Option AltFreqList :=
  evs.foldl (fun l e => l.bind fun l => (afStep showPartial l e).map (·.1)) (some {})

/-- The two codes of block 3, most significant byte first. -/
def codesOf : AfEvent → List Nat
  | .recv w => [w.toNat / 256, w.toNat % 256]
  | .missing => []

/-! ### C30: bounds -/

/-- C30. For every sequence of insertions and clears: no access outside the array (none of the
functions returns `none`), the number of received entries is at most the number announced,
which is at most 25. -/
theorem C30_alt_freq_in_bounds (ops : List AfOp) :
    ∃ l, afAfter ops = some l ∧ l.freqs.length = 25 ∧
      l.numReceived ≤ l.numExpected ∧ l.numExpected ≤ 25 ∧
      (∃ b, l.isMethodB = some b) ∧ (∃ raw, l.getRawList = some raw ∧ raw.length = l.numReceived) := by
  obtain ⟨l, h, wf⟩ := afAfter_wf ops
  refine ⟨l, h, wf.len, wf.rec_le, wf.exp_le, isMethodB_some wf, l.freqs.take l.numReceived, ?_, ?_⟩
  · rw [AltFreqList.getRawList, if_pos (by have := wf.len; have := wf.rec_le; have := wf.exp_le; omega)]
  · rw [List.length_take]; have := wf.len; have := wf.rec_le; have := wf.exp_le; omega

/-- A full list of 25 frequencies and one more. -/
example : afAfter (.ins 249 :: List.replicate 25 (.ins 204)) =
    some { freqs := List.replicate 25 107900, numExpected := 25, numReceived := 25 } := by decide
example : (afAfter (.ins 249 :: List.replicate 26 (.ins 204))).map (·.numReceived) = some 0 := by decide

theorem getUint8_codes (w : Word) :
    (getUint8 w 8).toNat = w.toNat / 256 ∧ (getUint8 w 0).toNat = w.toNat % 256 := by
  constructor
  · simp [getUint8, getBits, Nat.shiftRight_eq_div_pow]
    have := w.isLt; omega
  · simp [getUint8, getBits]

theorem getRawList_wf {l : AltFreqList} (wf : AfWF l) :
    l.getRawList = some (l.freqs.take l.numReceived) := by
  rw [AltFreqList.getRawList, if_pos (by have := wf.len; have := wf.rec_le; have := wf.exp_le; omega)]

theorem afComplete_some {l : AltFreqList} (wf : AfWF l) (hc : l.isComplete = true) (b : Bool)
    (hb : l.isMethodB = some b) (raw : List Int) (hr : l.getRawList = some raw) :
    ∃ out, afComplete raw b = some out := by
  cases b with
  | false => exact ⟨.methodA raw, by simp [afComplete]⟩
  | true =>
    obtain ⟨tuned, ps, h1, -, -⟩ := methodB_structure wf hc hb
    rw [hr] at h1
    cases h1
    simp only [afComplete, if_true, methodBPairs_flatten]
    split
    · exact ⟨_, rfl⟩
    · exact ⟨_, rfl⟩

/-- One group: what `afReceive` does, given where the list stands. -/
theorem afReceive_origin (sp : Bool) {codes : List Nat} {l : AltFreqList} (o : AfOrigin codes l)
    (w : Word) :
    ∃ l2 l' out, insAll l [w.toNat / 256, w.toNat % 256] = some l2 ∧
      AfOrigin (codes ++ codesOf (.recv w)) l2 ∧
      afReceive sp l w = some (l', out) ∧ AfOrigin (codes ++ codesOf (.recv w)) l' ∧
      (l2.isComplete = false → l' = l2 ∧ (sp = false → out = .nothing) ∧
        (∀ fs, out = .partialList fs → fs = l2.freqs.take l2.numReceived) ∧
        (out = .nothing ∨ ∃ fs, out = .partialList fs)) ∧
      (l2.isComplete = true → l' = l2.clear ∧ ∃ b, l2.isMethodB = some b ∧
        afComplete (l2.freqs.take l2.numReceived) b = some out) := by
  obtain ⟨l1, h1, o1⟩ := afOrigin_insert o (w.toNat / 256)
  obtain ⟨l2, h2, o2⟩ := afOrigin_insert o1 (w.toNat % 256)
  have hc2 : codes ++ [w.toNat / 256] ++ [w.toNat % 256] = codes ++ codesOf (.recv w) := by
    simp [codesOf]
  rw [hc2] at o2
  have hins : insAll l [w.toNat / 256, w.toNat % 256] = some l2 := by
    simp [insAll, h1, h2]
  have hrw := getRawList_wf o2.wf
  cases hcm : l2.isComplete with
  | true =>
    obtain ⟨b, hb⟩ := isMethodB_some o2.wf
    obtain ⟨out, hout⟩ := afComplete_some o2.wf hcm b hb _ hrw
    refine ⟨l2, l2.clear, out, hins, o2, ?_, afOrigin_clear o2,
      (fun h => by rw [hcm] at h; cases h), fun _ => ⟨rfl, b, hb, hout⟩⟩
    simp only [afReceive, (getUint8_codes w).1, (getUint8_codes w).2, h1, h2, hcm, hrw, hb, hout,
      Option.bind_eq_bind, Option.bind_some, if_true]
    rfl
  | false =>
    cases sp with
    | false =>
      refine ⟨l2, l2, .nothing, hins, o2, ?_, o2, fun _ => ⟨rfl, fun _ => rfl, by simp, .inl rfl⟩,
        (fun h => by rw [hcm] at h; cases h)⟩
      simp only [afReceive, (getUint8_codes w).1, (getUint8_codes w).2, h1, h2, hcm,
        Option.bind_eq_bind, Option.bind_some, Bool.false_eq_true, if_false]
      rfl
    | true =>
      refine ⟨l2, l2, if l2.freqs.take l2.numReceived = [] then .nothing
          else .partialList (l2.freqs.take l2.numReceived), hins, o2, ?_, o2,
        fun _ => ⟨rfl, by simp, ?_, ?_⟩, (fun h => by rw [hcm] at h; cases h)⟩
      · simp only [afReceive, (getUint8_codes w).1, (getUint8_codes w).2, h1, h2, hcm, hrw,
          Option.bind_eq_bind, Option.bind_some, Bool.false_eq_true, if_false, if_true]
        rfl
      · intro fs
        split
        · simp
        · simp [eq_comm]
      · split
        · exact .inl rfl
        · exact .inr ⟨_, rfl⟩

theorem afMissing_origin {codes : List Nat} {l : AltFreqList} (o : AfOrigin codes l) :
    ∃ l', afMissing l = some l' ∧ AfOrigin codes l' := by
  obtain ⟨b, hb⟩ := isMethodB_some o.wf
  refine ⟨if b then l.clear else l, by simp [afMissing, hb], ?_⟩
  cases b
  · simpa using o
  · simpa using afOrigin_clear o

theorem afDecode_snoc (sp : Bool) (evs : List AfEvent) (e : AfEvent) :
    afDecode sp (evs ++ [e]) = (afDecode sp evs).bind fun l => (afStep sp l e).map (·.1) := by
  simp [afDecode]

theorem afDecode_origin (sp : Bool) (evs : List AfEvent) :
    ∃ l, afDecode sp evs = some l ∧ AfOrigin (evs.flatMap codesOf) l := by
  induction evs using snocInduction with
  | nil => exact ⟨{}, rfl, ⟨by simp, Nat.le_refl _, by decide, by simp⟩, by simp⟩
  | snoc evs e ih =>
    obtain ⟨l, h, o⟩ := ih
    rw [afDecode_snoc, h, List.flatMap_append]
    cases e with
    | recv w =>
      obtain ⟨l2, l', out, -, -, h1, h2, -⟩ := afReceive_origin sp o w
      exact ⟨l', by simp [afStep, h1], by simpa using h2⟩
    | missing =>
      obtain ⟨l', h1, h2⟩ := afMissing_origin o
      exact ⟨l', by simp [afStep, h1], by simpa [codesOf] using h2⟩

/-- C30 for the decoder: whatever type 0A groups arrive, the frequency part of `decodeType0`
makes no invalid access (and the `assert` on cut-off pairs never fails). -/
theorem C30_decoder_in_bounds (sp : Bool) (evs : List AfEvent) (e : AfEvent) :
    ∃ l r, afDecode sp evs = some l ∧ afStep sp l e = some r := by
  obtain ⟨l, h, o⟩ := afDecode_origin sp evs
  cases e with
  | recv w =>
    obtain ⟨l2, l', out, -, -, h1, -⟩ := afReceive_origin sp o w
    exact ⟨l, _, h, h1⟩
  | missing =>
    obtain ⟨l', h1, -⟩ := afMissing_origin o
    exact ⟨l, _, h, by rw [afStep, h1]; rfl⟩

/-! ### C31: complete lists -/

/-- C31, building a list: in every state, announcing `n` frequencies (code 224+n) and then
sending codes that stand for the frequencies `fs` makes the list hold exactly `fs`; it is
complete exactly when there are `n` of them. -/
theorem C31_list_received (ops : List AfOp) (n : Nat) (cs : List Nat) (fs : List Int) (p : Bool)
    (h1 : 1 ≤ n) (h2 : n ≤ 25) (hb : ListBody cs fs p) (hle : fs.length ≤ n) :
    ∃ l, afAfter (ops ++ .ins (224 + n) :: cs.map .ins) = some l ∧ l.getRawList = some fs ∧
      (l.isComplete = true ↔ fs.length = n) := by
  obtain ⟨l0, h0, wf0⟩ := afAfter_wf ops
  obtain ⟨l1, hi1, t1⟩ := tracks_announce wf0 h1 h2
  obtain ⟨l2, hi2, t2⟩ := tracks_insAll t1 hb hle
  refine ⟨l2, ?_, ?_, ?_⟩
  · have : ∀ (cs : List Nat) (o : Option AltFreqList),
        (cs.map AfOp.ins).foldl (fun l o => l.bind (·.op o)) o =
          cs.foldl (fun l c => l.bind (·.insert c)) o := by
      intro cs
      induction cs with
      | nil => intro o; rfl
      | cons c cs ih => intro o; exact ih _
    simp only [afAfter, List.foldl_append, List.foldl_cons, this]
    rw [show List.foldl (fun l o => l.bind fun x => x.op o) (some ({} : AltFreqList)) ops = some l0 from h0]
    simp only [Option.bind_some, AltFreqList.op]
    rw [hi1]
    exact hi2
  · rw [getRawList_wf t2.wf, t2.raw]
  · simp only [AltFreqList.isComplete, t2.expected, t2.received, Bool.and_eq_true, beq_iff_eq,
      decide_eq_true_eq]
    omega

/-- Three frequencies with a filler, the last one in the LF band. -/
example : ListBody [1, 205, 204, 250, 6] [87600, 107900, 198] false :=
  .lfMf (cs := [1, 205, 204, 250]) (.lfMfFollows (cs := [1, 205, 204])
    (.fm (cs := [1, 205]) (.filler (cs := [1]) (.fm (cs := []) .start (by decide) (by decide))
      (.inl rfl)) (by decide) (by decide))) (by decide) (by decide)
example : (afAfter ([.ins 230, .ins 3, .ins 250, .ins 227] ++ [1, 205, 204, 250, 6].map .ins)).bind
    (·.getRawList) = some [87600, 107900, 198] := by decide

/-- C31, origin: if after any history of insertions and clears frequencies are expected, then
the inserted codes end in the announcement of that number followed by codes standing for
exactly the frequencies held. In particular a complete list of `n` frequencies was announced
as `n` and consists of the `n` frequencies sent since. -/
theorem C31_list_origin (ops : List AfOp) (l : AltFreqList) (h : afAfter ops = some l)
    (he : 0 < l.numExpected) :
    ∃ pre cs fs, ops.flatMap (fun o => match o with | .ins c => [c] | .clear => []) =
        pre ++ (224 + l.numExpected) :: cs ∧
      l.getRawList = some fs ∧ ListBody cs fs l.lfMfFollows := by
  have key : ∃ l, afAfter ops = some l ∧ AfOrigin
      (ops.flatMap (fun o => match o with | .ins c => [c] | .clear => [])) l := by
    clear h he
    induction ops using snocInduction with
    | nil => exact ⟨{}, rfl, ⟨by simp, Nat.le_refl _, by decide, by simp⟩, by simp⟩
    | snoc ops o ih =>
      obtain ⟨l, h, og⟩ := ih
      rw [afAfter_snoc, h, List.flatMap_append]
      cases o with
      | ins c =>
        obtain ⟨l', h1, h2⟩ := afOrigin_insert og c
        exact ⟨l', h1, by simpa using h2⟩
      | clear => exact ⟨_, rfl, by simpa using afOrigin_clear og⟩
  obtain ⟨l', h', og⟩ := key
  rw [h] at h'
  cases h'
  obtain ⟨pre, cs, h1, h2⟩ := og.origin he
  exact ⟨pre, cs, _, h1, getRawList_wf og.wf, h2⟩

/-- The frequencies of a printed list in transmitted form: a method B list is sent as the
tuned frequency and pairs. -/
def PrintedAs (out : AfOut) (fs : List Int) : Prop :=
  match out with
  | .nothing => True
  | .methodA list => list = fs
  | .methodB tuned same regional => ∃ ps : List (Int × Int),
      fs = tuned :: flattenPairs ps ∧ 1 ≤ ps.length ∧ (∀ p ∈ ps, p.1 = tuned ∨ p.2 = tuned) ∧
      same = (ps.filter fun p => decide (p.1 < p.2)).map (nonTuned tuned) ∧
      regional = (ps.filter fun p => !decide (p.1 < p.2)).map (nonTuned tuned) ∧
      ps.Nodup
  | .partialList list => list = fs

theorem flattenPairs_length (ps : List (Int × Int)) : (flattenPairs ps).length = 2 * ps.length := by
  induction ps with
  | nil => rfl
  | cons p ps ih =>
    simp only [flattenPairs, List.flatMap_cons, List.length_append, List.length_cons,
      List.length_nil] at ih ⊢
    omega

theorem filter_split_length (ps : List (Int × Int)) :
    (ps.filter fun p => decide (p.1 < p.2)).length +
      (ps.filter fun p => !decide (p.1 < p.2)).length = ps.length := by
  induction ps with
  | nil => rfl
  | cons p ps ih =>
    by_cases hp : p.1 < p.2 <;>
      simp only [List.filter_cons, hp, decide_true, decide_false, Bool.not_true, Bool.not_false,
        if_true, Bool.false_eq_true, if_false, List.length_cons] <;> omega

/-- Pairs with the tuned frequency and the same order are told apart by their other
frequency. -/
theorem nonTuned_inj {tuned : Int} {p q : Int × Int} (hp : p.1 = tuned ∨ p.2 = tuned)
    (hq : q.1 = tuned ∨ q.2 = tuned) (ho : p.1 < p.2 ↔ q.1 < q.2)
    (h : nonTuned tuned p = nonTuned tuned q) : p = q := by
  obtain ⟨a, b⟩ := p
  obtain ⟨c, d⟩ := q
  simp only [nonTuned] at *
  simp only [Prod.mk.injEq]
  split at h <;> split at h <;> omega

theorem nodup_split {tuned : Int} (ps : List (Int × Int)) (h : ∀ p ∈ ps, p.1 = tuned ∨ p.2 = tuned) :
    (((ps.filter fun p => decide (p.1 < p.2)).map (nonTuned tuned)).Nodup ∧
      ((ps.filter fun p => !decide (p.1 < p.2)).map (nonTuned tuned)).Nodup) ↔ ps.Nodup := by
  induction ps with
  | nil => simp
  | cons p ps ih =>
    have hps : ∀ q ∈ ps, q.1 = tuned ∨ q.2 = tuned := fun q hq => h q (List.mem_cons_of_mem _ hq)
    have hp := h p List.mem_cons_self
    have ih := ih hps
    rw [List.nodup_cons, ← ih]
    by_cases hlt : p.1 < p.2
    · have hmem : nonTuned tuned p ∈ (ps.filter fun p => decide (p.1 < p.2)).map (nonTuned tuned) ↔
          p ∈ ps := by
        simp only [List.mem_map, List.mem_filter, decide_eq_true_eq]
        constructor
        · rintro ⟨q, ⟨hq, hql⟩, hqe⟩
          rw [← nonTuned_inj (hps q hq) hp (by simp [hql, hlt]) hqe]; exact hq
        · intro hm; exact ⟨p, ⟨hm, hlt⟩, rfl⟩
      simp only [List.filter_cons, hlt, decide_true, Bool.not_true, if_true, Bool.false_eq_true,
        if_false, List.map_cons, List.nodup_cons, hmem]
      constructor
      · rintro ⟨⟨x, y⟩, z⟩; exact ⟨x, y, z⟩
      · rintro ⟨x, y, z⟩; exact ⟨⟨x, y⟩, z⟩
    · have hmem : nonTuned tuned p ∈ (ps.filter fun p => !decide (p.1 < p.2)).map (nonTuned tuned) ↔
          p ∈ ps := by
        simp only [List.mem_map, List.mem_filter, Bool.not_eq_true', decide_eq_false_iff_not]
        constructor
        · rintro ⟨q, ⟨hq, hql⟩, hqe⟩
          rw [← nonTuned_inj (hps q hq) hp (by simp [hql, hlt]) hqe]; exact hq
        · intro hm; exact ⟨p, ⟨hm, hlt⟩, rfl⟩
      simp only [List.filter_cons, hlt, decide_false, Bool.not_false, if_true, Bool.false_eq_true,
        if_false, List.map_cons, List.nodup_cons, hmem]
      constructor
      · rintro ⟨x, y, z⟩; exact ⟨y, x, z⟩
      · rintro ⟨x, y, z⟩; exact ⟨y, x, z⟩

theorem afComplete_methodB {tuned : Int} (ps : List (Int × Int))
    (h : ∀ p ∈ ps, p.1 = tuned ∨ p.2 = tuned) :
    afComplete (tuned :: flattenPairs ps) true =
      some (if ps.Nodup then
          .methodB tuned ((ps.filter fun p => decide (p.1 < p.2)).map (nonTuned tuned))
            ((ps.filter fun p => !decide (p.1 < p.2)).map (nonTuned tuned))
        else .nothing) := by
  simp only [afComplete, if_true, methodBPairs_flatten]
  have hu1 := uniqueCount_le ((ps.filter fun p => decide (p.1 < p.2)).map (nonTuned tuned))
  have hu2 := uniqueCount_le ((ps.filter fun p => !decide (p.1 < p.2)).map (nonTuned tuned))
  have e1 := uniqueCount_eq_length ((ps.filter fun p => decide (p.1 < p.2)).map (nonTuned tuned))
  have e2 := uniqueCount_eq_length ((ps.filter fun p => !decide (p.1 < p.2)).map (nonTuned tuned))
  have hsum := filter_split_length ps
  rw [← List.length_map (f := nonTuned tuned), ← List.length_map (f := nonTuned tuned)] at hsum
  have hl : (tuned :: flattenPairs ps).length / 2 = ps.length := by
    rw [List.length_cons, flattenPairs_length]; omega
  have hiff := nodup_split ps h
  rw [hl]
  by_cases hn : ps.Nodup
  · rw [if_pos hn, if_pos]
    have h12 := hiff.2 hn
    have := e1.2 h12.1; have := e2.2 h12.2
    omega
  · rw [if_neg hn, if_neg]
    intro heq
    exact hn (hiff.1 ⟨e1.1 (by omega), e2.1 (by omega)⟩)

theorem printedAs_complete {l : AltFreqList} (wf : AfWF l) (hc : l.isComplete = true) {b : Bool}
    (hb : l.isMethodB = some b) {out : AfOut}
    (h : afComplete (l.freqs.take l.numReceived) b = some out) :
    PrintedAs out (l.freqs.take l.numReceived) ∧
      (out = .methodA (l.freqs.take l.numReceived) ∨
        (∃ tuned same regional, out = .methodB tuned same regional) ∨
        (out = .nothing ∧ ∃ tuned ps, l.freqs.take l.numReceived = tuned :: flattenPairs ps ∧
          1 ≤ ps.length ∧ (∀ p ∈ ps, p.1 = tuned ∨ p.2 = tuned) ∧ ¬ ps.Nodup)) := by
  cases b with
  | false =>
    simp only [afComplete, Bool.false_eq_true, if_false, Option.some.injEq] at h
    subst h; exact ⟨rfl, .inl rfl⟩
  | true =>
    obtain ⟨tuned, ps, h1, h2, h3⟩ := methodB_structure wf hc hb
    rw [getRawList_wf wf] at h1
    simp only [Option.some.injEq] at h1
    rw [h1] at h ⊢
    rw [afComplete_methodB ps h3] at h
    simp only [Option.some.injEq] at h
    by_cases hn : ps.Nodup
    · rw [if_pos hn] at h
      subst h
      exact ⟨⟨ps, rfl, h2, h3, rfl, rfl, hn⟩, .inr (.inl ⟨_, _, _, rfl⟩)⟩
    · rw [if_neg hn] at h
      subst h
      exact ⟨trivial, .inr (.inr ⟨rfl, tuned, ps, rfl, h2, h3, hn⟩)⟩

/-- C31 for the decoder: every list it prints when it gets block 3 was sent: the codes received
so far end in the announcement of a number `n` of frequencies, then codes standing for
frequencies `fs`, and the list shows exactly `fs` — all `n` of them, unless it is marked as
partial. -/
theorem C31_printed_list_was_sent (sp : Bool) (evs : List AfEvent) (w : Word) (l l' : AltFreqList)
    (out : AfOut) (h : afDecode sp evs = some l) (hs : afStep sp l (.recv w) = some (l', out))
    (hout : out ≠ .nothing) :
    ∃ pre n cs fs p, (evs ++ [AfEvent.recv w]).flatMap codesOf = pre ++ (224 + n) :: cs ∧ 1 ≤ n ∧ n ≤ 25 ∧
      ListBody cs fs p ∧ PrintedAs out fs ∧
      ((∀ fs, out ≠ .partialList fs) → fs.length = n) ∧ fs.length ≤ n := by
  obtain ⟨l0, h0, o⟩ := afDecode_origin sp evs
  rw [h] at h0
  cases h0
  obtain ⟨l2, l3, out2, -, o2, h1, -, hnc, hcm⟩ := afReceive_origin sp o w
  rw [afStep, h1] at hs
  simp only [Option.some.injEq, Prod.mk.injEq] at hs
  obtain ⟨rfl, rfl⟩ := hs
  have hlen : (l2.freqs.take l2.numReceived).length = l2.numReceived := by
    have := o2.wf.len; have := o2.wf.rec_le; have := o2.wf.exp_le
    rw [List.length_take]; omega
  have hcodes : (evs ++ [AfEvent.recv w]).flatMap codesOf = evs.flatMap codesOf ++ codesOf (.recv w) := by
    simp
  cases hc : l2.isComplete with
  | true =>
    obtain ⟨-, b, hb, hac⟩ := hcm hc
    have hp := (printedAs_complete o2.wf hc hb hac).1
    simp only [AltFreqList.isComplete, Bool.and_eq_true, beq_iff_eq, decide_eq_true_eq] at hc
    obtain ⟨pre, cs, g1, g2⟩ := o2.origin (by omega)
    exact ⟨pre, _, cs, _, _, hcodes.trans g1, by omega, o2.wf.exp_le, g2, hp, by intro _; omega, by omega⟩
  | false =>
    obtain ⟨-, -, hpl, hor⟩ := hnc hc
    rcases hor with hor | ⟨fs, hor⟩
    · exact absurd hor hout
    · have hfs := hpl fs hor
      by_cases he : 0 < l2.numExpected
      · obtain ⟨pre, cs, g1, g2⟩ := o2.origin he
        refine ⟨pre, _, cs, _, _, hcodes.trans g1, he, o2.wf.exp_le, g2, ?_, ?_, ?_⟩
        · rw [hor]; exact hfs
        · intro hn; exact absurd hor (hn fs)
        · rw [hlen]; exact o2.wf.rec_le
      · exfalso
        have hz : l2.numReceived = 0 := by have := o2.wf.rec_le; omega
        rw [hz] at hfs
        simp only [List.take_zero] at hfs
        subst hfs
        subst hor
        -- an empty partial list is not printed
        revert h1
        simp only [afReceive]
        cases l.insert (getUint8 w 8).toNat with
        | none => simp
        | some a =>
          simp only [Option.bind_eq_bind, Option.bind_some]
          cases a.insert (getUint8 w 0).toNat with
          | none => simp
          | some a =>
            simp only [Option.bind_some]
            split
            · cases a.getRawList with
              | none => simp
              | some raw =>
                simp only [Option.bind_some]
                cases a.isMethodB with
                | none => simp
                | some b =>
                  simp only [Option.bind_some]
                  cases hac : afComplete raw b with
                  | none => simp
                  | some out =>
                    simp only [Option.bind_some, Option.pure_def, Option.some.injEq, Prod.mk.injEq]
                    rintro ⟨-, rfl⟩
                    simp only [afComplete] at hac
                    split at hac
                    · split at hac
                      · simp at hac
                      · split at hac
                        · simp at hac
                        · split at hac <;> simp at hac
                    · simp at hac
            · split
              · cases a.getRawList with
                | none => simp
                | some raw =>
                  simp only [Option.bind_some, Option.pure_def, Option.some.injEq, Prod.mk.injEq]
                  rintro ⟨-, hh⟩
                  split at hh
                  · simp at hh
                  · rename_i hne
                    exact hne (by simpa using hh)
              · simp

/-- One group continues a list: `ht` says what the list holds before it. -/
theorem tracks_group {l l2 : AltFreqList} (wf : AfWF l) {codes : List Nat} {w : Word}
    (hins : insAll l [w.toNat / 256, w.toNat % 256] = some l2)
    {pre : List Nat} {n : Nat} {cs : List Nat} {fs : List Int} {p : Bool}
    (ht : ∀ cs' fs' p', codes = pre ++ (224 + n) :: cs' → cs = cs' ++ [w.toNat / 256, w.toNat % 256] →
      ListBody cs' fs' p' → fs' <+: fs → Tracks l n fs' p')
    (hcodes : codes ++ [w.toNat / 256, w.toNat % 256] = pre ++ (224 + n) :: cs)
    (hn1 : 1 ≤ n) (hn2 : n ≤ 25) (hb : ListBody cs fs p) (hle : fs.length ≤ n) :
    Tracks l2 n fs p := by
  rcases List.eq_nil_or_concat cs with rfl | ⟨cs, b, rfl⟩
  · -- the announcement is the second code
    obtain ⟨rfl, rfl⟩ := listBody_nil_inv hb
    have e := List.append_inj' (s₁ := codes ++ [w.toNat / 256])
      (t₁ := [w.toNat % 256]) (s₂ := pre) (t₂ := [224 + n]) (by simpa using hcodes) rfl
    have e2 : w.toNat % 256 = 224 + n := by simpa using e.2
    obtain ⟨l1, hi1, wf1⟩ := afWF_insert wf (w.toNat / 256)
    obtain ⟨l2', hi2, t⟩ := tracks_announce wf1 hn1 hn2
    rw [insAll_cons l l1 _ _ hi1, e2] at hins
    simp only [insAll, List.foldl_cons, List.foldl_nil, Option.bind_some, hi2,
      Option.some.injEq] at hins
    exact hins ▸ t
  · simp only [List.concat_eq_append] at hb hcodes ht
    rcases List.eq_nil_or_concat cs with rfl | ⟨cs, a, rfl⟩
    · -- the announcement is the first code
      have e := List.append_inj' (s₁ := codes)
        (t₁ := [w.toNat / 256, w.toNat % 256]) (s₂ := pre) (t₂ := [224 + n, b])
        (by simpa using hcodes) rfl
      simp only [List.cons.injEq, and_true] at e
      obtain ⟨-, e1, e2⟩ := e
      obtain ⟨l1, hi1, t⟩ := tracks_announce wf hn1 hn2
      obtain ⟨l2', hi2, t'⟩ := tracks_insAll t hb (by omega)
      rw [e1, e2, insAll_cons l l1 _ _ hi1] at hins
      have : some l2 = some l2' := hins.symm.trans (by simpa using hi2)
      cases this
      exact t'
    · simp only [List.concat_eq_append] at hb hcodes ht
      have e := List.append_inj' (s₁ := codes)
        (t₁ := [w.toNat / 256, w.toNat % 256]) (s₂ := pre ++ (224 + n) :: cs) (t₂ := [a, b])
        (by simpa using hcodes) rfl
      simp only [List.cons.injEq, and_true] at e
      obtain ⟨e0, e1, e2⟩ := e
      have ht' : ∀ fs' p', ListBody cs fs' p' → fs' <+: fs → Tracks l n fs' p' :=
        fun fs' p' hb' hp' => ht cs fs' p' e0 (by rw [e1, e2]; simp) hb' hp'
      obtain ⟨fs1, p1, hb1, hp1⟩ := listBody_prefix hb
      have hl1 := hp1.length_le
      obtain ⟨l1, hi1, -⟩ := tracks_step (l := l) (n := n) hb1 (by omega)
        (fun fs' p' hb' hpre' => ht' fs' p' hb' (hpre'.trans hp1))
      have t1 : ∀ fs' p', ListBody (cs ++ [a]) fs' p' → fs' <+: fs → Tracks l1 n fs' p' := by
        intro fs' p' hb' hpre'
        have hl' := hpre'.length_le
        obtain ⟨l1', hi1', t1'⟩ := tracks_step (l := l) (n := n) hb' (by omega)
          (fun fs'' p'' hb'' hpre'' => ht' fs'' p'' hb'' (hpre''.trans hpre'))
        rw [hi1] at hi1'
        cases hi1'
        exact t1'
      obtain ⟨l2', hi2, t2⟩ := tracks_step (l := l1) (n := n) hb hle t1
      rw [insAll_cons l l1 _ _ (e1 ▸ hi1), e2] at hins
      simp only [insAll, List.foldl_cons, List.foldl_nil, Option.bind_some, hi2,
        Option.some.injEq] at hins
      exact hins ▸ t2

/-- While a list is being received, the decoder holds what was sent so far. -/
theorem afDecode_tracks (sp : Bool) (evs0 : List AfEvent) (ws : List Word) :
    ∃ l, afDecode sp (evs0 ++ ws.map .recv) = some l ∧ AfWF l ∧
      ∀ pre n cs fs p, (ws.map AfEvent.recv).flatMap codesOf = pre ++ (224 + n) :: cs → 1 ≤ n → n ≤ 25 →
        ListBody cs fs p → fs.length < n → Tracks l n fs p := by
  induction ws using snocInduction with
  | nil =>
    obtain ⟨l, h, o⟩ := afDecode_origin sp evs0
    exact ⟨l, by simpa using h, o.wf, by simp⟩
  | snoc ws w ih =>
    obtain ⟨l, h, wf, ht⟩ := ih
    obtain ⟨l0, h0, o⟩ := afDecode_origin sp (evs0 ++ ws.map .recv)
    rw [h] at h0
    cases h0
    obtain ⟨l2, l', out, hins, -, h1, o', hnc, -⟩ := afReceive_origin sp o w
    refine ⟨l', ?_, o'.wf, ?_⟩
    · rw [List.map_append, ← List.append_assoc, List.map_singleton, afDecode_snoc, h]
      simp [afStep, h1]
    · intro pre n cs fs p hcodes hn1 hn2 hb hlt
      have t2 : Tracks l2 n fs p := by
        refine tracks_group wf hins ?_ (by simpa [codesOf] using hcodes) hn1 hn2 hb (by omega)
        intro cs' fs' p' hc' _ hb' hpre'
        have := hpre'.length_le
        exact ht pre n cs' fs' p' hc' hn1 hn2 hb' (by omega)
      have hcf : l2.isComplete = false := by
        rw [← Bool.not_eq_true]
        simp only [AltFreqList.isComplete, t2.expected, t2.received, Bool.and_eq_true, beq_iff_eq,
          decide_eq_true_eq]
        omega
      rw [(hnc hcf).1]
      exact t2

/-- C31, the decoder prints every list that is sent completely. The groups `ws` (after any
earlier events) carry codes that end in the announcement of `n` frequencies followed by codes
`cs` standing for `n` frequencies `fs`, completed by the last group `w` and not earlier. Then
that last group prints the list, or drops it as a method B list with repeated frequencies. -/
theorem C31_sent_list_is_printed (sp : Bool) (evs0 : List AfEvent) (ws : List Word) (w : Word)
    (pre : List Nat) (n : Nat) (cs : List Nat) (fs : List Int) (p : Bool)
    (hcodes : ((ws ++ [w]).map AfEvent.recv).flatMap codesOf = pre ++ (224 + n) :: cs)
    (h1 : 1 ≤ n) (h2 : n ≤ 25) (hb : ListBody cs fs p) (hlen : fs.length = n)
    (hlast : ∀ k p', ListBody (cs.take k) fs p' → cs.length ≤ k + 1) :
    ∃ l l' out, afDecode sp (evs0 ++ ws.map .recv) = some l ∧
      afStep sp l (.recv w) = some (l', out) ∧ l'.numExpected = 0 ∧ PrintedAs out fs ∧
      (out = .methodA fs ∨ (∃ tuned same regional, out = .methodB tuned same regional) ∨
        (out = .nothing ∧ ∃ tuned ps, fs = tuned :: flattenPairs ps ∧ 1 ≤ ps.length ∧
          (∀ p ∈ ps, p.1 = tuned ∨ p.2 = tuned) ∧ ¬ ps.Nodup)) := by
  obtain ⟨l, h, wf, ht⟩ := afDecode_tracks sp evs0 ws
  obtain ⟨l0, h0, o⟩ := afDecode_origin sp (evs0 ++ ws.map .recv)
  rw [h] at h0
  cases h0
  obtain ⟨l2, l', out, hins, o2, hr, -, -, hcm⟩ := afReceive_origin sp o w
  have t2 : Tracks l2 n fs p := by
    refine tracks_group wf hins ?_ (by simpa [codesOf] using hcodes) h1 h2 hb (by omega)
    intro cs' fs' p' hc' hcs hb' hpre'
    refine ht pre n cs' fs' p' hc' h1 h2 hb' ?_
    have hl := hpre'.length_le
    by_cases hlt : fs'.length < n
    · exact hlt
    · have heq : fs' = fs := hpre'.eq_of_length (by omega)
      have := hlast cs'.length p' (by rw [hcs, List.take_left, ← heq]; exact hb')
      rw [hcs] at this
      simp at this
  have hc : l2.isComplete = true := by
    simp only [AltFreqList.isComplete, t2.expected, t2.received, Bool.and_eq_true, beq_iff_eq,
      decide_eq_true_eq]
    omega
  obtain ⟨hl', b, hb2, hac⟩ := hcm hc
  have hp := printedAs_complete o2.wf hc hb2 hac
  rw [t2.raw] at hp
  exact ⟨l, l', out, h, hr, by rw [hl']; rfl, hp.1, hp.2⟩

/-- Three groups: announcement of 4 and a frequency, two frequencies, a frequency and a
filler. -/
example : ∀ sp, ∃ l, afDecode sp [.recv (0xE4#8 ++ 0x01#8), .recv (0x02#8 ++ 0x03#8)] = some l ∧
    (afStep sp l (.recv (0x04#8 ++ 0xCD#8))).map (·.2) =
      some (.methodA [87600, 87700, 87800, 87900]) := by
  intro sp; cases sp <;> exact ⟨_, rfl, by decide⟩
/-- A method B list: tuned 89.3, same programme 99.5 and 88.8, regional variant 102.6. -/
example : ∃ l, afDecode false [.recv (0xE7#8 ++ 18#8), .recv (18#8 ++ 120#8), .recv (13#8 ++ 18#8)] = some l ∧
    (afStep false l (.recv (151#8 ++ 18#8))).map (·.2) =
      some (.methodB 89300 [99500, 88800] [102600]) := ⟨_, rfl, by decide⟩

/-! ### C32: frequencies -/

/-- C32: FM codes 1..204 stand for 87.6..107.9 MHz in steps of 100 kHz; no other code stands
for an FM frequency. -/
theorem C32_fm (c : Nat) :
    let f : CarrierFrequency := { code := c, band := .fm }
    (f.isValid = true ↔ 1 ≤ c ∧ c ≤ 204) ∧
    (1 ≤ c ∧ c ≤ 204 → f.kHz = 87500 + 100 * (c : Int) ∧ 87600 ≤ f.kHz ∧ f.kHz ≤ 107900) ∧
    (¬ (1 ≤ c ∧ c ≤ 204) → f.kHz = 0) := by
  have hv := isValid_iff c false
  simp only [Bool.false_eq_true, if_false] at hv
  refine ⟨hv, ?_, ?_⟩
  · intro h
    have := kHz_fm c h.1 h.2
    rw [this, fmKhz]; omega
  · intro h
    rw [← hv] at h
    simp only [CarrierFrequency.kHz, h]
    rfl

/-- C32: LF/MF codes 1..15 stand for 153..279 kHz and 16..135 for 531..1602 kHz in steps of
9 kHz; no other code stands for an LF/MF frequency. -/
theorem C32_lf_mf (c : Nat) :
    let f : CarrierFrequency := { code := c, band := .lfMf }
    (f.isValid = true ↔ 1 ≤ c ∧ c ≤ 135) ∧
    (1 ≤ c ∧ c ≤ 15 → f.kHz = 144 + 9 * (c : Int) ∧ 153 ≤ f.kHz ∧ f.kHz ≤ 279) ∧
    (16 ≤ c ∧ c ≤ 135 → f.kHz = 531 + 9 * ((c : Int) - 16) ∧ 531 ≤ f.kHz ∧ f.kHz ≤ 1602) ∧
    (¬ (1 ≤ c ∧ c ≤ 135) → f.kHz = 0) := by
  have hv := isValid_iff c true
  simp only [if_true] at hv
  refine ⟨hv, ?_, ?_, ?_⟩
  · intro h
    have := kHz_lfMf c h.1 (by omega)
    rw [this, lfMfKhz, if_pos h.2]; omega
  · intro h
    have := kHz_lfMf c (by omega) h.2
    rw [this, lfMfKhz, if_neg (by omega)]; omega
  · intro h
    rw [← hv] at h
    simp only [CarrierFrequency.kHz, h]
    rfl

/-- C32: distinct valid codes stand for distinct frequencies (also across the bands). -/
theorem C32_injective (f g : CarrierFrequency) (hf : f.isValid = true) (hg : g.isValid = true)
    (h : f.kHz = g.kHz) : f = g := by
  obtain ⟨c, b⟩ := f
  obtain ⟨d, e⟩ := g
  cases b <;> cases e
  · have h1 := C32_lf_mf c; have h2 := C32_lf_mf d
    simp only [h1.1, h2.1] at hf hg
    have h3 := kHz_lfMf c hf.1 hf.2; have h4 := kHz_lfMf d hg.1 hg.2
    rw [h3, h4, lfMfKhz, lfMfKhz] at h
    have : c = d := by split at h <;> split at h <;> omega
    rw [this]
  · exfalso
    have h1 := C32_lf_mf c; have h2 := C32_fm d
    simp only [h1.1, h2.1] at hf hg
    have h3 := kHz_lfMf c hf.1 hf.2; have h4 := kHz_fm d hg.1 hg.2
    rw [h3, h4, lfMfKhz, fmKhz] at h
    split at h <;> omega
  · exfalso
    have h1 := C32_fm c; have h2 := C32_lf_mf d
    simp only [h1.1, h2.1] at hf hg
    have h3 := kHz_fm c hf.1 hf.2; have h4 := kHz_lfMf d hg.1 hg.2
    rw [h3, h4, fmKhz, lfMfKhz] at h
    split at h <;> omega
  · have h1 := C32_fm c; have h2 := C32_fm d
    simp only [h1.1, h2.1] at hf hg
    have h3 := kHz_fm c hf.1 hf.2; have h4 := kHz_fm d hg.1 hg.2
    rw [h3, h4, fmKhz, fmKhz] at h
    have : c = d := by omega
    rw [this]

example : CarrierFrequency.kHz { code := 105, band := .fm } = 98000 ∧
    CarrierFrequency.kHz { code := 6, band := .lfMf } = 198 := by decide

/-! ### C33: method B -/

/-- C33. A complete list of any history that is taken for a method B list has odd length and
consists of the tuned frequency and pairs that each contain it; no pair is cut off. If the
decoder prints it, the same-programme list has the other frequency of every ascending pair and
the list of regional variants the other frequency of every other pair, both in order of
transmission; together they have one entry for each pair. It is printed exactly if no
pair occurs twice. -/
theorem C33_method_b (ops : List AfOp) (l : AltFreqList) (h : afAfter ops = some l)
    (hc : l.isComplete = true) (hb : l.isMethodB = some true) :
    ∃ tuned ps same regional, l.getRawList = some (tuned :: flattenPairs ps) ∧ 1 ≤ ps.length ∧
      l.numExpected = 2 * ps.length + 1 ∧
      (∀ p ∈ ps, p.1 = tuned ∨ p.2 = tuned) ∧
      same = (ps.filter fun p => decide (p.1 < p.2)).map (nonTuned tuned) ∧
      regional = (ps.filter fun p => !decide (p.1 < p.2)).map (nonTuned tuned) ∧
      (same ++ regional).Perm (ps.map (nonTuned tuned)) ∧
      afComplete (tuned :: flattenPairs ps) true =
        some (if ps.Nodup then .methodB tuned same regional else .nothing) := by
  obtain ⟨l0, h0, wf⟩ := afAfter_wf ops
  rw [h] at h0
  cases h0
  obtain ⟨tuned, ps, h1, h2, h3⟩ := methodB_structure wf hc hb
  refine ⟨tuned, ps, _, _, h1, h2, ?_, h3, rfl, rfl, ?_, afComplete_methodB ps h3⟩
  · rw [getRawList_wf wf] at h1
    simp only [Option.some.injEq] at h1
    have hl := congrArg List.length h1
    rw [List.length_take, List.length_cons, flattenPairs_length] at hl
    simp only [AltFreqList.isComplete, Bool.and_eq_true, beq_iff_eq, decide_eq_true_eq] at hc
    have := wf.len; have := wf.rec_le; have := wf.exp_le
    omega
  · rw [← List.map_append]
    exact (List.filter_append_perm _ ps).map _

/-- Method B list of three pairs. -/
example : (afAfter ([231, 18, 18, 120, 13, 18, 151, 18].map .ins)).map
    (fun l => (l.isComplete, l.isMethodB)) = some (true, some true) := by decide

end Redsea
