import Mathlib.Data.List.Forall2
import Verif.Lemmas.WallClock
import Verif.Lemmas.Input
import Verif.Spec.HexLines

/-
Lemmas for property C99: in hexadecimal output, options and times only have an effect on the end of lines.
-/

namespace Redsea
open _root_.Redsea.Spec

/-! ### One line -/

theorem hexDigit_character : ∀ n : Fin 16, hexDigit n.val ∈ ascii "0123456789ABCDEF-" := by decide +kernel

theorem printed_block (b : Block) :
    (if b.isReceived then hexPadded 4 b.data.toNat else ascii "----").length = 4 ∧
      ∀ c ∈ (if b.isReceived then hexPadded 4 b.data.toNat else ascii "----"), IsHexCharacter c := by
  split
  · refine ⟨hexPadded_length _ _, fun c hc => ?_⟩
    obtain ⟨d, hd, rfl⟩ := hexPadded_mem hc
    exact hexDigit_character ⟨d, hd⟩
  · unfold IsHexCharacter
    decide +kernel

theorem printed_blocks (g : Group) :
    HexBlocks ((if g.dataStream > 0 then ascii "#S" ++ decimal g.dataStream ++ ascii " " else []) ++ g.printHex) := by
  let block (n : BlockNum) : Str := if (g.block n).isReceived then hexPadded 4 (g.block n).data.toNat else ascii "----"
  have h := HexBlocks.intro g.dataStream (block .b1) (block .b2) (block .b3) (block .b4) (by
      intro b hb
      simp only [List.mem_cons, List.not_mem_nil, or_false] at hb
      rcases hb with rfl | rfl | rfl | rfl <;> exact printed_block _)
  unfold Group.printHex decimal
  by_cases hz : g.dataStream = 0
  · rw [if_neg (by omega)]
    rw [if_pos hz] at h
    simpa only [List.append_assoc, List.nil_append] using h
  · rw [if_pos (by omega)]
    rw [if_neg hz] at h
    simpa only [List.append_assoc] using h

/-! ### Two channels -/

/-- Two channels for hexadecimal output that have received the same. -/
def HexTwin (o o' : Options) (c d : Channel) : Prop :=
  c.options = o ∧ d.options = o' ∧ d.blockStreams = c.blockStreams

/-- The lines of two channels. -/
abbrev SameHexLines (o o' : Options) (f f' : Int → Str) : List Line → List Line → Prop :=
  List.Forall₂ (SameHexLine o o' f f')

/-- The same group, except for what is noted on it. -/
def SameTagged (g g' : Group) : Prop := ∃ t b, g' = g.tag t b

section
variable {o o' : Options} {env env' : Env} (ho : o.outputType = .hex) (ho' : o'.outputType = .hex)

theorem hexs_stamp {c d : Channel} (w : HexTwin o o' c d) (now now' : Int) {g g' : Group} (hg : SameTagged g g') :
    HexTwin o o' (c.stampGroup now g).1 (d.stampGroup now' g').1 ∧
      SameTagged (c.stampGroup now g).2 (d.stampGroup now' g').2 := by
  have hl : ∀ (k : Channel) (n : Int) (x : Group), (k.stampGroup n x).1.options = k.options ∧
      (k.stampGroup n x).1.blockStreams = k.blockStreams ∧ SameTagged x (k.stampGroup n x).2 := by
    intro k n x
    unfold Channel.stampGroup
    by_cases hc : (k.options.timestamp && x.time.isNone) = true
    · rw [if_pos hc]
      exact ⟨rfl, rfl, some _, x.bler, rfl⟩
    · rw [if_neg hc]
      exact ⟨rfl, rfl, x.time, x.bler, rfl⟩
  obtain ⟨e1, e2, t1, b1, e3⟩ := hl c now g
  obtain ⟨f1, f2, t2, b2, f3⟩ := hl d now' g'
  obtain ⟨t, b, rfl⟩ := hg
  refine ⟨⟨e1.trans w.1, f1.trans w.2.1, f2.trans (w.2.2.trans e2.symm)⟩, t2, b2, ?_⟩
  rw [e3, f3]
  rfl

theorem hexs_bler {c d : Channel} (w : HexTwin o o' c d) {g g' : Group} (hg : SameTagged g g') :
    Pairs False (fun q r => HexTwin o o' q.1 r.1 ∧ SameTagged q.2 r.2) (c.addBler g) (d.addBler g') := by
  have hl : ∀ (k : Channel) (x : Group) (q : Channel × Group), k.addBler x = some q →
      q.1.options = k.options ∧ q.1.blockStreams = k.blockStreams ∧ SameTagged x q.2 := by
    intro k x q h
    unfold Channel.addBler at h
    split at h
    · obtain ⟨r, -, h⟩ := Option.bind_eq_some_iff.mp h
      cases h
      exact ⟨rfl, rfl, x.time, _, rfl⟩
    · cases h
      exact ⟨rfl, rfl, x.time, x.bler, rfl⟩
  refine ⟨fun q r hq hr => ?_, False.elim⟩
  obtain ⟨e1, e2, t1, b1, e3⟩ := hl _ _ _ hq
  obtain ⟨f1, f2, t2, b2, f3⟩ := hl _ _ _ hr
  obtain ⟨t, b, rfl⟩ := hg
  refine ⟨⟨e1.trans w.1, f1.trans w.2.1, f2.trans (w.2.2.trans e2.symm)⟩, t2, b2, ?_⟩
  rw [e3, f3]
  rfl

theorem hexs_pi {c d : Channel} (w : HexTwin o o' c d) (g g' : Group) : HexTwin o o' (c.updatePI g) (d.updatePI g') := by
  have hl : ∀ (k : Channel) (x : Group), (k.updatePI x).options = k.options ∧ (k.updatePI x).blockStreams = k.blockStreams := by
    intro k x
    unfold Channel.updatePI
    dsimp only
    split
    · split <;> exact ⟨rfl, rfl⟩
    · exact ⟨rfl, rfl⟩
  exact ⟨(hl c g).1.trans w.1, (hl d g').1.trans w.2.1, (hl d g').2.trans (w.2.2.trans (hl c g).2.symm)⟩

/-- What is printed for a group. -/
theorem printed_line (g : Group) (he : g.isEmpty = false) (on : Options) (f : Int → Str) (n : Int) :
    ∃ s, printAsHex g (if on.timestamp then some (f n) else none) =
      ((if g.dataStream > 0 then ascii "#S" ++ decimal g.dataStream ++ ascii " " else []) ++ g.printHex) ++ s ∧
      HexLineEnd on f s := by
  unfold printAsHex HexLineEnd
  rw [if_neg (by rw [he]; exact Bool.false_ne_true)]
  cases on.timestamp with
  | true => exact ⟨ascii " " ++ f n ++ ascii "\n", by simp only [if_true, List.append_assoc], n, rfl⟩
  | false => exact ⟨ascii "\n", by simp only [Bool.false_eq_true, if_false, List.append_nil], rfl⟩

include ho ho' in
theorem hexs_output {c d : Channel} (w : HexTwin o o' c d) {g g' : Group} (hg : SameTagged g g') :
    Pairs False (fun q r => HexTwin o o' q.1 r.1 ∧ SameHexLines o o' env.formatTime env'.formatTime q.2.toList r.2.toList)
      (c.output env g) (d.output env' g') := by
  obtain ⟨t, b, rfl⟩ := hg
  unfold Channel.output
  rw [w.1, w.2.1, if_pos ho, if_pos ho', show (g.tag t b).isEmpty = g.isEmpty from rfl]
  refine pairs_some ⟨w, ?_⟩
  cases he : g.isEmpty with
  | true => exact .nil
  | false =>
    obtain ⟨s, e1, h1⟩ := printed_line g he o env.formatTime (g.time.getD 0)
    obtain ⟨s', e2, h2⟩ := printed_line (g.tag t b) he o' env'.formatTime ((g.tag t b).time.getD 0)
    refine .cons ?_ .nil
    rw [e1, e2]
    exact ⟨_, s, s', rfl, rfl, printed_blocks g, h1, h2⟩

include ho ho' in
theorem hexs_group {c d : Channel} (w : HexTwin o o' c d) (now now' : Int) {g g' : Group} (hg : SameTagged g g') (n : Nat) :
    Pairs False (fun q r => HexTwin o o' q.1 r.1 ∧ SameHexLines o o' env.formatTime env'.formatTime q.2.line.toList r.2.line.toList)
      (c.processGroup env now g n) (d.processGroup env' now' g' n) := by
  unfold Channel.processGroup Channel.handleGroup
  obtain ⟨k1, k2⟩ := hexs_stamp w now now' hg
  refine pairs_bind (hexs_bler k1 k2) fun q r hqr => ?_
  refine pairs_bind (hexs_output ho ho' (hexs_pi hqr.1 _ _) ?_) fun x y hxy => pairs_some hxy
  obtain ⟨t, b, e⟩ := hqr.2
  exact ⟨t, b, by rw [e]; exact (mark_tag q.2 t b n).1⟩

theorem hexs_push {c d : Channel} (hf : o'.useFec = o.useFec) (w : HexTwin o o' c d) (b : Bool) (n : Nat) :
    Pairs False (fun q r => HexTwin o o' q.1 r.1 ∧ r.2 = q.2) (c.pushBit b n) (d.pushBit b n) := by
  unfold Channel.pushBit
  rw [w.2.2]
  refine pairs_bind_same _ fun s _ => ?_
  rw [w.1, w.2.1, hf]
  exact pairs_some ⟨⟨rfl, rfl, rfl⟩, rfl⟩

theorem hexs_cons {f f' : Int → Str} {q r : Channel × Handled} {x y : Channel × List Handled}
    (h1 : SameHexLines o o' f f' q.2.line.toList r.2.line.toList)
    (h2 : HexTwin o o' x.1 y.1 ∧ SameHexLines o o' f f' (printedLines (x.2.map .handled)) (printedLines (y.2.map .handled))) :
    HexTwin o o' x.1 y.1 ∧ SameHexLines o o' f f' (printedLines ((q.2 :: x.2).map .handled))
      (printedLines ((r.2 :: y.2).map .handled)) := by
  refine ⟨h2.1, ?_⟩
  rw [printed_cons, printed_cons]
  exact List.rel_append h1 h2.2

include ho ho' in
theorem hexs_bits (hf : o'.useFec = o.useFec) {delay delay' : Nat → Int} {t t' : Int} {n : Nat} (bits : List Bool) {c d : Channel}
    (w : HexTwin o o' c d) :
    Pairs False (fun q r => HexTwin o o' q.1 r.1 ∧ SameHexLines o o' env.formatTime env'.formatTime
      (printedLines (q.2.map .handled)) (printedLines (r.2.map .handled)))
      (Channel.processBits env delay t n c bits) (Channel.processBits env' delay' t' n d bits) := by
  induction bits generalizing c d with
  | nil => exact pairs_some ⟨w, .nil⟩
  | cons b bits ih =>
    rw [Channel.processBits, Channel.processBits]
    refine pairs_bind (hexs_push hf w b n) fun q r hqr => ?_
    rw [hqr.2]
    cases q.2 with
    | none => exact ih hqr.1
    | some g =>
      refine pairs_bind (hexs_group ho ho' hqr.1 0 0 ⟨some _, g.bler, rfl⟩ n) fun x y hxy => ?_
      refine pairs_bind (ih ?_) fun k l hkl => pairs_some (hexs_cons hxy.2 hkl)
      exact ⟨hxy.1.1, hxy.1.2.1, hxy.1.2.2⟩

include ho ho' in
theorem hexs_flush {now now' : Nat → Int} (l : List Nat) {c d : Channel} (w : HexTwin o o' c d) :
    Pairs False (fun q r => HexTwin o o' q.1 r.1 ∧ SameHexLines o o' env.formatTime env'.formatTime
      (printedLines (q.2.map .handled)) (printedLines (r.2.map .handled)))
      (Channel.flushStreams env now c l) (Channel.flushStreams env' now' d l) := by
  induction l generalizing c d with
  | nil => exact pairs_some ⟨w, .nil⟩
  | cons i l ih =>
    rw [Channel.flushStreams, Channel.flushStreams, w.2.2]
    refine pairs_bind_same _ fun s _ => ?_
    dsimp only
    split
    · exact ih w
    · refine pairs_bind (hexs_group ho ho' w (now i) (now' i) ⟨_, _, rfl⟩ i) fun x y hxy => ?_
      exact pairs_bind (ih hxy.1) fun k l hkl => pairs_some (hexs_cons hxy.2 hkl)

include ho ho' in
/-- For hexadecimal output, only the correction of errors matters. -/
theorem alike_hex (hf : o'.useFec = o.useFec) (delay delay' : Nat → Int) :
    Alike False env env' delay delay' (HexTwin o o') (fun _ _ => True) (SameHexLines o o' env.formatTime env'.formatTime) where
  nil := .nil
  append h1 h2 := List.rel_append h1 h2
  streams w := w.2.2
  reset w := ⟨w.1, w.2.1, w.2.2⟩
  bits _ l w _ := hexs_bits ho ho' hf l w
  flush w _ := hexs_flush ho ho' [1, 2, 3] w

include ho ho' in
theorem hexs_step (hf : o'.useFec = o.useFec) {delay delay' : Nat → Int} {c d : Channel} {e e' : ChannelEvent}
    (w : HexTwin o o' c d) (he : SameCall e e') :
    Pairs False (fun q r => HexTwin o o' q.1 r.1 ∧ SameHexLines o o' env.formatTime env'.formatTime (printedLines q.2) (printedLines r.2))
      (c.step env delay e) (d.step env' delay' e') := by
  cases he with
  | bit t t' b n =>
    refine pairs_map (R := fun q r => HexTwin o o' q.1 r.1 ∧ SameHexLines o o' env.formatTime env'.formatTime
      (printedLines (q.2.map .handled)) (printedLines (r.2.map .handled))) ?_ fun q r h => h
    unfold Channel.processBit
    refine pairs_bind (hexs_push hf w b n) fun q r hqr => ?_
    rw [hqr.2]
    cases q.2 with
    | none => exact pairs_some ⟨hqr.1, .nil⟩
    | some g =>
      exact pairs_bind (hexs_group ho ho' hqr.1 t t' ⟨_, _, rfl⟩ n) fun x y hxy =>
        pairs_some (hexs_cons (x := (x.1, [])) (y := (y.1, [])) hxy.2 ⟨hxy.1, .nil⟩)
  | bits t t' l n => exact pairs_map (hexs_bits ho ho' hf l w) fun q r h => h
  | group t t' g n =>
    refine pairs_map (hexs_group ho ho' w t t' ⟨_, _, rfl⟩ n) fun q r h => ⟨h.1, ?_⟩
    exact (hexs_cons (x := (q.1, [])) (y := (r.1, [])) h.2 ⟨h.1, .nil⟩).2
  | flush now now' => exact pairs_map (hexs_flush ho ho' _ w) fun q r h => h
  | resetPI => exact pairs_some ⟨⟨w.1, w.2.1, w.2.2⟩, .nil⟩

include ho ho' in
theorem hexs_run (hf : o'.useFec = o.useFec) {delay delay' : Nat → Int} {es es' : List ChannelEvent}
    (he : List.Forall₂ SameCall es es') {c d : Channel} (w : HexTwin o o' c d) :
    Pairs False (fun q r => SameHexLines o o' env.formatTime env'.formatTime (printedLines q.2) (printedLines r.2))
      (Channel.run env delay c es) (Channel.run env' delay' d es') := by
  induction he generalizing c d with
  | nil => exact pairs_some .nil
  | cons hx _ ih =>
    rw [Channel.run, Channel.run]
    refine pairs_bind (hexs_step ho ho' hf w hx) fun q r hqr => pairs_bind (ih hqr.1) fun x y hxy => pairs_some ?_
    have app : ∀ a b : List Trace, printedLines (a ++ b) = printedLines a ++ printedLines b := fun a b => List.filterMap_append
    rw [app, app]
    exact List.rel_append hqr.2 hxy

end

end Redsea
