import Verif.Lemmas.Recovery
import Verif.Props.Stream
import Mathlib.Data.List.Perm.Subperm

/-
C94: from whatever state, reception comes back when the signal is clean again.
-/

namespace Redsea
open Spec BlockStream

/-- C94. Whatever the decoder has received before (silence, noise, another station, synchronised or not), after 19 groups
of a clean transmission all groups that follow are delivered, complete and without errors. The 19 groups must be
unmistakable; the counter of bits must not overflow meanwhile. -/
theorem C94_recovers_partial (fec : Bool) (past : List Bool) (first rest : List TxGroup) (hfirst : first.length = 19)
    (hpast : past.length + 1976 < 2 ^ 32) (hu : Unmistakable (first.flatMap fun t => t.bits)) :
    let out := run fec (stateAfter fec (past ++ first.flatMap fun t => t.bits)) (rest.flatMap fun t => t.bits)
    out.2.map observe = (rest.map fun t => ([some t.d1, some t.d2, some t.d3, some t.d4], 0)) ∧ out.1.isInSync = true := by
  have hair : (first.flatMap fun t => t.bits).length = 1976 := by rw [airBits_length, hfirst]
  have hr := recovered fec past _ (cleanAir first) hu hair hpast
  have hb := bits_snoc past (first.flatMap fun t => t.bits) (n := 1975) (by omega)
  have hall : (first.flatMap fun t => t.bits).take (1975 + 1) = first.flatMap fun t => t.bits :=
    List.take_of_length_le (by omega)
  rw [hall] at hb
  unfold Right during at hr
  rw [show (1976 : Nat) = 1975 + 1 from rfl, hall, hb] at hr
  obtain ⟨g, hg⟩ := Option.isSome_iff_exists.mp ((C10_delivered_iff fec _ _).mpr hr)
  rw [hb]
  exact C05_clean_stream_lossless fec _ _ g hg rest

/-! ### An unmistakable transmission -/

/-- Is there a codeword for some offset in these bits? -/
def looksValid (l : List Bool) : Bool :=
  [OffsetName.A, .B, .C, .Cprime, .D].any fun o =>
    calculateSyndrome ((l.foldl (fun (r : BitVec 32) b => (r <<< 1) ||| (BitVec.ofBool b).setWidth 32) 0)) == offsetSyndrome o

/-- The places outside the block ends where some codeword ends. -/
def accidentals : (air : List Bool) → (n : Nat) → List Nat
  | [], _ => []
  | b :: l, n => (if n % 26 ≠ 0 ∧ 26 ≤ (b :: l).length ∧ looksValid ((b :: l).take 26) then [n] else []) ++ accidentals l (n + 1)

theorem fold_bitsMSB (w : BitVec 26) :
    (bitsMSB w).foldl (fun (r : BitVec 32) b => (r <<< 1) ||| (BitVec.ofBool b).setWidth 32) 0 = w.setWidth 32 := by
  have : bitsMSB w = (List.range 26).map fun i => w.getMsbD i := rfl
  rw [this]
  apply BitVec.eq_of_getLsbD_eq
  intro i hi
  simp only [List.range, List.range.loop, List.map_cons, List.map_nil, List.foldl_cons, List.foldl_nil, BitVec.getMsbD]
  simp only [BitVec.getLsbD_or, BitVec.getLsbD_shiftLeft, BitVec.getLsbD_setWidth, BitVec.getLsbD_ofBool]
  have : i ∈ List.range 32 := List.mem_range.mpr hi
  revert this
  simp only [List.range, List.range.loop, List.mem_cons, List.not_mem_nil, or_false]
  rintro (rfl | rfl | rfl | rfl | rfl | rfl | rfl | rfl | rfl | rfl | rfl | rfl | rfl | rfl | rfl | rfl | rfl | rfl | rfl |
    rfl | rfl | rfl | rfl | rfl | rfl | rfl | rfl | rfl | rfl | rfl | rfl | rfl) <;> simp

theorem looksValid_encode (d : BitVec 16) (o : OffsetName) : looksValid (bitsMSB (encode d o)) = true := by
  unfold looksValid
  rw [fold_bitsMSB, syndrome_encode]
  cases o <;> decide

theorem mem_accidentals {air : List Bool} : ∀ {n : Nat} (i : Nat), i + 26 ≤ air.length → (n + i) % 26 ≠ 0 →
    looksValid ((air.drop i).take 26) = true → n + i ∈ accidentals air n := by
  induction air with
  | nil => intro n i h; simp at h
  | cons b l ih =>
    intro n i hl hm hv
    unfold accidentals
    rw [List.mem_append]
    cases i with
    | zero => exact .inl (by rw [if_pos ⟨by simpa using hm, by omega, by simpa using hv⟩]; simp)
    | succ i =>
      right
      have := ih (n := n + 1) i (by simp at hl; omega) (by rw [show n + 1 + i = n + (i + 1) by omega]; exact hm)
        (by simpa using hv)
      rwa [show n + 1 + i = n + (i + 1) by omega] at this

theorem accidental_mem {air : List Bool} {n : Nat} {o : OffsetName} (h : Accidental air n o) :
    n ∈ accidentals air 26 := by
  obtain ⟨hm, h26, hn, d, p, hp⟩ := h
  have hpl : p.length = n - 26 := by
    have := congrArg List.length hp
    rw [List.length_append, bitsMSB_length, List.length_take] at this
    omega
  have hw : (air.drop (n - 26)).take 26 = bitsMSB (encode d o) := by
    have h1 : (air.take n).drop (n - 26) = bitsMSB (encode d o) := by rw [hp, ← hpl, List.drop_left]
    rw [← h1, List.drop_take]
    congr 1
    omega
  have := mem_accidentals (air := air) (n := 26) (n - 26) (by omega)
    (by rw [show 26 + (n - 26) = n by omega]; exact hm) (by rw [hw]; exact looksValid_encode d o)
  rwa [show 26 + (n - 26) = n by omega] at this

/-- 19 groups as a station may send them. -/
def demoFirst : List TxGroup :=
  [⟨0x6201, 0xa469, 0x2f24, 0x9ff9, false⟩, ⟨0x6201, 0x92d6, 0x2809, 0x4c38, false⟩,
   ⟨0x6201, 0x97bd, 0x52b3, 0x18db, false⟩, ⟨0x6201, 0xc882, 0x6201, 0x7984, true⟩,
   ⟨0x6201, 0xb400, 0xe94c, 0xd7f0, false⟩, ⟨0x6201, 0x1fe5, 0x6201, 0xab1a, true⟩,
   ⟨0x6201, 0x421f, 0xd3e0, 0x3698, false⟩, ⟨0x6201, 0xba63, 0x6201, 0x1e17, true⟩,
   ⟨0x6201, 0x9242, 0xe803, 0x56ad, false⟩, ⟨0x6201, 0xe7cf, 0xa2a9, 0xf545, false⟩,
   ⟨0x6201, 0xf675, 0x4b02, 0x39a1, false⟩, ⟨0x6201, 0x57fd, 0xad4d, 0x5c38, false⟩,
   ⟨0x6201, 0x8dc7, 0x6201, 0x204f, true⟩, ⟨0x6201, 0xb08c, 0x9c84, 0xba13, false⟩,
   ⟨0x6201, 0x87c5, 0x879b, 0x9673, false⟩, ⟨0x6201, 0xa2db, 0x05ed, 0xf2d7, false⟩,
   ⟨0x6201, 0x8536, 0x8c20, 0xed06, false⟩, ⟨0x6201, 0xb590, 0x8c39, 0xb0f0, false⟩,
   ⟨0x6201, 0xd599, 0x584e, 0xe64a, false⟩]

theorem demoFirst_accidentals : accidentals (demoFirst.flatMap fun t => t.bits) 26 = [408, 887, 1213, 1369] := by
  decide +kernel

theorem nodup_le {l m : List Nat} (hn : l.Nodup) (h : ∀ a ∈ l, a ∈ m) : l.length ≤ m.length :=
  (hn.subperm h).length_le

/-- The groups of the demonstration are unmistakable, though there are four accidental codewords in them. -/
theorem demoFirst_unmistakable : Unmistakable (demoFirst.flatMap fun t => t.bits) where
  few := by
    intro r l hn hl
    have : l.length ≤ [408, 887, 1213, 1369].length := nodup_le hn (by
      intro n hm
      obtain ⟨_, o, ho⟩ := hl n hm
      have := accidental_mem ho
      rwa [demoFirst_accidentals] at this)
    exact Nat.le_trans this (by decide)
  noTriple := by
    intro n m k o1 o2 o3 hm hm6 hk hk6 _ _ h1 h2 h3
    have a1 := accidental_mem h1
    have a2 := accidental_mem h2
    have a3 := accidental_mem h3
    rw [demoFirst_accidentals] at a1 a2 a3
    simp only [List.mem_cons, List.not_mem_nil, or_false] at a1 a2 a3
    omega
  quiet := by
    intro j hj
    refine ⟨j, Nat.le_refl _, by omega, ?_⟩
    intro a b o o' ha1 ha2 hb1 hb2 h1 h2
    have a1 := accidental_mem h1
    have a2 := accidental_mem h2
    rw [demoFirst_accidentals] at a1 a2
    simp only [List.mem_cons, List.not_mem_nil, or_false] at a1 a2
    omega

/-- The hypotheses of C94 are met, with a past that leaves the decoder synchronised to something else. -/
example : demoFirst.length = 19 ∧ (stateAfter true (demoBits ++ [true, false, true])).isInSync = true ∧
    phase (stateAfter true (demoBits ++ [true, false, true])) = 3 ∧
    Unmistakable (demoFirst.flatMap fun t => t.bits) :=
  ⟨rfl, by decide +kernel, by decide +kernel, demoFirst_unmistakable⟩

/-! ### A transmission that can be mistaken -/

/-- A group … -/
def sentGroup : TxGroup := ⟨0x004f, 0x01fa, 0x0234, 0x0179, false⟩

/-- … that looks like this one when it is repeated and read from the 17th bit on. -/
def heardGroup : TxGroup := ⟨0x9780, 0x0500, 0xbd40, 0xa740, false⟩

theorem run_stateAfter (fec : Bool) (a b : List Bool) : (run fec (stateAfter fec a) b).1 = stateAfter fec (a ++ b) := by
  unfold stateAfter
  rw [run_append]

theorem heard_bits : heardGroup.bits = sentGroup.bits.drop 16 ++ sentGroup.bits.take 16 := by decide +kernel

theorem repeat_shift (n : Nat) :
    sentGroup.bits.drop 16 ++ (List.replicate n sentGroup).flatMap (fun t => t.bits) =
      (List.replicate n heardGroup).flatMap (fun t => t.bits) ++ sentGroup.bits.drop 16 := by
  induction n with
  | zero => simp
  | succ n ih =>
    rw [List.replicate_succ, List.replicate_succ, List.flatMap_cons, List.flatMap_cons, heard_bits]
    have : sentGroup.bits = sentGroup.bits.take 16 ++ sentGroup.bits.drop 16 := (List.take_append_drop 16 _).symm
    conv => lhs; arg 2; arg 1; rw [this]
    simp only [List.append_assoc]
    rw [ih]

/-- C94 does not hold for all transmissions. Here the station sends one group again and again, without any error; but the
decoder, being synchronised to something else from before, finds codewords everywhere where it looks for them. However long
it listens, it delivers nothing but a group that was never sent. -/
theorem C94_false_lock_violated (fec : Bool) (n : Nat) :
    let past := demoBits ++ sentGroup.bits.drop 16
    let out := run fec (stateAfter fec past) ((List.replicate n sentGroup).flatMap fun t => t.bits)
    heardGroup ≠ sentGroup ∧ ∃ k, n ≤ k ∧
      out.2.map observe = List.replicate k ([some 0x9780, some 0x0500, some 0xbd40, some 0xa740], 0) := by
  intro past out
  refine ⟨by decide, ?_⟩
  have hb : demoBits =
      demoBits.dropLast ++ [demoBits.getLastD false] := by
    decide +kernel
  have hdel : (deliveredAt fec demoBits.dropLast
      (demoBits.getLastD false)).isSome = true := by
    cases fec <;> decide +kernel
  obtain ⟨g, hg⟩ := Option.isSome_iff_exists.mp hdel
  have c05 := fun m => (C05_clean_stream_lossless fec _ _ g hg (List.replicate m heardGroup)).1
  rw [← hb] at c05
  have hnone : (run fec (stateAfter fec demoBits) (sentGroup.bits.drop 16)).2 = [] := by
    cases fec <;> decide +kernel
  have hst : (run fec (stateAfter fec demoBits) (sentGroup.bits.drop 16)).1 =
      stateAfter fec past := by
    exact run_stateAfter fec demoBits (sentGroup.bits.drop 16)
  -- what is delivered from the second group on
  have hA : out.2 = (run fec (stateAfter fec demoBits)
      ((List.replicate n heardGroup).flatMap (fun t => t.bits) ++ sentGroup.bits.drop 16)).2 := by
    rw [← repeat_shift, run_append, hnone, hst]
    rfl
  have hB : (run fec (stateAfter fec demoBits)
      ((List.replicate (n + 1) heardGroup).flatMap fun t => t.bits)).2 =
      out.2 ++ (run fec (run fec (stateAfter fec demoBits)
        ((List.replicate n heardGroup).flatMap (fun t => t.bits) ++ sentGroup.bits.drop 16)).1 (sentGroup.bits.take 16)).2 := by
    have : (List.replicate (n + 1) heardGroup).flatMap (fun t => t.bits) =
        ((List.replicate n heardGroup).flatMap (fun t => t.bits) ++ sentGroup.bits.drop 16) ++ sentGroup.bits.take 16 := by
      rw [List.replicate_succ', List.flatMap_append, List.append_assoc, ← heard_bits]
      simp
    rw [this, run_append, hA]
  have h1 := c05 (n + 1)
  have h0 := c05 n
  rw [hB, List.map_append, List.map_replicate] at h1
  obtain ⟨_, hl, _⟩ := List.append_eq_replicate_iff.mp h1
  refine ⟨_, ?_, hl⟩
  rw [List.map_replicate] at h0
  have hlen := congrArg List.length h0
  rw [List.length_map, List.length_replicate] at hlen
  rw [List.length_map, hA, run_append, List.length_append]
  omega

end Redsea
