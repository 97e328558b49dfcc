import Verif.Spec.Tmc
import Verif.Lemmas.ListAux

/-
Lemmas for the TMC properties.
-/

namespace Redsea

theorem bitsOf_length (n v : Nat) : (bitsOf n v).length = n := by
  induction n with
  | zero => rfl
  | succ n ih => simp [bitsOf, ih]

theorem mod_two_pow_succ_testBit (v n : Nat) :
    v % 2 ^ (n + 1) = (v.testBit n).toNat * 2 ^ n + v % 2 ^ n := by
  rw [Nat.pow_succ, Nat.mod_mul, Nat.testBit_eq_decide_div_mod_eq]
  have : v / 2 ^ n % 2 < 2 := Nat.mod_lt _ (by decide)
  rcases (by omega : v / 2 ^ n % 2 = 0 ∨ v / 2 ^ n % 2 = 1) with h | h <;> simp [h]; omega

theorem foldl_bitsOf (n v r : Nat) :
    (bitsOf n v).foldl (fun r b => (2 * r + b.toNat) % 2 ^ 16) (r % 2 ^ 16) =
      (r * 2 ^ n + v % 2 ^ n) % 2 ^ 16 := by
  induction n generalizing r with
  | zero => simp [bitsOf, Nat.mod_one]
  | succ n ih =>
    rw [bitsOf, List.foldl_cons, ih, mod_two_pow_succ_testBit v]
    generalize (v.testBit n).toNat = t
    generalize v % 2 ^ n = w
    have e2 : 2 ^ (n + 1) = 2 ^ n * 2 := Nat.pow_succ ..
    rw [e2]
    generalize 2 ^ n = k
    have h1 : (2 * (r % 2 ^ 16) + t) * k % 2 ^ 16 = (2 * r + t) * k % 2 ^ 16 := by
      rw [Nat.mul_mod, Nat.mul_mod (2 * r + t)]
      congr 2
      omega
    rw [Nat.add_mod, h1, ← Nat.add_mod]
    congr 1
    rw [Nat.add_mul, Nat.add_assoc]
    congr 1
    rw [Nat.mul_comm 2 r, Nat.mul_assoc, Nat.mul_comm 2 k]

theorem popBits_bitsOf (n v : Nat) (rest : List Bool) (hv : v < 2 ^ n) (hn : n ≤ 16) :
    popBits (bitsOf n v ++ rest) n = (v, rest) := by
  unfold popBits
  have hl := bitsOf_length n v
  rw [if_pos (by rw [List.length_append, hl]; omega)]
  have h1 : (bitsOf n v ++ rest).take n = bitsOf n v := by
    rw [List.take_append_of_le_length (by omega), List.take_of_length_le (by omega)]
  have h2 : (bitsOf n v ++ rest).drop n = rest := by
    rw [List.drop_append_of_le_length (by omega), List.drop_of_length_le (by omega), List.nil_append]
  have h3 := foldl_bitsOf n v 0
  rw [Nat.zero_mod] at h3
  have h4 : (2 : Nat) ^ n ≤ 2 ^ 16 := Nat.pow_le_pow_right (by decide) hn
  rw [h1, h2, h3, Nat.zero_mul, Nat.zero_add, Nat.mod_eq_of_lt hv, Nat.mod_eq_of_lt (by omega)]

theorem fieldSizes_eq (l : Nat) (h : l < 16) : fieldSizes.getD l 0 = labelSize l := by
  have : ∀ l : Fin 16, fieldSizes.getD l.val 0 = labelSize l.val := by decide
  exact this ⟨l, h⟩

theorem labelSize_le (l : Nat) : labelSize l ≤ 16 := by
  unfold labelSize
  split <;> decide

theorem labelSize_pos (l : Nat) (h : l < 14) : 0 < labelSize l := by
  have : ∀ l : Fin 14, 0 < labelSize l.val := by decide
  exact this ⟨l, h⟩

theorem fieldBits_length (f : Nat × Nat) : (fieldBits f).length = 4 + labelSize f.1 := by
  simp [fieldBits, bitsOf_length]

theorem foldl_false (n : Nat) : (List.replicate n false).foldl
    (fun r b => (2 * r + Bool.toNat b) % 2 ^ 16) 0 = 0 := by
  induction n with
  | zero => rfl
  | succ n ih =>
    rw [List.replicate_succ, List.foldl_cons]
    exact ih

theorem popBits_false (k n : Nat) :
    popBits (List.replicate k false) n = (0, List.replicate (if k ≥ n then k - n else k) false) := by
  unfold popBits
  rw [List.length_replicate]
  split
  · rw [List.take_replicate, List.drop_replicate, foldl_false]
  · rfl

theorem separateFields_false (fuel k : Nat) :
    separateFields fuel (List.replicate k false) = [] := by
  cases fuel with
  | zero => rfl
  | succ fuel =>
    unfold separateFields
    rw [List.length_replicate]
    split
    · rw [popBits_false]
      dsimp only
      rw [popBits_false]
      simp
    · rfl

theorem separateFields_packed (fields : List (Nat × Nat)) (k fuel : Nat)
    (hv : ∀ f ∈ fields, ValidField f) (hlast : (∀ f ∈ fields.getLast?, f.1 ≠ 14) ∨ 0 < k)
    (hfuel : (fields.flatMap fieldBits).length + k ≤ fuel) :
    separateFields fuel (fields.flatMap fieldBits ++ List.replicate k false) = fields := by
  induction fields generalizing fuel with
  | nil => exact separateFields_false fuel k
  | cons f fs ih =>
    obtain ⟨hl, hd, hne⟩ := hv f (by simp)
    have hlen := fieldBits_length f
    have e0 : ((f :: fs).flatMap fieldBits).length = 4 + labelSize f.1 + (fs.flatMap fieldBits).length := by
      rw [List.flatMap_cons, List.length_append, hlen]
    rw [e0] at hfuel
    cases fuel with
    | zero => omega
    | succ fuel =>
      have e1 : (f :: fs).flatMap fieldBits ++ List.replicate k false =
          bitsOf 4 f.1 ++ (bitsOf (labelSize f.1) f.2 ++
            (fs.flatMap fieldBits ++ List.replicate k false)) := by
        rw [List.flatMap_cons, fieldBits]
        simp only [List.append_assoc]
      rw [e1]
      unfold separateFields
      have hpos : 0 < labelSize f.1 + (fs.flatMap fieldBits).length + k := by
        by_cases h14 : f.1 = 14
        · cases fs with
          | nil =>
            rcases hlast with h | h
            · exact absurd h14 (h f (by simp))
            · omega
          | cons g gs =>
            rw [List.flatMap_cons, List.length_append, fieldBits_length]
            omega
        · have := labelSize_pos f.1 (by omega)
          omega
      rw [if_pos (by
        simp only [List.length_append, bitsOf_length, List.length_replicate]
        omega)]
      rw [popBits_bitsOf 4 f.1 _ (by omega) (by decide)]
      dsimp only
      rw [fieldSizes_eq _ (by omega), if_neg (by
        simp only [List.length_append, bitsOf_length]
        omega), popBits_bitsOf _ _ _ hd (labelSize_le _)]
      dsimp only
      rw [if_neg (by
        rintro ⟨h1, h2⟩
        exact hne (Prod.ext h1 h2)), if_pos hl, ih fuel (fun g hg => hv g (by simp [hg]))
        (by
          rcases hlast with h | h
          · left
            intro g hg
            apply h
            cases fs with
            | nil => simp at hg
            | cons a as => rw [List.getLast?_cons_cons]; exact hg
          · exact Or.inr h) (by omega)]

/-! ### Bits of a group -/

theorem getBits_eq_div (n : Nat) (w : Word) (at_ : Nat) : getBits n w at_ = w.toNat / 2 ^ at_ % 2 ^ n := by
  unfold getBits
  rw [Nat.shiftRight_eq_div_pow]

theorem getBool_eq_div (w : Word) (i : Nat) : getBool w i = (w.toNat / 2 ^ i % 2 == 1) := by
  unfold getBool
  rw [getBits_eq_div]
  have : w.toNat / 2 ^ i % 2 ^ 1 < 2 := Nat.mod_lt _ (by decide)
  rcases (by omega : w.toNat / 2 ^ i % 2 ^ 1 = 0 ∨ w.toNat / 2 ^ i % 2 ^ 1 = 1) with h | h
  · rw [h]; rfl
  · rw [h]; rfl

theorem getBool_testBit (w : Word) (i : Nat) : getBool w i = w.toNat.testBit i := by
  rw [getBool_eq_div, Nat.testBit_eq_decide_div_mod_eq]
  rfl

theorem lowBits_eq (n : Nat) (w : Word) (_hn : n ≤ 16) : lowBits n w = bitsOf n w.toNat := by
  unfold lowBits
  induction n with
  | zero => rfl
  | succ n ih =>
    rw [List.range_succ_eq_map, List.map_cons, bitsOf, List.map_map]
    have hh : getBool w (n + 1 - 1 - 0) = w.toNat.testBit n := by
      rw [getBool_testBit]
      congr 1
    rw [hh, ← ih (by omega)]
    congr 1
    apply List.map_congr_left
    intro a _
    simp only [Function.comp_apply]
    congr 1
    omega

theorem natOfBits_foldl (l : List Bool) (r : Nat) :
    l.foldl (fun r b => 2 * r + Bool.toNat b) r = r * 2 ^ l.length + natOfBits l := by
  unfold natOfBits
  induction l generalizing r with
  | nil => simp
  | cons b l ih =>
    rw [List.foldl_cons, List.foldl_cons, ih, ih (2 * 0 + b.toNat), List.length_cons, Nat.pow_succ]
    rw [Nat.mul_zero, Nat.zero_add, Nat.add_mul, Nat.add_assoc]
    congr 1
    rw [Nat.mul_comm 2 r, Nat.mul_assoc, Nat.mul_comm 2]

theorem natOfBits_cons (b : Bool) (l : List Bool) :
    natOfBits (b :: l) = b.toNat * 2 ^ l.length + natOfBits l := by
  conv => lhs; unfold natOfBits
  rw [List.foldl_cons, natOfBits_foldl, Nat.mul_zero, Nat.zero_add]

theorem natOfBits_lt (l : List Bool) : natOfBits l < 2 ^ l.length := by
  induction l with
  | nil => decide
  | cons b l ih =>
    rw [natOfBits_cons, List.length_cons, Nat.pow_succ]
    cases b <;> simp <;> omega

theorem bitsOf_congr (n v w : Nat) (h : v % 2 ^ n = w % 2 ^ n) : bitsOf n v = bitsOf n w := by
  induction n generalizing v w with
  | zero => rfl
  | succ n ih =>
    rw [bitsOf, bitsOf]
    have h1 : v.testBit n = w.testBit n := by
      have := congrArg (fun u => Nat.testBit u n) h
      simpa [Nat.testBit_mod_two_pow] using this
    have h2 : v % 2 ^ n = w % 2 ^ n := by
      have := congrArg (fun u => u % 2 ^ n) h
      simpa [Nat.mod_mod_of_dvd _ (Nat.pow_dvd_pow 2 (Nat.le_succ n))] using this
    rw [h1, ih v w h2]

theorem bitsOf_natOfBits (l : List Bool) : bitsOf l.length (natOfBits l) = l := by
  induction l with
  | nil => rfl
  | cons b l ih =>
    have hlt := natOfBits_lt l
    rw [List.length_cons, bitsOf, natOfBits_cons]
    congr 1
    · rw [Nat.testBit_eq_decide_div_mod_eq]
      have hp : 0 < 2 ^ l.length := Nat.two_pow_pos _
      rw [Nat.add_comm, Nat.add_mul_div_right _ _ hp, Nat.div_eq_of_lt hlt]
      cases b <;> simp
    · rw [bitsOf_congr _ _ (natOfBits l) (by rw [Nat.mul_add_mod_self_right]), ih]

theorem partBits_subsequent (second : Bool) (gsi : Nat) (bits : List Bool)
    (hl : bits.length = 28) :
    partBits { isReceived := true, data0 := (subsequentGroup second gsi bits).1,
               data1 := (subsequentGroup second gsi bits).2 } = bits := by
  have l1 : (bits.take 12).length = 12 := by rw [List.length_take]; omega
  have l2 : ((bits.drop 12).take 16).length = 16 := by rw [List.length_take, List.length_drop]; omega
  have b1 := natOfBits_lt (bits.take 12)
  have b2 := natOfBits_lt ((bits.drop 12).take 16)
  rw [l1] at b1
  rw [l2] at b2
  unfold partBits subsequentGroup
  dsimp only
  rw [lowBits_eq _ _ (by decide), lowBits_eq _ _ (by decide), BitVec.toNat_ofNat, BitVec.toNat_ofNat,
    Nat.mod_eq_of_lt b2]
  have h1 : bitsOf 12 (((if second then 2 ^ 14 else 0) + gsi * 2 ^ 12 + natOfBits (bits.take 12)) % 2 ^ 16) =
      bits.take 12 := by
    rw [bitsOf_congr 12 _ (natOfBits (bits.take 12)) (by cases second <;> simp <;> omega)]
    have := bitsOf_natOfBits (bits.take 12)
    rwa [l1] at this
  have h2 : bitsOf 16 (natOfBits ((bits.drop 12).take 16)) = (bits.drop 12).take 16 := by
    have := bitsOf_natOfBits ((bits.drop 12).take 16)
    rwa [l2] at this
  have h3 : (bits.drop 12).take 16 = bits.drop 12 :=
    List.take_of_length_le (by rw [List.length_drop]; omega)
  rw [h1, h2, h3, List.take_append_drop]

theorem subsequentGroup_toNat (second : Bool) (gsi : Nat) (bits : List Bool) (hg : gsi < 4)
    (hl : bits.length = 28) :
    (subsequentGroup second gsi bits).1.toNat =
      (if second then 2 ^ 14 else 0) + gsi * 2 ^ 12 + natOfBits (bits.take 12) ∧
    natOfBits (bits.take 12) < 2 ^ 12 := by
  have l1 : (bits.take 12).length = 12 := by rw [List.length_take]; omega
  have b1 := natOfBits_lt (bits.take 12)
  rw [l1] at b1
  refine ⟨?_, b1⟩
  unfold subsequentGroup
  rw [BitVec.toNat_ofNat, Nat.mod_eq_of_lt]
  cases second <;> simp <;> omega

theorem subsequent_header (second : Bool) (gsi : Nat) (bits : List Bool) (hg : gsi < 4)
    (hl : bits.length = 28) :
    getBool (subsequentGroup second gsi bits).1 15 = false ∧
    getBool (subsequentGroup second gsi bits).1 14 = second ∧
    getBits 2 (subsequentGroup second gsi bits).1 12 = gsi := by
  obtain ⟨h1, h2⟩ := subsequentGroup_toNat second gsi bits hg hl
  rw [getBool_eq_div, getBool_eq_div, getBits_eq_div, h1]
  generalize natOfBits (bits.take 12) = t at h2
  cases second
  · refine ⟨?_, ?_, ?_⟩
    · rw [show (((if false = true then 2 ^ 14 else 0) + gsi * 2 ^ 12 + t) / 2 ^ 15 % 2) = 0 by simp; omega]; rfl
    · rw [show (((if false = true then 2 ^ 14 else 0) + gsi * 2 ^ 12 + t) / 2 ^ 14 % 2) = 0 by simp; omega]; rfl
    · simp; omega
  · refine ⟨?_, ?_, ?_⟩
    · rw [show (((if true = true then 2 ^ 14 else 0) + gsi * 2 ^ 12 + t) / 2 ^ 15 % 2) = 0 by simp; omega]; rfl
    · rw [show (((if true = true then 2 ^ 14 else 0) + gsi * 2 ^ 12 + t) / 2 ^ 14 % 2) = 1 by simp; omega]; rfl
    · simp; omega

/-! ### Members of a message -/

open Message

theorem lookup_append_none {k : String} {A B : List (String × J)} (hA : A.lookup k = none) :
    (A ++ B).lookup k = B.lookup k := by
  induction A with
  | nil => rfl
  | cons p A ih =>
    rw [List.lookup_cons] at hA
    rw [List.cons_append, List.lookup_cons]
    split at hA
    · cases hA
    · exact ih hA

theorem lookup_listMember {k k' : String} (h : k ≠ k') (l : List Nat) :
    (listMember k' l).lookup k = none := by
  unfold listMember
  split
  · rfl
  · simp [List.lookup, beq_eq_false_iff_ne.mpr h]

theorem lookup_opt {α : Type} {k k' : String} (h : k ≠ k') (o : Option α) (f : α → J) :
    ((o.map fun v => (k', f v)).toList).lookup k = none := by
  cases o
  · rfl
  · simp [List.lookup, beq_eq_false_iff_ne.mpr h]

theorem lookup_ite {k k' : String} (h : k ≠ k') (c : Prop) [Decidable c] (v : J) :
    (if c then [(k', v)] else []).lookup k = none := by
  split
  · simp [List.lookup, beq_eq_false_iff_ne.mpr h]
  · rfl

theorem lookup_ite' {k k' : String} (h : k ≠ k') (c : Prop) [Decidable c] (v : J) :
    (if c then [] else [(k', v)]).lookup k = none := by
  split
  · rfl
  · simp [List.lookup, beq_eq_false_iff_ne.mpr h]

theorem json_members (env : TmcEnv) (m : Message) (hc : m.isComplete = true) (a : Nat) (more : List Nat)
    (hev : m.events = a :: more) :
    ∃ members, m.json env = some members ∧
      members.lookup "event_codes" = some (.arr ((a :: more).map J.nat)) ∧
      members.lookup "location" = (if m.isEncrypted then none else some (.nat m.location.toNat)) ∧
      members.lookup "encrypted_location" =
        (if m.wasEncrypted then some (.nat m.encryptedLocation.toNat) else none) ∧
      members.lookup "extent" = some (.str m.extentString) ∧
      members.lookup "direction" = some (.str (if m.both then ascii "both" else ascii "single")) := by
  unfold Message.json
  rw [hc, hev]
  simp only [Bool.not_true, List.isEmpty_cons, Bool.or_self, Bool.false_eq_true, if_false]
  refine ⟨_, rfl, ?_⟩
  simp only [List.append_assoc]
  have hev' : ∀ k : String, k ≠ "event_codes" → (listMember "event_codes" (a :: more)).lookup k = none :=
    fun k hk => lookup_listMember hk _
  have hend : ∀ k : String, k ≠ "starts" → k ≠ "until" → k ≠ "urgency" →
      ((m.timeStarts.map fun v => ("starts", J.str (getTimeString v))).toList ++
      ((m.timeUntil.map fun v => ("until", J.str (getTimeString v))).toList ++
      [("urgency", J.str (getUrgencyString m.urgency))])).lookup k = none := by
    intro k h1 h2 h3
    rw [lookup_append_none (lookup_opt h1 _ _), lookup_append_none (lookup_opt h2 _ _)]
    simp [List.lookup, beq_eq_false_iff_ne.mpr h3]
  refine ⟨?_, ?_, ?_, ?_, ?_⟩
  · unfold listMember
    simp
  · rw [lookup_append_none (hev' _ (by decide)), lookup_append_none (lookup_listMember (by decide) _),
      lookup_append_none (lookup_opt (by decide) _ _), lookup_append_none (lookup_ite' (by decide) _ _),
      lookup_append_none (lookup_listMember (by decide) _), lookup_append_none (lookup_opt (by decide) _ _),
      lookup_append_none (lookup_ite (by decide) _ _)]
    cases m.isEncrypted
    · simp
    · simp only [Bool.not_true, Bool.false_eq_true, if_false, if_true, List.nil_append]
      rw [lookup_append_none (by simp [List.lookup]), hend _ (by decide) (by decide) (by decide)]
  · rw [lookup_append_none (hev' _ (by decide)), lookup_append_none (lookup_listMember (by decide) _),
      lookup_append_none (lookup_opt (by decide) _ _), lookup_append_none (lookup_ite' (by decide) _ _),
      lookup_append_none (lookup_listMember (by decide) _), lookup_append_none (lookup_opt (by decide) _ _)]
    cases m.wasEncrypted
    · simp only [Bool.false_eq_true, if_false, List.nil_append]
      rw [lookup_append_none (lookup_ite (by decide) _ _), lookup_append_none (by simp [List.lookup]),
        hend _ (by decide) (by decide) (by decide)]
    · simp
  · rw [lookup_append_none (hev' _ (by decide)), lookup_append_none (lookup_listMember (by decide) _),
      lookup_append_none (lookup_opt (by decide) _ _), lookup_append_none (lookup_ite' (by decide) _ _),
      lookup_append_none (lookup_listMember (by decide) _), lookup_append_none (lookup_opt (by decide) _ _),
      lookup_append_none (lookup_ite (by decide) _ _), lookup_append_none (lookup_ite (by decide) _ _)]
    simp [List.lookup]
  · rw [lookup_append_none (hev' _ (by decide)), lookup_append_none (lookup_listMember (by decide) _),
      lookup_append_none (lookup_opt (by decide) _ _), lookup_append_none (lookup_ite' (by decide) _ _),
      lookup_append_none (lookup_listMember (by decide) _), lookup_append_none (lookup_opt (by decide) _ _),
      lookup_append_none (lookup_ite (by decide) _ _), lookup_append_none (lookup_ite (by decide) _ _)]
    simp

end Redsea
