import Verif.Spec.Tmc

/-
C50, C54, C55: encryption, location walk and times of TMC messages.
-/

namespace Redsea

/-! ### C50 -/

theorem count_and_15 (c : BitVec 32) : (c &&& 15#32).toNat = c.toNat % 16 := by
  rw [BitVec.toNat_and]
  exact Nat.and_two_pow_sub_one_eq_mod (n := 4) c.toNat

theorem rotl16_eq (v : Word) (c : BitVec 32) : rotl16 v c = v.rotateLeft c.toNat := by
  have h1 := count_and_15 c
  have h2 : c.toNat % 16 < 16 := Nat.mod_lt _ (by decide)
  have key : ∀ n, n < 16 → ∀ d : BitVec 32, d.toNat = n →
      ((v <<< d.toNat) ||| (v >>> ((-d) &&& 15#32).toNat)) = v.rotateLeft n := by
    intro n hn d hd
    have hm : ((-d) &&& 15#32).toNat = (16 - n) % 16 := by
      rw [count_and_15, BitVec.toNat_neg, hd]
      omega
    rw [hm, hd, BitVec.rotateLeft]
    by_cases h0 : n = 0
    · subst h0
      have h16 : v >>> 16 = 0#16 := by
        apply BitVec.eq_of_toNat_eq
        rw [BitVec.toNat_ushiftRight, Nat.shiftRight_eq_div_pow]
        have := v.isLt
        simp only [BitVec.toNat_ofNat]
        omega
      show v <<< 0 ||| v >>> 0 = v <<< 0 ||| v >>> 16
      rw [h16]
      simp
    · have e1 : (16 - n) % 16 = 16 - n := by omega
      have e2 : n % 16 = n := by omega
      rw [e1, e2]
      rfl
  have := key (c.toNat % 16) h2 (c &&& 15#32) h1
  unfold rotl16
  dsimp only
  rw [this, BitVec.rotateLeft, BitVec.rotateLeft, Nat.mod_mod]

theorem rotateLeft_rotateRight' (v : Word) (r : Nat) : (v.rotateRight r).rotateLeft r = v := by
  apply BitVec.eq_of_getLsbD_eq
  intro i hi
  rw [BitVec.getLsbD_rotateLeft]
  have hr : r % 16 < 16 := Nat.mod_lt _ (by decide)
  by_cases h : i < r % 16
  · simp only [h, decide_true, cond_true]
    rw [BitVec.getLsbD_rotateRight]
    have h2 : ¬ (16 - r % 16 + i < 16 - r % 16) := by omega
    simp only [h2, decide_false, cond_false]
    have h3 : 16 - r % 16 + i < 16 := by omega
    simp only [h3, decide_true, Bool.true_and]
    congr 1
    omega
  · simp only [h, decide_false, cond_false, hi, decide_true, Bool.true_and]
    rw [BitVec.getLsbD_rotateRight]
    have h2 : i - r % 16 < 16 - r % 16 := by omega
    simp only [h2, decide_true, cond_true]
    congr 1
    omega

theorem rotateRight_rotateLeft' (v : Word) (r : Nat) : (v.rotateLeft r).rotateRight r = v := by
  apply BitVec.eq_of_getLsbD_eq
  intro i hi
  rw [BitVec.getLsbD_rotateRight]
  have hr : r % 16 < 16 := Nat.mod_lt _ (by decide)
  by_cases h : i < 16 - r % 16
  · simp only [h, decide_true, cond_true]
    rw [BitVec.getLsbD_rotateLeft]
    have h2 : ¬ (r % 16 + i < r % 16) := by omega
    simp only [h2, decide_false, cond_false]
    have h3 : r % 16 + i < 16 := by omega
    simp only [h3, decide_true, Bool.true_and]
    congr 1
    omega
  · simp only [h, decide_false, cond_false, hi, decide_true, Bool.true_and]
    rw [BitVec.getLsbD_rotateLeft]
    have h2 : i - (16 - r % 16) < r % 16 := by omega
    simp only [h2, decide_true, cond_true]
    congr 1
    omega

/-- C50: decrypting an encrypted message whose encrypted location was computed with the same key
recovers the location. For every location and every key whose shift is below 16 (in fact at most
24, so that the shift is defined). -/
theorem C50_decrypt (m : Message) (key : ServiceKey) (location : Word) (henc : m.isEncrypted)
    (hs : key.xorstart.toNat ≤ 24)
    (hl : m.encryptedLocation =
      encryptLocation location key.xorval.toNat key.xorstart.toNat key.nrot.toNat) :
    ∃ m', m.decrypt key = some m' ∧ m'.location = location ∧ m'.isEncrypted = false ∧
      m'.encryptedLocation = m.encryptedLocation := by
  unfold Message.decrypt
  have hx := key.xorval.isLt
  have hp : (2 : Nat) ^ key.xorstart.toNat ≤ 2 ^ 24 := Nat.pow_le_pow_right (by decide) hs
  have hb : key.xorval.toNat * 2 ^ key.xorstart.toNat < 2 ^ 32 := by
    calc key.xorval.toNat * 2 ^ key.xorstart.toNat
        ≤ key.xorval.toNat * 2 ^ 24 := Nat.mul_le_mul_left _ hp
      _ < 2 ^ 8 * 2 ^ 24 := Nat.mul_lt_mul_of_pos_right hx (by decide)
      _ = 2 ^ 32 := by decide
  rw [henc, if_neg (by decide), if_pos ⟨by omega, hb⟩]
  refine ⟨_, rfl, ?_, rfl, rfl⟩
  show rotl16 (m.encryptedLocation ^^^ _) _ = location
  rw [hl, encryptLocation, BitVec.xor_assoc, BitVec.xor_self, BitVec.xor_zero, rotl16_eq]
  have e : (key.nrot.setWidth 32).toNat = key.nrot.toNat := by
    rw [BitVec.toNat_setWidth, Nat.mod_eq_of_lt]
    have := key.nrot.isLt
    omega
  rw [e, rotateLeft_rotateRight']

/-- C50: with the same key, different encrypted codes are decrypted to different locations. -/
theorem C50_injective (m n m' n' : Message) (key : ServiceKey) (hm : m.isEncrypted)
    (hn : n.isEncrypted) (h1 : m.decrypt key = some m') (h2 : n.decrypt key = some n')
    (hne : m.encryptedLocation ≠ n.encryptedLocation) : m'.location ≠ n'.location := by
  unfold Message.decrypt at h1 h2
  rw [hm, if_neg (by decide)] at h1
  rw [hn, if_neg (by decide)] at h2
  split at h1
  · rename_i hc
    rw [if_pos hc] at h2
    cases h1
    cases h2
    intro he
    apply hne
    change rotl16 _ _ = rotl16 _ _ at he
    rw [rotl16_eq, rotl16_eq] at he
    have he' := congrArg (fun v : Word => v.rotateRight (key.nrot.setWidth 32).toNat) he
    simp only [rotateRight_rotateLeft'] at he'
    have := congrArg (fun v : Word =>
      v ^^^ BitVec.ofNat 16 (key.xorval.toNat * 2 ^ key.xorstart.toNat)) he'
    simpa [BitVec.xor_assoc] using this
  · cases h1

-- a key as in the test data of ISO 14819-6: value 92, shift 3, rotation 5
example :
    let key : ServiceKey := { xorval := 92, xorstart := 3, nrot := 5 }
    let m := { Message.new true with encryptedLocation := encryptLocation 0x2ED9 92 3 5 }
    m.isEncrypted ∧ key.xorstart.toNat ≤ 24 ∧ m.encryptedLocation = 0xCB96 ∧
    (m.decrypt key).map (·.location) = some 0x2ED9 := by
  decide +kernel

/-! ### C54 -/

theorem walkPoints_spec (db : LocationDatabase) (pos : Bool) (n : Nat) (lcd : Word) :
    (walkPoints db pos n lcd).length ≤ n ∧ Linked db pos lcd (walkPoints db pos n lcd) ∧
    ((walkPoints db pos n lcd).length = n ∨
      db.points (afterLast pos lcd (walkPoints db pos n lcd)) = none) := by
  induction n generalizing lcd with
  | zero => simp [walkPoints, Linked]
  | succ n ih =>
    unfold walkPoints
    cases h : db.points lcd with
    | none => simp [Linked, afterLast, h]
    | some p =>
      obtain ⟨h1, h2, h3⟩ := ih (if pos then p.posOff else p.negOff)
      refine ⟨?_, ⟨h, h2⟩, ?_⟩
      · simp only [List.length_cons]; omega
      · rcases h3 with h3 | h3
        · left; simp only [List.length_cons]; omega
        · right; exact h3

/-- C54 (unknown location): without a matching table, without a location (encrypted message) or with a
location that is not in the table nothing is added to the message. -/
theorem C54_unknown (db : LocationDatabase) (ltn : Nat) (location : Option Word) (extent : Int)
    (h : db.ltn.toNat ≠ ltn ∨ ltn = 0 ∨ ∀ lcd ∈ location, db.points lcd = none) :
    decodeLocation db ltn location extent = [] := by
  unfold decodeLocation
  split
  · rfl
  · rename_i hc
    have hc1 : db.ltn.toNat = ltn := Decidable.byContradiction fun hn => hc (Or.inl hn)
    have hc2 : db.ltn ≠ 0 := fun hn => hc (Or.inr hn)
    rcases h with h | h | h
    · exact absurd hc1 h
    · exfalso
      apply hc2
      apply BitVec.eq_of_toNat_eq
      rw [hc1, h]
      rfl
    · cases location with
      | none => rfl
      | some lcd =>
        have := h lcd (by simp)
        simp only [this]

/-- C54: for every location database, also one with cycles or dangling links. If the message's
location is in the table, the coordinates printed belong to a list of points that starts at the
location, follows the links of the database in the direction of the extent, has at least one and
at most |extent| + 1 points, and is shorter only where the database ends. -/
theorem C54_coordinates (db : LocationDatabase) (ltn : Nat) (lcd : Word) (extent : Int) (p : Point)
    (hltn : db.ltn.toNat = ltn) (h0 : ltn ≠ 0) (hp : db.points lcd = some p) :
    ∃ points rest,
      decodeLocation db ltn (some lcd) extent =
        .set ["tmc", "message", "coordinates"]
          (.arr (points.map fun q => .obj [("lat", .float q.lat), ("lon", .float q.lon)])) :: rest ∧
      (∀ op ∈ rest, op.path ≠ ["tmc", "message", "coordinates"]) ∧
      points.head? = some p ∧ points.length ≤ extent.natAbs + 1 ∧
      Linked db (decide (0 ≤ extent)) lcd points ∧
      (points.length = extent.natAbs + 1 ∨
        db.points (afterLast (decide (0 ≤ extent)) lcd points) = none) := by
  have hw := walkPoints_spec db (decide (extent ≥ 0)) (extent.natAbs + 1) lcd
  have hhead : (walkPoints db (decide (extent ≥ 0)) (extent.natAbs + 1) lcd).head? = some p := by
    unfold walkPoints
    rw [hp]
    rfl
  unfold decodeLocation
  have hcond : ¬ (db.ltn.toNat ≠ ltn ∨ db.ltn = 0) := by
    rintro (h | h)
    · exact h hltn
    · apply h0
      rw [← hltn, h]
      rfl
  rw [if_neg hcond]
  simp only [hp]
  generalize walkPoints db (decide (extent ≥ 0)) (extent.natAbs + 1) lcd = points at hw hhead
  refine ⟨points, _, rfl, ?_, hhead, hw.1, hw.2.1, hw.2.2⟩
  intro op hop
  have hne : ∀ k : String, k ≠ "coordinates" →
      ["tmc", "message", k] ≠ ["tmc", "message", "coordinates"] := by
    intro k hk h
    exact hk (by simpa using h)
  rcases List.mem_append.mp hop with hop | hop
  · change op ∈ (match points.head?, points.getLast? with
         | some first, some last =>
           if points.length > 1 ∧ first.name1.length > 0 ∧ last.name1.length > 0 then
             [JOp.set ["tmc", "message", "span_from"] (.str first.name1),
              .set ["tmc", "message", "span_to"] (.str last.name1)]
           else []
         | _, _ => []) at hop
    split at hop
    · split at hop
      · simp only [List.mem_cons, List.not_mem_nil, or_false] at hop
        rcases hop with rfl | rfl
        · exact hne _ (by decide)
        · exact hne _ (by decide)
      · simp at hop
    · simp at hop
  · split at hop
    · simp at hop
    · simp only [List.mem_append] at hop
      rcases hop with hop | hop
      · split at hop
        · simp only [List.mem_cons, List.not_mem_nil, or_false] at hop
          subst hop
          exact hne _ (by decide)
        · simp at hop
      · split at hop
        · simp only [List.mem_cons, List.not_mem_nil, or_false] at hop
          subst hop
          exact hne _ (by decide)
        · split at hop
          · simp only [List.mem_cons, List.not_mem_nil, or_false] at hop
            subst hop
            exact hne _ (by decide)
          · simp at hop

/-- A database with a cycle of two points. -/
def cyclicDb : LocationDatabase where
  ltn := 17
  points := fun lcd =>
    if lcd = 1 then some { posOff := 2, negOff := 9, lat := 1 }
    else if lcd = 2 then some { posOff := 1, negOff := 1, lat := 2 } else none

-- four points along the cycle; in the other direction the walk ends at once
example : (walkPoints cyclicDb true 4 1).map (·.lat) = [1, 2, 1, 2] ∧
    (walkPoints cyclicDb false 4 1).map (·.lat) = [1] ∧ cyclicDb.ltn.toNat = 17 ∧
    (cyclicDb.points 1).isSome := by
  decide +kernel

/-! ### C55 -/

/-- The time that a code denotes. -/
def decodeTime (v : Nat) : TmcTime :=
  if v < 96 then .clock (v / 4) (v % 4)
  else if v < 201 then .hour ((v - 96) / 24) ((v - 96) % 24)
  else if v < 232 then .day (v - 200)
  else .month ((v - 230) / 2) (v % 2 == 1)

theorem timeTable : ∀ v : Fin 256, (decodeTime v.val).Valid ∧ (decodeTime v.val).code = v.val ∧
    getTimeString v.val = ascii (decodeTime v.val).text := by
  decide +kernel

theorem decodeTime_code (t : TmcTime) (h : t.Valid) : decodeTime t.code = t := by
  cases t with
  | clock a q =>
    obtain ⟨h1, h2⟩ := h
    show decodeTime (4 * a + q) = _
    unfold decodeTime
    rw [if_pos (by omega), show (4 * a + q) / 4 = a by omega, show (4 * a + q) % 4 = q by omega]
  | hour d a =>
    obtain ⟨h1, h2⟩ := h
    show decodeTime (96 + 24 * d + a) = _
    unfold decodeTime
    rw [if_neg (by omega), if_pos (by omega), show (96 + 24 * d + a - 96) / 24 = d by omega,
      show (96 + 24 * d + a - 96) % 24 = a by omega]
  | day d =>
    obtain ⟨h1, h2⟩ := h
    show decodeTime (200 + d) = _
    unfold decodeTime
    rw [if_neg (by omega), if_neg (by omega), if_pos (by omega), show 200 + d - 200 = d by omega]
  | month m e =>
    obtain ⟨h1, h2⟩ := h
    cases e
    · show decodeTime (230 + 2 * m + 0) = _
      unfold decodeTime
      rw [if_neg (by omega), if_neg (by omega), if_neg (by omega),
        show (230 + 2 * m + 0 - 230) / 2 = m by omega, show (230 + 2 * m + 0) % 2 = 0 by omega]
      rfl
    · show decodeTime (230 + 2 * m + 1) = _
      unfold decodeTime
      rw [if_neg (by omega), if_neg (by omega), if_neg (by omega),
        show (230 + 2 * m + 1 - 230) / 2 = m by omega, show (230 + 2 * m + 1) % 2 = 1 by omega]
      rfl

/-- C55: every 8-bit code denotes exactly one time, and the text printed is that of this time. -/
theorem C55_times (v : Nat) (h : v < 256) :
    ∃ t : TmcTime, t.Valid ∧ t.code = v ∧ getTimeString v = ascii t.text ∧
      ∀ t' : TmcTime, t'.Valid → t'.code = v → t' = t := by
  obtain ⟨h1, h2, h3⟩ := timeTable ⟨v, h⟩
  refine ⟨decodeTime v, h1, h2, h3, ?_⟩
  intro t' ht' hc
  rw [← hc, decodeTime_code t' ht']

example : getTimeString 50 = ascii "12:30" ∧ getTimeString 125 = ascii "after 1 day at 05:00" ∧
    getTimeString 200 = ascii "after 4 days at 08:00" ∧ getTimeString 231 = ascii "day 31 of the month" ∧
    getTimeString 255 = ascii "end of December" := by decide +kernel

end Redsea
