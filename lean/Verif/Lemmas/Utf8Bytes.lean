import Verif.Lemmas.StationOps

/-
Valid UTF-8: concatenation, ASCII, removal of spaces, the character table.
-/

namespace Redsea

/-- A string made of ASCII bytes and of valid strings without ASCII bytes. -/
inductive Utf8 : Str → Prop
  | nil : Utf8 []
  | byte (b : Byte) (s : Str) (h : b.toNat < 0x80) (hs : Utf8 s) : Utf8 (b :: s)
  | multi (c s : Str) (h : ∀ b ∈ c, 0x80 ≤ b.toNat) (hne : c ≠ [])
      (hv : ∀ t, validUtf8 (c ++ t) = validUtf8 t) (hs : Utf8 s) : Utf8 (c ++ s)

theorem continuation_high (b : Byte) (h : isContinuation b = true) : 0x80 ≤ b.toNat := by
  revert b
  decide

theorem utf8_of_valid (s : Str) (h : validUtf8 s = true) : Utf8 s := by
  induction hn : s.length using Nat.strongRecOn generalizing s with
  | _ n ih =>
  cases s with
  | nil => exact .nil
  | cons b rest =>
    have hlen : rest.length < n := by simp at hn; omega
    unfold validUtf8 at h
    dsimp only at h
    by_cases h1 : b.toNat < 0x80
    · rw [if_pos h1] at h
      exact .byte b rest h1 (ih _ hlen rest h rfl)
    rw [if_neg h1] at h
    by_cases h2 : 0xC2 ≤ b.toNat ∧ b.toNat ≤ 0xDF
    · rw [if_pos h2] at h
      match rest, hlen, h with
      | [], _, h => simp at h
      | c1 :: rest, hlen, h =>
        simp only [Bool.and_eq_true] at h
        have hv : ∀ t, validUtf8 ([b, c1] ++ t) = validUtf8 t := by
          intro t
          rw [List.cons_append]
          conv => lhs; unfold validUtf8
          dsimp only
          rw [if_neg h1, if_pos h2]
          simp [h.1]
        refine .multi [b, c1] rest ?_ (by simp) hv (ih _ (by simp at hlen; omega) rest h.2 rfl)
        intro x hx
        simp only [List.mem_cons, List.not_mem_nil, or_false] at hx
        rcases hx with rfl | rfl
        · omega
        · exact continuation_high _ h.1
    rw [if_neg h2] at h
    by_cases h3 : 0xE0 ≤ b.toNat ∧ b.toNat ≤ 0xEF
    · rw [if_pos h3] at h
      match rest, hlen, h with
      | [], _, h => simp at h
      | [_], _, h => simp at h
      | c1 :: c2 :: rest, hlen, h =>
        rw [Bool.and_eq_true] at h
        have hv : ∀ t, validUtf8 ([b, c1, c2] ++ t) = validUtf8 t := by
          intro t
          rw [List.cons_append]
          conv => lhs; unfold validUtf8
          dsimp only
          rw [if_neg h1, if_neg h2, if_pos h3]
          simp only [List.cons_append, List.nil_append]
          rw [h.1, Bool.true_and]
        have hc := h.1
        simp only [Bool.and_eq_true] at hc
        refine .multi [b, c1, c2] rest ?_ (by simp) hv (ih _ (by simp at hlen; omega) rest h.2 rfl)
        intro x hx
        simp only [List.mem_cons, List.not_mem_nil, or_false] at hx
        rcases hx with rfl | rfl | rfl
        · omega
        · exact continuation_high _ hc.1.1.1
        · exact continuation_high _ hc.1.1.2
    rw [if_neg h3] at h
    by_cases h4 : 0xF0 ≤ b.toNat ∧ b.toNat ≤ 0xF4
    · rw [if_pos h4] at h
      match rest, hlen, h with
      | [], _, h => simp at h
      | [_], _, h => simp at h
      | [_, _], _, h => simp at h
      | c1 :: c2 :: c3 :: rest, hlen, h =>
        rw [Bool.and_eq_true] at h
        have hv : ∀ t, validUtf8 ([b, c1, c2, c3] ++ t) = validUtf8 t := by
          intro t
          rw [List.cons_append]
          conv => lhs; unfold validUtf8
          dsimp only
          rw [if_neg h1, if_neg h2, if_neg h3, if_pos h4]
          simp only [List.cons_append, List.nil_append]
          rw [h.1, Bool.true_and]
        have hc := h.1
        simp only [Bool.and_eq_true] at hc
        refine .multi [b, c1, c2, c3] rest ?_ (by simp) hv (ih _ (by simp at hlen; omega) rest h.2 rfl)
        intro x hx
        simp only [List.mem_cons, List.not_mem_nil, or_false] at hx
        rcases hx with rfl | rfl | rfl | rfl
        · omega
        · exact continuation_high _ hc.1.1.1.1
        · exact continuation_high _ hc.1.1.1.2
        · exact continuation_high _ hc.1.1.2
    rw [if_neg h4] at h
    cases h

theorem validUtf8_byte (b : Byte) (s : Str) (h : b.toNat < 0x80) : validUtf8 (b :: s) = validUtf8 s := by
  conv => lhs; unfold validUtf8
  dsimp only
  rw [if_pos h]

theorem Utf8.valid {s : Str} (h : Utf8 s) : validUtf8 s = true := by
  induction h with
  | nil => rfl
  | byte b s h _ ih => rw [validUtf8_byte b s h]; exact ih
  | multi c s _ _ hv _ ih => rw [hv]; exact ih

theorem Utf8.append {s t : Str} (h : Utf8 s) (ht : Utf8 t) : Utf8 (s ++ t) := by
  induction h with
  | nil => exact ht
  | byte b s h _ ih => exact .byte b _ h ih
  | multi c s h hne hv _ ih => rw [List.append_assoc]; exact .multi c _ h hne hv ih

theorem Utf8.flatMap {α : Type} (f : α → Str) (l : List α) (h : ∀ a ∈ l, Utf8 (f a)) : Utf8 (l.flatMap f) := by
  induction l with
  | nil => exact .nil
  | cons a l ih =>
    rw [List.flatMap_cons]
    exact (h a (by simp)).append (ih fun x hx => h x (by simp [hx]))

theorem utf8_bytes {s : Str} (h : ∀ b ∈ s, b.toNat < 0x80) : Utf8 s := by
  induction s with
  | nil => exact .nil
  | cons b s ih => exact .byte b s (h b (by simp)) (ih fun x hx => h x (by simp [hx]))

/-- An ASCII constant. -/
theorem utf8_ascii (s : String) (h : ∀ c ∈ s.toList, c.toNat < 0x80) : Utf8 (ascii s) := by
  refine utf8_bytes fun b hb => ?_
  obtain ⟨c, hc, rfl⟩ := List.mem_map.mp hb
  have := h c hc
  rw [BitVec.toNat_ofNat]
  omega

theorem hexDigit_ascii (n : Nat) (h : n < 16) : (hexDigit n).toNat < 0x80 := by
  revert h
  have : ∀ n < 16, (hexDigit n).toNat < 0x80 := by decide
  exact this n

theorem utf8_hexPadded (n v : Nat) : Utf8 (hexPadded n v) := by
  induction n generalizing v with
  | zero => exact .nil
  | succ n ih => exact (ih _).append (.byte _ _ (hexDigit_ascii _ (Nat.mod_lt _ (by decide))) .nil)

theorem digitChar_ascii (n : Nat) (h : n < 10) : (Nat.digitChar n).toNat < 0x80 := by
  have : ∀ n < 10, (Nat.digitChar n).toNat < 0x80 := by decide
  exact this n h

theorem utf8_decimal (n : Nat) : Utf8 (decimal n) := by
  refine utf8_ascii _ fun c hc => ?_
  rw [Nat.toString_eq_ofList_toDigits, String.toList_ofList] at hc
  have := Nat.isDigit_of_mem_toDigits (b := 10) (by decide) (by decide) hc
  have h9 : '9'.toNat = 57 := rfl
  have := Char.isDigit_iff_toNat.mp this
  omega

/-- The character table. -/
theorem utf8_char (b : Byte) : Utf8 (getRDSCharString b) := by
  refine utf8_of_valid _ ?_
  revert b
  decide +kernel

theorem utf8_drop_space {s : Str} (h : Utf8 (s ++ [0x20])) : Utf8 s := by
  generalize hs' : s ++ [0x20] = s' at h
  induction h generalizing s with
  | nil => simp at hs'
  | byte b t hb ht ih =>
    cases s with
    | nil => exact .nil
    | cons c s =>
      simp only [List.cons_append, List.cons.injEq] at hs'
      rw [hs'.1]
      exact .byte b s hb (ih hs'.2)
  | multi c t hc hne hv ht ih =>
    have hlast : c ++ t = s ++ [0x20] := hs'.symm
    rcases List.eq_nil_or_concat t with rfl | ⟨t', x, rfl⟩
    · exfalso
      rw [List.append_nil] at hlast
      have := hc 0x20 (by rw [hlast]; simp)
      revert this
      decide
    · rw [List.concat_eq_append, ← List.append_assoc] at hlast
      obtain ⟨h1, h2⟩ := List.append_inj' hlast rfl
      rw [← h1]
      refine .multi c t' hc hne hv (ih ?_)
      rw [List.concat_eq_append, h2]

theorem utf8_rtrim {s : Str} (h : Utf8 s) : Utf8 (rtrim s) := by
  unfold rtrim
  induction hn : s.length generalizing s with
  | zero =>
    rw [List.length_eq_zero_iff.mp hn]
    exact .nil
  | succ n ih =>
    rcases List.eq_nil_or_concat s with rfl | ⟨t, x, rfl⟩
    · exact .nil
    · rw [List.concat_eq_append] at h hn ⊢
      rw [List.reverse_append]
      by_cases hx : x = 0x20
      · subst hx
        have := ih (utf8_drop_space h) (by simpa using hn)
        simpa [List.dropWhile_cons] using this
      · have : ([x].reverse ++ t.reverse).dropWhile (· == 0x20) = [x].reverse ++ t.reverse := by
          have hb : (x == 0x20) = false := by simpa using hx
          rw [List.reverse_singleton, List.singleton_append, List.dropWhile_cons, hb]
          rfl
        rw [this]
        simpa using h

/-! ### JSON values -/

/-- All strings in the value of an operation are valid UTF-8. -/
def JOp.utf8 : JOp → Bool
  | .set _ v => v.utf8
  | .push _ v => v.utf8
  | .touch _ => true

/-- … for all operations. -/
def OpsUtf8 (ops : List JOp) : Prop := ∀ op ∈ ops, op.utf8 = true

theorem updateMember_utf8 (k : String) (f : J → Option J) (hf : ∀ v v', v.utf8 = true → f v = some v' → v'.utf8 = true)
    (l l' : List (String × J)) (hl : J.utf8Members l = true) (h : updateMember k f l = some l') :
    J.utf8Members l' = true := by
  induction l generalizing l' with
  | nil =>
    obtain ⟨v, hv, rfl⟩ := Option.map_eq_some_iff.mp h
    simp only [J.utf8Members, Bool.and_true]
    exact hf _ _ rfl hv
  | cons m l ih =>
    obtain ⟨k', v⟩ := m
    simp only [J.utf8Members, Bool.and_eq_true] at hl
    unfold updateMember at h
    split at h
    · obtain ⟨v', hv, rfl⟩ := Option.map_eq_some_iff.mp h
      simp only [J.utf8Members, Bool.and_eq_true]
      exact ⟨hf _ _ hl.1 hv, hl.2⟩
    · obtain ⟨l1, h1, rfl⟩ := Option.map_eq_some_iff.mp h
      simp only [J.utf8Members, Bool.and_eq_true]
      exact ⟨hl.1, ih l1 hl.2 h1⟩

theorem jupdate_utf8 (path : List String) (f : J → Option J)
    (hf : ∀ v v', v.utf8 = true → f v = some v' → v'.utf8 = true) (j j' : J) (hj : j.utf8 = true)
    (h : J.update path f j = some j') : j'.utf8 = true := by
  induction path generalizing j j' with
  | nil => exact hf _ _ hj h
  | cons k path ih =>
    cases j with
    | null =>
      obtain ⟨l, hl, rfl⟩ := Option.map_eq_some_iff.mp h
      exact updateMember_utf8 _ _ (fun v v' => ih v v') _ _ rfl hl
    | obj m =>
      obtain ⟨l, hl, rfl⟩ := Option.map_eq_some_iff.mp h
      exact updateMember_utf8 _ _ (fun v v' => ih v v') _ _ hj hl
    | _ => cases h

theorem utf8List_append (a b : List J) : J.utf8List (a ++ b) = (J.utf8List a && J.utf8List b) := by
  induction a with
  | nil => rfl
  | cons x a ih => simp [J.utf8List, ih, Bool.and_assoc]

theorem build_utf8 (ops : List JOp) (h : OpsUtf8 ops) (j j' : J) (hj : j.utf8 = true)
    (hb : J.build ops j = some j') : j'.utf8 = true := by
  induction ops generalizing j with
  | nil =>
    simp only [J.build, List.foldlM_nil, Option.pure_def, Option.some.injEq] at hb
    rw [← hb]
    exact hj
  | cons op ops ih =>
    simp only [J.build, List.foldlM_cons, Option.bind_eq_bind] at hb
    obtain ⟨j1, h1, h2⟩ := Option.bind_eq_some_iff.mp hb
    refine ih (fun x hx => h x (by simp [hx])) j1 ?_ h2
    have hop := h op (by simp)
    cases op with
    | set p v =>
      refine jupdate_utf8 p _ (fun a b _ hab => ?_) j j1 hj h1
      rw [← Option.some.inj hab]
      exact hop
    | push p v =>
      refine jupdate_utf8 p _ (fun a b ha hab => ?_) j j1 hj h1
      cases a with
      | null =>
        rw [← Option.some.inj hab]
        simp only [J.utf8, J.utf8List, Bool.and_true]
        exact hop
      | arr l =>
        rw [← Option.some.inj hab]
        simp only [J.utf8, utf8List_append, J.utf8List, Bool.and_true, Bool.and_eq_true] at ha ⊢
        exact ⟨ha, hop⟩
      | _ => cases hab
    | touch p =>
      refine jupdate_utf8 p _ (fun a b ha hab => ?_) j j1 hj h1
      rw [← Option.some.inj hab]
      exact ha

end Redsea
