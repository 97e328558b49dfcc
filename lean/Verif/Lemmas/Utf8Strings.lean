import Verif.Lemmas.Utf8Bytes

/-
The strings that decoders make are valid UTF-8.
-/

namespace Redsea

theorem utf8_literal (s : String) (h : s.toList.all (fun c => decide (c.toNat < 0x80)) = true) :
    Utf8 (ascii s) :=
  utf8_ascii s fun c hc => of_decide_eq_true (List.all_eq_true.mp h c hc)

theorem continuation_ofNat (n : Nat) (h : n < 64) : isContinuation (BitVec.ofNat 8 (0x80 + n)) = true := by
  have : ∀ n < 64, isContinuation (BitVec.ofNat 8 (0x80 + n)) = true := by decide
  exact this n h

/-- The encoding of every Unicode character is valid. -/
theorem utf8_encode (c : Char) : Utf8 (utf8Encode c.toNat) := by
  refine utf8_of_valid _ ?_
  have hv : c.toNat < 0xD800 ∨ 0xDFFF < c.toNat ∧ c.toNat < 0x110000 := c.valid
  generalize c.toNat = n at hv
  unfold utf8Encode
  split
  · rename_i h
    rw [validUtf8_byte _ _ (by rw [BitVec.toNat_ofNat]; omega)]
    rfl
  split
  · rename_i h0 h
    have h1 : (BitVec.ofNat 8 (0xC0 + n / 64)).toNat = 0xC0 + n / 64 := by
      rw [BitVec.toNat_ofNat]; omega
    unfold validUtf8
    dsimp only
    rw [h1, if_neg (by omega), if_pos (by omega), continuation_ofNat _ (Nat.mod_lt _ (by decide))]
    rfl
  split
  · rename_i h0 h2 h
    have h1 : (BitVec.ofNat 8 (0xE0 + n / 4096)).toNat = 0xE0 + n / 4096 := by
      rw [BitVec.toNat_ofNat]; omega
    have h3 : (BitVec.ofNat 8 (0x80 + n / 64 % 64)).toNat = 0x80 + n / 64 % 64 := by
      rw [BitVec.toNat_ofNat]; omega
    unfold validUtf8
    dsimp only
    rw [h1, if_neg (by omega), if_neg (by omega), if_pos (by omega), h3,
      continuation_ofNat _ (Nat.mod_lt _ (by decide)), continuation_ofNat _ (Nat.mod_lt _ (by decide))]
    simp only [Bool.and_eq_true, Bool.or_eq_true, bne_iff_ne, decide_eq_true_eq, Bool.true_and]
    exact ⟨⟨by omega, by omega⟩, rfl⟩
  · rename_i h0 h2 h
    have h1 : (BitVec.ofNat 8 (0xF0 + n / 262144)).toNat = 0xF0 + n / 262144 := by
      rw [BitVec.toNat_ofNat]; omega
    have h3 : (BitVec.ofNat 8 (0x80 + n / 4096 % 64)).toNat = 0x80 + n / 4096 % 64 := by
      rw [BitVec.toNat_ofNat]; omega
    unfold validUtf8
    dsimp only
    rw [h1, if_neg (by omega), if_neg (by omega), if_neg (by omega), if_pos (by omega), h3,
      continuation_ofNat _ (Nat.mod_lt _ (by decide)), continuation_ofNat _ (Nat.mod_lt _ (by decide)),
      continuation_ofNat _ (Nat.mod_lt _ (by decide))]
    simp only [Bool.and_eq_true, Bool.or_eq_true, bne_iff_ne, decide_eq_true_eq, Bool.true_and]
    exact ⟨⟨by omega, by omega⟩, rfl⟩

theorem utf8_utf8Str (s : String) : Utf8 (utf8Str s) :=
  Utf8.flatMap _ _ fun c _ => utf8_encode c

theorem utf8_map {α : Type} {o : Option α} {f : α → Str} {s : Str} (h : f <$> o = some s)
    (hf : ∀ a, Utf8 (f a)) : Utf8 s := by
  obtain ⟨a, -, rfl⟩ := Option.map_eq_some_iff.mp h
  exact hf a

theorem utf8_pty (st : Station) (n : Nat) (s : Str) (h : st.ptyString n = some s) : Utf8 s := by
  unfold Station.ptyString getPTYNameString getPTYNameStringRBDS at h
  split at h <;> split at h
  all_goals first
    | exact utf8_map h utf8_utf8Str
    | (rw [← Option.some.inj h]; exact utf8_utf8Str _)

theorem utf8_country (a b : Nat) (s : Str) (h : getCountryString a b = some s) : Utf8 s := by
  unfold getCountryString at h
  split at h
  · split at h
    · exact utf8_map h utf8_utf8Str
    · rw [← Option.some.inj h]; exact utf8_utf8Str _
  · rw [← Option.some.inj h]; exact utf8_utf8Str _

theorem utf8_language (a : Nat) (s : Str) (h : getLanguageString a = some s) : Utf8 s := by
  unfold getLanguageString at h
  split at h
  · exact utf8_map h utf8_utf8Str
  · rw [← Option.some.inj h]; exact .nil

theorem utf8_contentType (a : Nat) (s : Str) (h : getRTPlusContentTypeString a = some s) : Utf8 s := by
  unfold getRTPlusContentTypeString at h
  split at h
  · exact utf8_map h utf8_utf8Str
  · rw [← Option.some.inj h]; exact utf8_utf8Str _

theorem utf8_appName (a : Nat) : Utf8 (getAppNameString a) := utf8_utf8Str _

theorem utf8_letter (n : Nat) (h : n < 26) : (letter n).toNat < 0x80 := by
  unfold letter
  rw [BitVec.toNat_ofNat]
  omega

theorem utf8_callsign (p : Word) : Utf8 (getCallsignFromPI p) := by
  unfold getCallsignFromPI
  dsimp only
  split
  · exact utf8_utf8Str _
  split
  · exact utf8_utf8Str _
  split
  · refine .byte _ _ ?_ (.byte _ _ (utf8_letter _ (Nat.mod_lt _ (by decide)))
      (.byte _ _ (utf8_letter _ (Nat.mod_lt _ (by decide)))
        (.byte _ _ (utf8_letter _ (Nat.mod_lt _ (by decide))) .nil)))
    split <;> decide
  · exact .nil

theorem utf8_prefixedHex4 (v : Nat) : Utf8 (prefixedHex4 v) :=
  (utf8_literal _ (by decide)).append (utf8_hexPadded _ _)

theorem utf8_replicate (n : Nat) (b : Byte) (h : b.toNat < 0x80) : Utf8 (List.replicate n b) :=
  utf8_bytes fun x hx => by rw [List.eq_of_mem_replicate hx]; exact h

theorem utf8_decPadded (n v : Nat) : Utf8 (decPadded n v) :=
  (utf8_replicate _ _ (by decide)).append (utf8_decimal _)

theorem utf8_intStr (i : Int) : Utf8 (intStr i) := by
  cases i with
  | ofNat n => exact utf8_decimal n
  | negSucc n =>
    have : intStr (Int.negSucc n) = ascii "-" ++ decimal (n + 1) := by
      unfold intStr decimal ascii
      rw [← List.map_append, ← String.toList_append]
      rfl
    rw [this]
    exact (utf8_literal _ (by decide)).append (utf8_decimal _)

/-- Shows that a composed string is valid. -/
macro "utf8" : tactic => `(tactic| (
  repeat' first
    | with_reducible assumption
    | with_reducible exact Utf8.nil
    | with_reducible refine Utf8.append ?_ ?_
    | with_reducible exact utf8_hexPadded _ _
    | with_reducible exact utf8_decimal _
    | with_reducible exact utf8_decPadded _ _
    | with_reducible exact utf8_intStr _
    | with_reducible exact utf8_prefixedHex4 _
    | with_reducible exact utf8_utf8Str _
    | with_reducible exact utf8_callsign _
    | with_reducible exact utf8_appName _
    | (with_reducible refine utf8_literal _ ?_; decide)
    | split))

theorem utf8_hoursMinutes (a b : Nat) : Utf8 (getHoursMinutesString a b) := by
  unfold getHoursMinutesString
  utf8

theorem utf8_clock (t : Tm) (o : Int) : Utf8 (clockString t o) := by
  unfold clockString
  dsimp only
  utf8

theorem utf8_groupType (t : GroupType) : Utf8 t.str := by
  unfold GroupType.str
  utf8

theorem utf8_join (d : Str) (hd : Utf8 d) (l : List Str) (h : ∀ s ∈ l, Utf8 s) : Utf8 (joinStr d l) := by
  induction l with
  | nil => exact .nil
  | cons a l ih =>
    cases l with
    | nil => exact h a (by simp)
    | cons b l => exact ((h a (by simp)).append hd).append (ih fun s hs => h s (by simp [hs]))

theorem utf8_hexBytes (l : List Byte) : Utf8 (Station.hexBytes l) := by
  refine utf8_join _ (utf8_literal _ (by decide)) _ fun s hs => ?_
  obtain ⟨b, -, rfl⟩ := List.mem_map.mp hs
  exact utf8_hexPadded _ _

theorem utf8_printHex (g : Group) : Utf8 g.printHex := by
  unfold Group.printHex
  dsimp only
  utf8

theorem utf8_odaRaw (g : Group) : Utf8 (Station.odaRaw g) := by
  unfold Station.odaRaw
  utf8

theorem base64Char_ascii (c : BitVec 32) (n : Nat) : (base64Char c n).toNat < 0x80 := by
  unfold base64Char
  have h : ∀ i, (base64Table.getD i 0).toNat < 0x80 := by
    intro i
    by_cases hi : i < 64
    · have : ∀ i < 64, (base64Table.getD i 0).toNat < 0x80 := by decide +kernel
      exact this i hi
    · have hl : base64Table.length = 64 := by decide +kernel
      rw [List.getD_eq_getElem?_getD, List.getElem?_eq_none (by omega)]
      decide
  exact h _

theorem utf8_base64Encode (l : List Byte) : Utf8 (base64Encode l) := by
  unfold base64Encode
  dsimp only
  refine .byte _ _ (base64Char_ascii _ _) (.byte _ _ (base64Char_ascii _ _) (.byte _ _ ?_ (.byte _ _ ?_ .nil)))
  · split
    · exact base64Char_ascii _ _
    · decide
  · split
    · exact base64Char_ascii _ _
    · decide

theorem utf8_base64 (l : List Byte) : Utf8 (asBase64 l) := by
  fun_induction asBase64 l with
  | case1 => exact .nil
  | case2 a b c rest ih => exact (utf8_base64Encode _).append ih
  | case3 => exact utf8_base64Encode _

/-! ### Traffic messages -/

theorem utf8_ucfirst {s : Str} (h : Utf8 s) : Utf8 (ucfirst s) := by
  cases h with
  | nil => exact .nil
  | byte b s hb hs =>
    unfold ucfirst
    refine .byte _ _ ?_ hs
    split
    · rename_i hc
      rw [BitVec.toNat_sub]
      have : (0x20#8).toNat = 0x20 := rfl
      rw [this]
      omega
    · exact hb
  | multi c s hc hne hv hs =>
    cases c with
    | nil => exact absurd rfl hne
    | cons b c =>
      have := hc b (by simp)
      rw [List.cons_append]
      unfold ucfirst
      dsimp only
      rw [if_neg (by omega), ← List.cons_append]
      exact .multi _ _ hc hne hv hs

theorem replaceQ_high (t c s : Str) (h : ∀ b ∈ c, 0x80 ≤ b.toNat) : replaceQ t (c ++ s) = c ++ replaceQ t s := by
  induction c with
  | nil => rfl
  | cons b c ih =>
    rw [List.cons_append]
    have hb := h b (by simp)
    rw [replaceQ]
    · rw [ih fun x hx => h x (by simp [hx])]
      rfl
    · intro rest hq
      rw [hq] at hb
      exact absurd hb (by decide)

theorem utf8_replaceQ {t s : Str} (ht : Utf8 t) (h : Utf8 s) : Utf8 (replaceQ t s) := by
  induction hn : s.length using Nat.strongRecOn generalizing s with
  | _ n ih =>
  cases h with
  | nil => exact .nil
  | byte b s hb hs =>
    unfold replaceQ
    split
    · rename_i heq
      cases heq
      refine ht.append (ih _ ?_ ?_ rfl)
      · simp at hn ⊢; omega
      · -- `Q` and `)` are ASCII
        have h1 := hs.valid
        rw [validUtf8_byte _ _ (by decide), validUtf8_byte _ _ (by decide)] at h1
        exact utf8_of_valid _ h1
    · rename_i heq
      cases heq
      exact .byte _ _ hb (ih _ (by simp at hn ⊢; omega) hs rfl)
    · exact .nil
  | multi c s hc hne hv hs =>
    rw [replaceQ_high t c s hc]
    refine .multi c _ hc hne hv (ih _ ?_ hs rfl)
    have : 0 < c.length := List.length_pos_iff.mpr hne
    simp at hn ⊢; omega

theorem utf8_frequency (f : CarrierFrequency) : Utf8 f.toStr := by
  unfold CarrierFrequency.toStr
  utf8

theorem utf8_intPadded2 (v : Int) : Utf8 (intPadded2 v) :=
  (utf8_replicate _ _ (by decide)).append (utf8_intStr _)

theorem utf8_quantifier (t : QuantifierType) (q : Nat) : Utf8 (quantifierText t q) := by
  unfold quantifierText
  dsimp only
  generalize (if getQuantifierSize t = 5 ∧ q = 0 then 32 else q) = n
  cases t
  all_goals dsimp only
  all_goals first
    | with_reducible exact utf8_frequency _
    | with_reducible exact ((utf8_intPadded2 _).append (utf8_literal _ (by decide))).append (utf8_intPadded2 _)
    | (unfold tenths; utf8; done)
    | (utf8; done)

theorem utf8_time (v : Nat) : Utf8 (getTimeString v) := by
  unfold getTimeString
  split
  · exact utf8_hoursMinutes _ _
  split
  · dsimp only
    utf8
  split
  · utf8
  · dsimp only
    split
    · rename_i name hm
      have hname : Utf8 (ascii name) := by
        have : ∀ s ∈ monthNames, s.toList.all (fun c => decide (c.toNat < 0x80)) = true := by decide
        exact utf8_literal _ (this _ (List.mem_of_getElem? hm))
      utf8
    · exact .nil

theorem utf8_scope (w : Word) (s : Str) (h : s ∈ getScopeStrings w) : Utf8 s := by
  unfold getScopeStrings at h
  simp only [List.mem_append] at h
  rcases h with ((h | h) | h) | h
  all_goals
    split at h
    · rw [List.mem_singleton.mp h]
      exact utf8_literal _ (by decide)
    · simp at h

theorem utf8_urgency (urg : Urgency) : Utf8 (getUrgencyString urg) := by
  cases urg <;> exact utf8_literal _ (by decide)

end Redsea
