import Verif.Props.JsonText
import Verif.Props.GroupFieldsOther

/-
Property C90: every line of JSON output conforms to a fixed schema.
-/

namespace Redsea

open _root_.Redsea.Spec

/-- **C90**: whatever a channel receives, each line of its JSON output conforms to the schema, with all members and
elements in it. (`.error` stands for the report of an exception that is printed in place of an object.) -/
theorem C90_line (env : Env) (hk : env.tmc.KeysOk) (delay : Nat → Int) (o : Options) (ho : o.outputType ≠ .hex) (w : Nat)
    (es : List ChannelEvent) (c : Channel) (tr : List Trace)
    (h : Channel.run env delay (Channel.new o w) es = some (c, tr)) :
    ∀ l ∈ printedLines tr, l = .error ∨ ∃ j, l = .json j ∧ Conforms [] j := by
  intro l hl
  rcases run_fine env hk delay o w es c tr h ho l hl with rfl | ⟨j, rfl, -, -, -, hc⟩
  · exact .inl rfl
  · exact .inr ⟨j, rfl, hc⟩

/-- **C90**: the same for all lines of the program, whatever its options and its input are, if it comes to a successful
end. -/
theorem C90_program {S C : Type} (ar : Arith S) (L : Liquid S C) (m : Machine S) (opts : List Opt) (extra : Bool)
    {o : Options} (h : getOptions m.float opts extra = some o) (he : o.earlyExit = false) (ho : o.outputType ≠ .hex)
    (rows : List KeyRow) (hv : ∀ r ∈ rows, r.Valid ∧ r.xorstart ≤ 24) (hf : m.keyFile = rows.map KeyRow.line)
    (f : Finished S) (hrun : runMain ar L m opts extra = some f) (hs : f.success = true) (l : Line)
    (hl : .line l ∈ o.printed f) : l = .error ∨ ∃ j, l = .json j ∧ Conforms [] j := by
  rcases program_fine ar L m opts extra h he ho rows hv hf f hrun hs _ hl with ⟨db, hd⟩ | ⟨l', hl', hfine⟩
  · cases hd
  · cases hl'
    rcases hfine with rfl | ⟨j, rfl, -, -, -, hc⟩
    · exact .inl rfl
    · exact .inr ⟨j, rfl, hc⟩

/-- A value stands at a path in another one. -/
inductive J.At : J → List String → J → Prop where
  | here (j : J) : J.At j [] j
  | member {l : List (String × J)} {k : String} {v x : J} {p : List String} (h : (k, v) ∈ l) (hx : J.At v p x) :
      J.At (.obj l) (k :: p) x
  | element {l : List J} {v x : J} {p : List String} (h : v ∈ l) (hx : J.At v p x) : J.At (.arr l) ("[]" :: p) x

/-- **C90**: what it means to conform: every value in the object, however deep, is of the kind that the schema gives for
its path. -/
theorem C90_members (j : J) (h : Conforms [] j) (p : List String) (x : J) (hx : j.At p x) :
    ∃ k, kindAt p = some k ∧ k.Allows x := by
  have key : ∀ (j x : J) (p : List String), j.At p x → ∀ pre, Conforms pre j → Conforms (pre ++ p) x := by
    intro j x p hx
    induction hx with
    | here j =>
      intro pre hj
      rw [List.append_nil]
      exact hj
    | member hm _ ih =>
      intro pre hj
      have := ih _ ((conforms_obj.1 hj).2 _ hm)
      rw [List.append_assoc] at this
      exact this
    | element hm _ ih =>
      intro pre hj
      have := ih _ ((conforms_arr.1 hj).2 _ hm)
      rw [List.append_assoc] at this
      exact this
  exact conforms_ofKind (key j x p hx [] h)

/-- The report of an exception, in which `debug` is a text, does not conform: elsewhere `debug` is an array. -/
theorem C90_report (s : Str) : ¬ Conforms [] (.obj [("debug", .str s)]) := by
  intro h
  obtain ⟨k, hk, ha⟩ := C90_members _ h ["debug"] _ (.member List.mem_cons_self (.here _))
  rw [show kindAt ["debug"] = some .array by decide +kernel] at hk
  cases hk
  exact ha

/-! Cases that meet the hypotheses. -/

/-- Every entry of the schema can be found by its path. -/
example : ∀ e ∈ jsonSchema, kindAt e.1 = some e.2 := by decide +kernel

/-- The lines of a channel that has received some groups. -/
example : ∃ c tr j, Channel.run demoEnv (fun _ => 0) (Channel.new {} 0)
      (demoCalls (List.replicate 3 (demoGroup 0x6204 0x0408 0xE0CD 0x2020))) = some (c, tr) ∧
    .json j ∈ printedLines tr ∧ Conforms [] j ∧ J.At j ["pi"] (.str (ascii "0x6204")) := by
  have hs : ((Channel.run demoEnv (fun _ => 0) (Channel.new {} 0)
      (demoCalls (List.replicate 3 (demoGroup 0x6204 0x0408 0xE0CD 0x2020)))).map fun r =>
        (printedLines r.2).head?.bind fun l => match l with
          | .json (.obj ((k, .str s) :: _)) => some (decide (k = "pi" ∧ s = ascii "0x6204"))
          | _ => none) = some (some true) := by
    decide +kernel
  obtain ⟨r, hr, hp⟩ := Option.map_eq_some_iff.mp hs
  obtain ⟨l, hl, hp⟩ := Option.bind_eq_some_iff.mp hp
  have hm := List.mem_of_mem_head? hl
  split at hp
  · rename_i k s rest
    obtain ⟨rfl, rfl⟩ := of_decide_eq_true (Option.some.inj hp)
    refine ⟨r.1, r.2, _, hr, hm, ?_, .member List.mem_cons_self (.here _)⟩
    rcases C90_line demoEnv demoEnv_keys (fun _ => 0) {} (by decide) 0 _ r.1 r.2 hr _ hm with h | ⟨j, h, hc⟩
    · cases h
    · cases h
      exact hc
  · cases hp

/-- Objects that do not conform: a member with a wrong name, a wrong kind of value, a number out of range, null. -/
example : ¬ Conforms [] (.obj [("programme", .str (ascii "x"))]) ∧ ¬ Conforms [] (.obj [("ta", .int 1)]) ∧
    ¬ Conforms [] (.obj [("alt_frequencies_a", .arr [.int 87600, .int 0])]) ∧ ¬ Conforms [] (.obj [("di", .null)]) := by
  refine ⟨?_, ?_, ?_, ?_⟩
  · intro h
    obtain ⟨k, hk, -⟩ := C90_members _ h ["programme"] _ (.member List.mem_cons_self (.here _))
    exact absurd hk (by rw [show kindAt ["programme"] = none by decide +kernel]; simp)
  · intro h
    obtain ⟨k, hk, ha⟩ := C90_members _ h ["ta"] _ (.member List.mem_cons_self (.here _))
    rw [show kindAt ["ta"] = some .bool by decide +kernel] at hk
    cases hk
    exact ha
  · intro h
    obtain ⟨k, hk, ha⟩ := C90_members _ h ["alt_frequencies_a", "[]"] (.int 0)
      (.member List.mem_cons_self (.element (by simp) (.here _)))
    rw [show kindAt ["alt_frequencies_a", "[]"] = some (.number 153 107900) by decide +kernel] at hk
    cases hk
    exact absurd ha.1 (by decide)
  · intro h
    exact (conforms_obj.1 h).2 _ List.mem_cons_self

end Redsea
