import Verif.Lemmas.JsonText
import Verif.Lemmas.ChannelParts
import Verif.Lemmas.SchemaApps
import Verif.Props.Station
import Verif.Model.Programs

/-
Every line that is printed is an object without repeated names that conforms to the schema.
-/

namespace Redsea

open _root_.Redsea.Spec

theorem knownTexts_eq (F : BitVec 32 → Str) : knownTexts F = finiteText F := by
  funext bits
  unfold knownTexts finiteText floatFinite
  have h : (bits.extractLsb' 23 8).toNat = bits.toNat / 2 ^ 23 % 256 := by
    rw [BitVec.extractLsb'_toNat, Nat.shiftRight_eq_div_pow]
  have h2 : bits.extractLsb' 23 8 = 255#8 ↔ bits.toNat / 2 ^ 23 % 256 = 255 := by
    rw [← h, ← BitVec.toNat_inj]
    rfl
  by_cases hc : bits.extractLsb' 23 8 = 255#8
  · rw [if_pos hc, if_neg (by simpa using h2.mp hc)]
  · rw [if_neg hc, if_pos (by simpa using fun h => hc (h2.mpr h))]

theorem unicodeBytes_injective {a b : String} (h : unicodeBytes a = unicodeBytes b) : a = b := by
  unfold unicodeBytes at h
  have h1 := (List.map_inj_right (fun x y hxy => UInt8.toBitVec_inj.mp hxy)).mp h
  have h2 : a.toUTF8 = b.toUTF8 := by
    apply ByteArray.ext
    exact Array.toList_inj.mp h1
  exact String.toByteArray_inj.mp h2

section
variable (F : BitVec 32 → Option Str)

mutual
theorem noRepeats_of_distinct : ∀ j : J, j.Distinct → NoRepeats (valueOf F j)
  | .null, _ => trivial
  | .bool _, _ => trivial
  | .int _, _ => trivial
  | .float bits, _ => by
    rw [valueOf]
    split <;> trivial
  | .str _, _ => trivial
  | .arr l, h => by
    rw [valueOf, NoRepeats]
    rw [J.Distinct] at h
    exact noRepeats_list l h
  | .obj l, h => by
    rw [valueOf, NoRepeats]
    rw [J.Distinct] at h
    refine ⟨?_, noRepeats_members l h.2⟩
    have e : ∀ l : List (String × J), (membersOf F l).map Prod.fst = (l.map Prod.fst).map unicodeBytes := by
      intro l
      induction l with
      | nil => rfl
      | cons m l ih => rw [membersOf, List.map_cons, List.map_cons, List.map_cons, ih]
    rw [e]
    exact List.pairwise_map.mpr (h.1.imp fun hne he => hne (unicodeBytes_injective he))
theorem noRepeats_list : ∀ l : List J, J.DistinctList l → NoRepeatsList (valuesOf F l)
  | [], _ => trivial
  | j :: l, h => ⟨noRepeats_of_distinct j h.1, noRepeats_list l h.2⟩
theorem noRepeats_members : ∀ l : List (String × J), J.DistinctMembers l → NoRepeatsMembers (membersOf F l)
  | [], _ => trivial
  | m :: l, h => ⟨noRepeats_of_distinct m.2 h.1, noRepeats_members l h.2⟩
end
end

/-- A value is an object. -/
def J.isObject : J → Prop
  | .obj _ => True
  | _ => False

theorem update_object (k : String) (path : List String) (f : J → Option J) (j j' : J)
    (h : J.update (k :: path) f j = some j') : j'.isObject := by
  cases j with
  | null =>
    rw [J.update, Option.map_eq_some_iff] at h
    obtain ⟨l, -, rfl⟩ := h
    trivial
  | obj l =>
    rw [J.update, Option.map_eq_some_iff] at h
    obtain ⟨l, -, rfl⟩ := h
    trivial
  | bool => simp [J.update] at h
  | int => simp [J.update] at h
  | float => simp [J.update] at h
  | str => simp [J.update] at h
  | arr => simp [J.update] at h

theorem build_object (ops : List JOp) (h : ∀ op ∈ ops, ∃ k, op.key = some k) (j j' : J) (hb : J.build ops j = some j')
    (hj : ops ≠ [] ∨ j.isObject) : j'.isObject := by
  induction ops generalizing j with
  | nil =>
    have : j = j' := by simpa [J.build] using hb
    rw [← this]
    exact hj.resolve_left (by simp)
  | cons op ops ih =>
    simp only [J.build, List.foldlM_cons] at hb
    obtain ⟨j1, h1, h2⟩ := Option.bind_eq_some_iff.mp hb
    refine ih (fun op hop => h op (List.mem_cons_of_mem _ hop)) j1 h2 (.inr ?_)
    obtain ⟨k, hk⟩ := h op List.mem_cons_self
    unfold JOp.key at hk
    cases op with
    | set p v =>
      obtain ⟨r, hr⟩ : ∃ r, p = k :: r := by
        cases p with
        | nil => cases hk
        | cons a r => exact ⟨r, by cases hk; rfl⟩
      subst hr
      exact update_object k r _ j j1 h1
    | touch p =>
      obtain ⟨r, hr⟩ : ∃ r, p = k :: r := by
        cases p with
        | nil => cases hk
        | cons a r => exact ⟨r, by cases hk; rfl⟩
      subst hr
      exact update_object k r _ j j1 h1
    | push p v =>
      obtain ⟨r, hr⟩ : ∃ r, p = k :: r := by
        cases p with
        | nil => cases hk
        | cons a r => exact ⟨r, by cases hk; rfl⟩
      subst hr
      exact update_object k r _ j j1 h1

/-- What a line is in JSON output. -/
def Line.Fine (l : Line) : Prop :=
  l = .error ∨ ∃ j, l = .json j ∧ j.utf8 = true ∧ j.Distinct ∧ j.isObject ∧ Conforms [] j

theorem headerOps_nonempty (env : Env) (st : Station) (g : Group) (h : g.type.version ≠ .C) : st.headerOps env g ≠ [] := by
  unfold Station.headerOps Station.piOps
  rw [if_neg h]
  simp

theorem basics_nonempty (st : Station) (g : Group) (h : g.type.version = .C) (basics : List JOp)
    (hb : st.decodeBasics g = some basics) : basics ≠ [] := by
  unfold Station.decodeBasics at hb
  rw [if_pos h] at hb
  cases hb
  simp

theorem updateAndPrint_fine (env : Env) (hk : env.tmc.KeysOk) (st st' : Station) (g : Group) (h : st.Good) (l : Line)
    (hu : st.updateAndPrint env g = some (st', some l)) : l.Fine := by
  obtain ⟨st1, line, h1, -, -, hline⟩ := updateAndPrint_parts env hk st g h
  rw [hu] at h1
  cases h1
  obtain ⟨basics, body, j, hj, rfl, -, -, hb, hd, hbk, hok, -⟩ := hline l rfl
  obtain ⟨basics', hb', hbp, -⟩ := decodeBasics_fine (st.checkPI g).1 g
  rw [hb] at hb'
  cases hb'
  have hkey : ∀ op ∈ st.headerOps env g ++ basics ++ body, op.Planned ∧ ∃ k, op.key = some k := by
    intro op hop
    rw [List.mem_append, List.mem_append] at hop
    rcases hop with (hop | hop) | hop
    · obtain ⟨k, h1, -⟩ := header_keys env st g op hop
      exact ⟨headerOps_planned env st g op hop, k, h1⟩
    · obtain ⟨k, h1, -⟩ := hbk op hop
      exact ⟨hbp op hop, k, h1⟩
    · refine ⟨(hok op hop).1, ?_⟩
      have := (hok op hop).2
      unfold JOp.key
      cases hp : op.path with
      | nil => rw [hp] at this; cases this
      | cons k r => exact ⟨k, rfl⟩
  have hne : st.headerOps env g ++ basics ++ body ≠ [] := by
    intro he
    obtain ⟨he1, -⟩ := List.append_eq_nil_iff.mp he
    obtain ⟨he1, he2⟩ := List.append_eq_nil_iff.mp he1
    by_cases hv : g.type.version = .C
    · exact basics_nonempty _ g hv basics hb he2
    · exact headerOps_nonempty env st g hv he1
  unfold printJson
  split
  · rename_i hutf
    exact .inr ⟨j, rfl, hutf, build_distinct _ (fun op hop => (hkey op hop).1) _ _ hj trivial,
      build_object _ (fun op hop => (hkey op hop).2) _ _ hj (.inl hne),
      group_conforms env st _ g h hb hd hne (fun op hop => (hkey op hop).2) hj⟩
  · exact .inl rfl

theorem handle_fine {env : Env} (hk : env.tmc.KeysOk) {o : Options} {w : Nat} {tr : List Trace} {c c' : Channel} {g : Group}
    {s : Nat} {h : Handled} (i : IdInv o w tr c) (he : c.handleGroup env g s = some (c', h)) (ho : o.outputType ≠ .hex) :
    ∀ l, h.line = some l → l.Fine := by
  intro l hl
  obtain ⟨c1, g1, h1, hg, hout⟩ := handleGroup_parts he
  obtain ⟨ca, ga, h1', hg'⟩ := addBler_good c g i.good
  rw [h1] at h1'
  cases h1'
  obtain ⟨b, r, -, rfl⟩ := addBler_group c g c1 g1 h1
  have i1 : IdInv o w tr { c with blerAverage := r } :=
    ⟨hg', i.options, i.which, i.cache, i.hasPi, i.pi, i.last, i.stOptions, i.stWhich⟩
  obtain ⟨u1, u2, -⟩ := updatePI_inv i1 h
  generalize Channel.updatePI { c with blerAverage := r } h.group = c2 at *
  unfold Channel.output at hout
  rw [u2, if_neg ho] at hout
  obtain ⟨⟨st', line⟩, hu, he⟩ := Option.bind_eq_some_iff.mp hout
  have e : line = h.line := congrArg Prod.snd (Option.some.inj he)
  rw [e, hl] at hu
  exact updateAndPrint_fine env hk _ _ _ u1.station l hu

/-- Every line of a channel is an error report or an object without repeated names. -/
theorem run_fine (env : Env) (hk : env.tmc.KeysOk) (delay : Nat → Int) (o : Options) (w : Nat)
    (es : List ChannelEvent) (c : Channel) (tr : List Trace)
    (h : Channel.run env delay (Channel.new o w) es = some (c, tr)) (ho : o.outputType ≠ .hex) :
    ∀ l ∈ printedLines tr, l.Fine := by
  intro l hl
  unfold printedLines at hl
  obtain ⟨t, ht, hl⟩ := List.mem_filterMap.mp hl
  cases t with
  | reset => cases hl
  | handled x =>
    obtain ⟨pre, post, htr⟩ := List.append_of_mem ht
    have I := inv_facts (idInv hk o w) (fun _ h => ∀ l, h.line = some l → l.Fine)
      (fun tr c g s c' h i he => handle_fine hk i he ho)
    have := inv_calls I es (tr := []) (c := Channel.new o w)
      ⟨⟨channel_new_good o w, rfl, rfl, rfl, rfl, (by intro p hp; cases hp),
        (by intro _ hh; cases hh), rfl, rfl⟩, by intro pre h post hh; simp at hh⟩ h
    rw [List.nil_append] at this
    exact this.2 pre x post htr l hl

end Redsea
