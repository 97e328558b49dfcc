import Verif.Lemmas.Services
import Verif.Props.Channel

/-
C93: A service depends on its own groups only.
-/

namespace Redsea
open _root_.Redsea.Spec

/-- **C93.** Leaving out all groups of some services before decoding gives the same lines as leaving out their lines after
decoding. The condition is on the groups that are kept only: their PI code was received, or they are of version C. -/
theorem C93_filter (env : Env) (S : Service → Bool) (st : Station) (gs : List Group)
    (hg : ∀ g ∈ gs, S (serviceOf g) = true → g.type.version = .C ∨ g.hasPI = true)
    (after : Station) (lines : List (Option Line)) (h : st.receive env gs = some (after, lines)) :
    ∃ after', st.receive env (gs.filter fun g => S (serviceOf g)) = some (after', linesOf S gs lines) := by
  obtain ⟨q, hq, hl⟩ := receive_filter env S gs st st ⟨rfl, rfl, rfl, rfl⟩ (fun s _ => agree_refl s st) hg _ h
  exact ⟨q.1, by rw [hq, ← hl]⟩

/-- **C93.** Whatever is sent for the other services: if two transmissions contain the same groups of some services, then
the same lines are printed for these. -/
theorem C93_independent (env : Env) (S : Service → Bool) (st : Station) (gs hs : List Group)
    (hsame : gs.filter (fun g => S (serviceOf g)) = hs.filter (fun g => S (serviceOf g)))
    (hg : ∀ g ∈ gs, S (serviceOf g) = true → g.type.version = .C ∨ g.hasPI = true)
    (a b : Station) (lines lines' : List (Option Line)) (h : st.receive env gs = some (a, lines))
    (h' : st.receive env hs = some (b, lines')) : linesOf S gs lines = linesOf S hs lines' := by
  have hh : ∀ g ∈ hs, S (serviceOf g) = true → g.type.version = .C ∨ g.hasPI = true := by
    intro g hm hS
    have : g ∈ hs.filter (fun g => S (serviceOf g)) := List.mem_filter.mpr ⟨hm, hS⟩
    rw [← hsame] at this
    exact hg g (List.mem_filter.mp this).1 hS
  obtain ⟨_, e⟩ := C93_filter env S st gs hg a lines h
  obtain ⟨_, e'⟩ := C93_filter env S st hs hh b lines' h'
  rw [hsame, e'] at e
  simp only [Option.some.injEq, Prod.mk.injEq] at e
  exact e.2.symm

/-- A programme service name in four groups, with a programme type name and other things in between. -/
def demoMixed : List Group :=
  [demoGroup 0x6204 0x0000 0xE0E0 0x4142, demoGroup 0x6204 0xA000 0x5151 0x5252, demoGroup 0x6204 0x0001 0xE0E0 0x4344,
   demoGroup 0x6204 0x3000 0x1234 0x4BD7, demoGroup 0x6204 0x0002 0xE0E0 0x4546, demoGroup 0x6204 0xA001 0x5353 0x5454,
   demoGroup 0x6204 0x0003 0xE0E0 0x4748, demoGroup 0x6204 0xE000 0x1234 0x6205]

/-- The member of a line. -/
def memberOf (k : String) : Option Line → Option J
  | some (.json j) => j.get? k
  | _ => none

/-- Only the tuning groups, and their lines: the name is complete in the last one. -/
example : (demoMixed.filter fun g => serviceOf g = .tuning).length = 4 ∧
    (((Station.withPI {} 0 0x6204).receive demoEnv demoMixed).map fun r =>
      (linesOf (fun s => s = .tuning) demoMixed r.2).map fun l => (memberOf "ps" l).isSome) =
      some [false, false, false, true] ∧
    (((Station.withPI {} 0 0x6204).receive demoEnv (demoMixed.filter fun g => serviceOf g = .tuning)).map fun r =>
      r.2.map fun l => (memberOf "ps" l).isSome) = some [false, false, false, true] ∧
    (∀ g ∈ demoMixed, g.type.version = .C ∨ g.hasPI = true) := by decide +kernel

/-- A group of type 10A whose first block was lost. -/
def demoNoPi : Group :=
  ((({} : Group).setBlock .b2 { data := 0xA000, isReceived := true, offset := .B }).setBlock .b3
    { data := 0x5151, isReceived := true, offset := .C }).setBlock .b4 { data := 0x5252, isReceived := true, offset := .D }

/-- A tuning group whose first block was lost. -/
def demoNoPiTuning : Group :=
  ((({} : Group).setBlock .b2 { data := 0x0000, isReceived := true, offset := .B }).setBlock .b3
    { data := 0xE0E0, isReceived := true, offset := .C }).setBlock .b4 { data := 0x4142, isReceived := true, offset := .D }

/-- The condition about PI codes is needed: the second of two groups without a PI code is not decoded, to whichever service
the first belongs. -/
theorem C93_pi_needed : ∃ (st : Station) (S : Service → Bool) (gs : List Group) (a b : Station)
    (lines lines' : List (Option Line)), st.receive demoEnv gs = some (a, lines) ∧
    st.receive demoEnv (gs.filter fun g => S (serviceOf g)) = some (b, lines') ∧
    (linesOf S gs lines).map Option.isSome = [true, false] ∧ lines'.map Option.isSome = [true, true] := by
  have h : ∀ (x y : Option (Station × List (Option Line))) (P : List (Option Line) → Prop) (Q : List (Option Line) → Prop)
      [DecidablePred P] [DecidablePred Q], (x.any fun r => decide (P r.2)) = true → (y.any fun r => decide (Q r.2)) = true →
      ∃ a b l l', x = some (a, l) ∧ y = some (b, l') ∧ P l ∧ Q l' := by
    intro x y P Q _ _ hx hy
    cases x with
    | none => cases hx
    | some x => cases y with
      | none => cases hy
      | some y => exact ⟨x.1, y.1, x.2, y.2, rfl, rfl, of_decide_eq_true hx, of_decide_eq_true hy⟩
  refine ⟨Station.withPI {} 0 0x6204, fun s => s = .tuning,
    [demoGroup 0x6204 0x0000 0xE0E0 0x4142, demoNoPi, demoNoPiTuning], ?_⟩
  exact h _ _ (fun l => (linesOf (fun s => decide (s = .tuning)) [demoGroup 0x6204 0x0000 0xE0E0 0x4142, demoNoPi,
    demoNoPiTuning] l).map Option.isSome = [true, false]) (fun l => l.map Option.isSome = [true, true])
    (by decide +kernel) (by decide +kernel)

end Redsea
