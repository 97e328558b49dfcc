import Verif.Model.Station
import Verif.Spec.TmcStation
import Verif.Spec.Utf8

/-
Lines without what location tables say.
-/

namespace Redsea
open Redsea.Spec

/-- An object without some members. -/
def J.dropMembers (names : List String) : J → J
  | .obj l => .obj (l.filter fun m => m.1 ∉ names)
  | j => j

/-- An object with the value of one member changed. -/
def J.within (k : String) (f : J → J) : J → J
  | .obj l => .obj (l.map fun m => if m.1 = k then (m.1, f m.2) else m)
  | j => j

/-- The object that is printed for a group, without what a location table says about the place of a traffic message. -/
def J.withoutPlace (j : J) : J := j.within "tmc" (J.within "message" (J.dropMembers placeMembers))

/-- The same for a line. -/
def Line.withoutPlace : Line → Line
  | .json j => .json j.withoutPlace
  | l => l

/-- The environment with other location tables. -/
def Env.withTables (env : Env) (tables : Nat → LocationDatabase) : Env :=
  { env with tmc := { env.tmc with locations := tables } }

/-- The names of places and roads in the tables are UTF-8. -/
structure TablesUtf8 (tables : Nat → LocationDatabase) : Prop where
  points : ∀ t lcd p, (tables t).points lcd = some p → ∃ a b : String,
    p.name1 = unicodeBytes a ∧ p.roadName = unicodeBytes b
  roads : ∀ t lcd r, (tables t).roads lcd = some r → ∃ a b : String,
    r.roadNumber = unicodeBytes a ∧ r.name = unicodeBytes b

end Redsea
