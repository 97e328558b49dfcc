import Verif.Spec.Station

/-
What it means for output to be valid UTF-8, and which groups only print texts in the basic character set.
-/

namespace Redsea

/-- The bytes of a Unicode text in UTF-8. -/
def unicodeBytes (t : String) : Str := t.toUTF8.data.toList.map UInt8.toBitVec

mutual
/-- The strings in a value. -/
def J.strings : J → List Str
  | .str s => [s]
  | .arr l => J.stringsList l
  | .obj l => J.stringsMembers l
  | _ => []
/-- … in the elements of an array -/
def J.stringsList : List J → List Str
  | [] => []
  | j :: l => j.strings ++ J.stringsList l
/-- … in the members of an object -/
def J.stringsMembers : List (String × J) → List Str
  | [] => []
  | m :: l => m.2.strings ++ J.stringsMembers l
end

/-- What comes from libraries is valid: the time of reception and the text of an exception. -/
structure Env.Utf8 (env : Env) : Prop where
  formatTime : ∀ t, ∃ s : String, env.formatTime t = unicodeBytes s
  what : ∃ s : String, env.what = unicodeBytes s

/-- What comes from the tables of traffic messages is valid: the texts of events and supplementary information, and
the names of places and roads. -/
structure TmcEnv.Utf8 (env : TmcEnv) : Prop where
  events : ∀ c e, env.events c = some e → ∃ s t : String,
    e.description = unicodeBytes s ∧ e.descriptionWithQuantifier = unicodeBytes t
  supplementary : ∀ c s, env.supplementary c = some s → ∃ t : String, s = unicodeBytes t
  points : ∀ t lcd p, (env.locations t).points lcd = some p → ∃ a b : String,
    p.name1 = unicodeBytes a ∧ p.roadName = unicodeBytes b
  roads : ∀ t lcd r, (env.locations t).roads lcd = some r → ∃ a b : String,
    r.roadNumber = unicodeBytes a ∧ r.name = unicodeBytes b

/-- The group, which has a type, does not carry a text in a variable character set or a reference into a text: it
is a version C group, or a group with a fixed function, or belongs to an application other than RadioText Plus
(4BD7), enhanced RadioText Plus (4BD8) and enhanced RadioText (6552), or is not a 15A group (long PS). -/
def plainGroup (app : Option Word) (t : GroupType) : Bool :=
  t.version = .C || t ∈ fixedTypes || match app with
    | some a => a ∉ [0x4BD7, 0x4BD8, 0x6552]
    | none => t ≠ ⟨15, .A⟩

/-- The group may carry a traffic message: 8A, or a group of the applications of the traffic message channel
(CD46, CD47); not a group with a fixed function. -/
def trafficGroup (app : Option Word) (t : GroupType) : Bool :=
  t ∉ fixedTypes && match app with
    | some a => a ∈ [0xCD46, 0xCD47]
    | none => t = ⟨8, .A⟩

end Redsea
