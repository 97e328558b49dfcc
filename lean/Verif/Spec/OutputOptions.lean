import Verif.Model.Station

/-
Which members of the output depend on which option.
-/

namespace Redsea

/-- The options that decide what is received are the same, and both print JSON. -/
structure SameReception (o o' : Options) : Prop where
  rbds : o'.rbds = o.rbds
  fec : o'.useFec = o.useFec
  json : o.outputType ≠ .hex
  json' : o'.outputType ≠ .hex

/-- The members that `-p` (`--show-partial`) is there for. -/
def partialMembers : List String :=
  ["rt_ab", "partial_ps", "partial_alt_frequencies", "partial_radiotext", "partial_long_ps"]

/-- The members in which the output may be different when the program is given other options. -/
def optionMembers (o o' : Options) : List String :=
  (if o.showPartial = o'.showPartial then [] else partialMembers) ++
  (if o.showRaw = o'.showRaw then [] else ["raw_data"]) ++
  (if o.timestamp = o'.timestamp ∧ (o.timestamp = true → o.timeFormat = o'.timeFormat) then [] else ["rx_time"]) ++
  (if o.bler = o'.bler then [] else ["bler"]) ++
  (if o.streams = o'.streams then [] else ["stream"]) ++
  (if o.numChannels = o'.numChannels then [] else ["channel"])

/-- Two objects that have the same members, in the same order, except for those with the names `names`. -/
def SameOthers (names : List String) (j j' : J) : Prop :=
  ∃ l l', j = .obj l ∧ j' = .obj l' ∧ l.filter (fun m => m.1 ∉ names) = l'.filter (fun m => m.1 ∉ names)

/-- Two lines that say the same, except for some members. -/
inductive SameLine (names : List String) : Line → Line → Prop
  | json {j j' : J} : SameOthers names j j' → SameLine names (.json j) (.json j')
  | error : SameLine names .error .error

end Redsea
