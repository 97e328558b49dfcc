import Verif.Spec.Tmc

/-
What the fields of a multi-group ALERT-C message mean (ISO 14819-1, 5.5). A field is a pair of label and data.
-/

namespace Redsea.Spec

/-- The data of all fields with this label, in order. -/
def dataOf (label : Nat) (fields : List (Nat × Nat)) : List Nat :=
  (fields.filter fun f => f.1 == label).map (·.2)

/-- How often a control code (label 1) was sent. -/
def controlCount (code : Nat) (fields : List (Nat × Nat)) : Nat := (dataOf 1 fields).count code

/-- The events (label 9) after a first one; each with the fields that follow it. -/
def eventParts : Nat → List (Nat × Nat) → List (Nat × List (Nat × Nat))
  | first, [] => [(first, [])]
  | first, f :: rest =>
    if f.1 = 9 then (first, []) :: eventParts f.2 rest
    else match eventParts first rest with
      | [] => []
      | p :: more => (p.1, f :: p.2) :: more

/-- Events of the list that take a quantifier take the first one of the right size (5 bits: label 4,
8 bits: label 5) among the fields that follow. -/
def quantifierOf (e : Event) (following : List (Nat × Nat)) : Option Nat :=
  if e.allowsQuantifier then
    (dataOf (if getQuantifierSize e.quantifierType = 5 then 4 else 5) following).head?
  else none

/-- Capital letter at the beginning of a sentence. -/
def capital : Str → Str
  | [] => []
  | c :: rest => (((ascii "abcdefghijklmnopqrstuvwxyz").zip (ascii "ABCDEFGHIJKLMNOPQRSTUVWXYZ")).lookup c).getD c :: rest

/-- The sentence about one event; none if the event is not in the list. -/
def sentenceOf (events : Nat → Option Event) (p : Nat × List (Nat × Nat)) : List Str :=
  match events p.1 with
  | none => []
  | some e => match quantifierOf e p.2 with
    | some q => [capital (getDescriptionWithQuantifier e q)]
    | none => [capital e.description]

/-- The members that a traffic message can have, apart from those that describe its place. -/
def messageMembers : List String :=
  ["event_codes", "supplementary_codes", "update_class", "description", "diversion_route", "speed_limit",
   "encrypted_location", "location", "direction", "extent", "starts", "until", "urgency"]

/-- The names of the urgencies. -/
def urgencyText : Urgency → Str
  | .none => ascii "none"
  | .u => ascii "U"
  | .x => ascii "X"

/-- Urgency is a circle of three steps. -/
def turnUrgency (urgency : Urgency) (steps : Nat) : Urgency :=
  match urgency, steps % 3 with
  | .none, 0 | .u, 2 | .x, 1 => .none
  | .none, 1 | .u, 0 | .x, 2 => .u
  | _, _ => .x

end Redsea.Spec
