import Verif.Spec.PlaceMembers

/-
Lines without what a key for encrypted traffic messages reveals.
-/

namespace Redsea
open Redsea.Spec

/-- What is known of a traffic message once its location is: the location code, and what a location table says about it. -/
def locationMembers : List String := "location" :: placeMembers

/-- The object that is printed for a group, without the location of a traffic message. -/
def J.withoutLocation (j : J) : J := j.within "tmc" (J.within "message" (J.dropMembers locationMembers))

/-- The same for a line. -/
def Line.withoutLocation : Line → Line
  | .json j => .json j.withoutLocation
  | l => l

/-- The second line is the first, or the first with the location of the traffic message added. -/
def AddsLocation (a b : Line) : Prop := b = a ∨ b.withoutLocation = a

/-- The environment with other keys. -/
def Env.withKeys (env : Env) (keys : Nat → Option ServiceKey) : Env :=
  { env with tmc := { env.tmc with serviceKey := keys } }

end Redsea
