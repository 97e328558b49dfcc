import Verif.Model.Station

/-
The services of a station and the groups they use, apart from the decoder.
-/

namespace Redsea.Spec

/-- The services of a station that keep something in mind from group to group. -/
inductive Service where
  /-- programme service name and alternative frequencies: types 0A and 0B -/
  | tuning
  /-- programme type name: type 10A -/
  | typeName
  /-- information about other networks: types 14A and 14B -/
  | otherNetworks
  /-- file transfer of data streams 1 to 3: version C -/
  | files
  /-- nothing to keep in mind: types 1A, 1B, 4A and 15B, and groups without a type -/
  | immediate
  /-- RadioText, open data applications and what may be one: all other types -/
  | applications
  deriving DecidableEq, Repr

/-- The service that a group belongs to. -/
def serviceOf (g : Group) : Service :=
  if !g.hasType then .immediate
  else match g.type.number, g.type.version with
    | _, .C => .files
    | 0, _ => .tuning
    | 1, _ => .immediate
    | 4, .A => .immediate
    | 10, .A => .typeName
    | 14, _ => .otherNetworks
    | 15, .B => .immediate
    | _, _ => .applications

/-- The lines of the groups that belong to one of the services. -/
def linesOf (S : Service → Bool) : List Group → List (Option Line) → List (Option Line)
  | g :: gs, l :: ls => if S (serviceOf g) then l :: linesOf S gs ls else linesOf S gs ls
  | _, _ => []

end Redsea.Spec
