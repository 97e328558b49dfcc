import Verif.Model.Main
import Batteries.Data.List.Basic

/-
The same line for Europe (RDS) and for North America (RBDS).
-/

namespace Redsea.Spec

/-- The names of a programme type, in Europe and in North America. -/
def SameType (v v' : J) : Prop :=
  ∃ (n : Nat) (a b : String), ptyNames[n]? = some a ∧ ptyNamesRBDS[n]? = some b ∧ v = .str (utf8Str a) ∧ v' = .str (utf8Str b)

/-- The member that tells the callsign of a North American station, if one belongs to its PI code. Codes that begin with 1 are
also used for other purposes. -/
def callsignMember (pi : Word) : List (String × J) :=
  match getCallsignFromPI pi with
  | [] => []
  | name => [(if pi.toNat / 4096 = 1 then "callsign_uncertain" else "callsign", .str name)]

/-- The members of "other_network": the programme type has another name. -/
inductive Retyped : List (String × J) → List (String × J) → Prop
  | nil : Retyped [] []
  | same (k : String) (v : J) {l l' : List (String × J)} (hk : k ≠ "prog_type") (h : Retyped l l') :
    Retyped ((k, v) :: l) ((k, v) :: l')
  | progType {v v' : J} {l l' : List (String × J)} (hv : SameType v v') (h : Retyped l l') :
    Retyped (("prog_type", v) :: l) (("prog_type", v') :: l')

/-- The members of a line: programme types have other names, and the callsign follows the PI code. -/
inductive American : List (String × J) → List (String × J) → Prop
  | nil : American [] []
  | same (k : String) (v : J) {l l' : List (String × J)} (hk : k ∉ ["pi", "prog_type", "other_network"]) (h : American l l') :
    American ((k, v) :: l) ((k, v) :: l')
  | pi (p : Word) {l l' : List (String × J)} (h : American l l') :
    American (("pi", .str (prefixedHex4 p.toNat)) :: l) (("pi", .str (prefixedHex4 p.toNat)) :: (callsignMember p ++ l'))
  | progType {v v' : J} {l l' : List (String × J)} (hv : SameType v v') (h : American l l') :
    American (("prog_type", v) :: l) (("prog_type", v') :: l')
  | network {a a' l l' : List (String × J)} (ha : Retyped a a') (h : American l l') :
    American (("other_network", .obj a) :: l) (("other_network", .obj a') :: l')

/-- A line without and with `-u`. -/
inductive AmericanLine : Line → Line → Prop
  | json {l l' : List (String × J)} (h : American l l') : AmericanLine (.json (.obj l)) (.json (.obj l'))
  | error : AmericanLine .error .error
  | hex (s : Str) : AmericanLine (.hex s) (.hex s)

/-- Something that is printed, without and with `-u`. -/
inductive AmericanItem {F : Type} : Item F → Item F → Prop
  | line {x y : Line} (h : AmericanLine x y) : AmericanItem (.line x) (.line y)
  | usage : AmericanItem .usage .usage
  | version : AmericanItem .version .version
  | error : AmericanItem .error .error
  | tableInfo (text : Str) : AmericanItem (.tableInfo text) (.tableInfo text)
  | echo (s : Str) : AmericanItem (.echo s) (.echo s)
  | echoSamples (l : List F) : AmericanItem (.echoSamples l) (.echoSamples l)

/-- The end of the program, without and with `-u`. -/
structure AmericanEnd {F : Type} (a b : Finished F) : Prop where
  success : b.success = a.success
  stdout : List.Forall₂ AmericanItem a.stdout b.stdout
  stderr : List.Forall₂ AmericanItem a.stderr b.stderr

end Redsea.Spec
