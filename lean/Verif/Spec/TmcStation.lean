import Verif.Spec.Tmc
import Verif.Spec.Texts

/-
The Traffic Message Channel among the other groups of a station (ISO 14819-1, 7), and what its system
groups announce.
-/

namespace Redsea.Spec

/-- The application codes of the Traffic Message Channel. -/
def isTmcApp (app : Word) : Bool := app == 0xCD46 || app == 0xCD47

/-- System information: block 3 of the announcement of the application. -/
def tmcSystem (g : Group) : List TmcGroup :=
  match odaAnnounced g with
  | some (_, app) => if isTmcApp app then [.system g.block3.data] else []
  | none => []

/-- The group is of a type that carries TMC user groups: the announced one; 8A needs no announcement. -/
def carriesTmc (before : List Group) (g : Group) : Bool :=
  appGroup 0xCD46 before g || appGroup 0xCD47 before g ||
    (g.hasType && decide (g.type = ⟨8, .A⟩) && decide (assignedApp before g.type = none))

/-- A user group is used if all of its three blocks were received. -/
def tmcUser (before : List Group) (g : Group) : List TmcGroup :=
  if carriesTmc before g && g.block2.isReceived && g.block3.isReceived && g.block4.isReceived then
    [.user ⟨BitVec.ofNat 16 (g.block2.data.toNat % 32), g.block3.data, g.block4.data⟩]
  else []

/-- What a group says to a TMC receiver. -/
def tmcPart (before : List Group) (g : Group) : List TmcGroup := tmcSystem g ++ tmcUser before g

/-! ### What is known from the groups so far -/

/-- The location table number in system information of variant 0; 0 means an encrypted service. -/
def tableOf : TmcGroup → Option Nat
  | .system w => if w.toNat / 2 ^ 14 = 0 then some (w.toNat / 2 ^ 6 % 2 ^ 6) else none
  | .user _ => none

/-- The country code of the location table in system information of variant 1. -/
def countryOf : TmcGroup → Option Nat
  | .system w => if w.toNat / 2 ^ 14 = 1 then some (w.toNat % 2 ^ 4) else none
  | .user _ => none

/-- The encryption identifier in an encryption administration group. -/
def encryptionOf : TmcGroup → Option Nat
  | .system _ => none
  | .user g => if g.isAdmin then some (g.y.toNat % 2 ^ 5) else none

/-- The location table given by a group: by variant 0 of an unencrypted service, or by an encryption
administration group. -/
def tableGiven : TmcGroup → Option Nat
  | .system w => if w.toNat / 2 ^ 14 = 0 ∧ w.toNat / 2 ^ 6 % 2 ^ 6 ≠ 0 then some (w.toNat / 2 ^ 6 % 2 ^ 6) else none
  | .user g => if g.isAdmin then some (g.z.toNat / 2 ^ 10) else none

/-- Characters of the name of the service provider, in tuning information of variants 4 and 5. -/
def providerOps : TmcGroup → List TextOp
  | .system _ => []
  | .user g =>
    if g.x.toNat % 32 = 20 then twoChars 0 g.y ++ twoChars 2 g.z
    else if g.x.toNat % 32 = 21 then twoChars 4 g.y ++ twoChars 6 g.z
    else []

/-- Groups are used from the first system information of variant 0 on. -/
def inService (l : List TmcGroup) : List TmcGroup := l.dropWhile fun g => !g.isVariant0

/-- A service whose latest variant 0 has no location table is encrypted. -/
def encrypted (l : List TmcGroup) : Bool := (l.filterMap tableOf).getLast? == some 0

/-- The latest encryption identifier. -/
def encryptionId (l : List TmcGroup) : Option Nat := ((inService l).filterMap encryptionOf).getLast?

/-- The latest location table number. -/
def locationTable (l : List TmcGroup) : Nat := (((inService l).filterMap tableGiven).getLast?).getD 0

/-- The latest country code for location tables. -/
def tableCountry (l : List TmcGroup) : Nat := ((l.filterMap countryOf).getLast?).getD 0

/-- What was received of the name of the service provider. -/
def providerText (l : List TmcGroup) : List TextOp := (inService l).flatMap providerOps

/-- The areas that messages are about. -/
def scopeNames (scope : Nat) : List String :=
  (if scope / 8 % 2 = 1 then ["inter-road"] else []) ++ (if scope / 4 % 2 = 1 then ["national"] else []) ++
  (if scope / 2 % 2 = 1 then ["regional"] else []) ++ (if scope % 2 = 1 then ["urban"] else [])

/-- Messages are decoded: the service has begun and, if it is encrypted, its identifier is known. -/
def listening (l : List TmcGroup) : Bool :=
  l.any TmcGroup.isVariant0 && (!encrypted l || (encryptionId l).isSome)

/-- The continuity index of a group that is part of a message of several groups. -/
def partIndex : TmcGroup → Option Nat
  | .system _ => none
  | .user g => if g.isMulti then some g.index else none

/-- The continuity indices of the parts decoded so far. -/
def heardIndices (l : List TmcGroup) : List Nat :=
  (List.range l.length).filterMap fun i => if listening (l.take i) then l[i]?.bind partIndex else none

/-- The location of a message, in the clear or decrypted with the key of the latest encryption
identifier. -/
def sentLocation (key : Nat → Option ServiceKey) (l : List TmcGroup) (z : Word) : Option Word :=
  if encrypted l then
    (key ((encryptionId l).getD 0)).map fun k =>
      (z ^^^ BitVec.ofNat 16 (k.xorval.toNat * 2 ^ k.xorstart.toNat)).rotateLeft k.nrot.toNat
  else some z

/-- Members of a message that come from the location table. -/
def placeMembers : List String := ["coordinates", "span_from", "span_to", "road_number", "road_name"]

/-! ### Messages of a broadcaster -/

/-- System information of variant 0. -/
def tableWord (ltn : Nat) (alternative enhanced : Bool) (scope : Nat) : Word :=
  BitVec.ofNat 16 (64 * ltn + 32 * alternative.toNat + 16 * enhanced.toNat + scope)

/-- System information of variant 1. -/
def serviceWord (gap sid rest ltcc : Nat) : Word :=
  BitVec.ofNat 16 (2 ^ 14 + 2 ^ 12 * gap + 2 ^ 6 * sid + 2 ^ 4 * rest + ltcc)

/-- Number of groups between two groups of a message. -/
def gapGroups : Nat → Nat
  | 0 => 3
  | 1 => 5
  | 2 => 8
  | _ => 11

/-- System information of variant 2. -/
def countryWord (ltecc : Nat) : Word := BitVec.ofNat 16 (2 ^ 15 + ltecc)

/-- Encryption administration group. -/
def adminGroup (test sid encid ltn rest : Nat) : UserGroup :=
  ⟨0, BitVec.ofNat 16 (2 ^ 11 * test + 2 ^ 5 * sid + encid), BitVec.ofNat 16 (2 ^ 10 * ltn + rest)⟩

/-- Tuning information. -/
def tuningGroup (variant : Nat) (y z : Word) : UserGroup := ⟨BitVec.ofNat 16 (16 + variant), y, z⟩

/-- Tuning information of variant 9: another network with the same service. -/
def otherService (pi : Word) (ltn scope sid : Nat) : UserGroup :=
  tuningGroup 9 (BitVec.ofNat 16 (2 ^ 10 * ltn + 2 ^ 6 * scope + sid)) pi

end Redsea.Spec
