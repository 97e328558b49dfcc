import Verif.Model.Bits

/-
RDS groups: src/groups.hh:39-121, src/groups.cc:63-186.
-/

namespace Redsea

/-- `enum eBlockNumber`, src/groups.hh:40. -/
inductive BlockNum where
  | b1 | b2 | b3 | b4
  deriving DecidableEq, Repr

namespace BlockNum
/-- Numerical value of the enumerator (used as an array index and in `couldFollow`). -/
def toNat : BlockNum → Nat
  | b1 => 0 | b2 => 1 | b3 => 2 | b4 => 3
end BlockNum

/-- `enum class Offset`, src/groups.hh:42. -/
inductive Offset where
  | A | B | C | Cprime | D | invalid
  deriving DecidableEq, Repr

/-- `class Block`, src/groups.hh:44-51. -/
structure Block where
  raw : BitVec 32 := 0
  data : Word := 0
  isReceived : Bool := false
  hadErrors : Bool := false
  offset : Offset := .invalid
  deriving DecidableEq, Repr

/-- `GroupType::Version`, src/groups.hh:55. -/
inductive Version where
  | A | B | C
  deriving DecidableEq, Repr

/-- `class GroupType`, src/groups.hh:53-64. -/
structure GroupType where
  number : Nat := 0
  version : Version := .A
  deriving DecidableEq, Repr

/-- `GroupType::GroupType(type_code)`, src/groups.cc:63-65. -/
def GroupType.ofCode (code : Nat) : GroupType where
  number := (code >>> 1) % 16
  version := if code % 2 = 0 then .A else .B

/-- `class Group`, src/groups.hh:83-121. `time_received_`/`has_time_` and
`bler_`/`has_bler_` are merged into `Option`s (every setter sets both). Time is in
milliseconds. `bler` is kept exactly, in 1/48 of all blocks (see `Channel`). -/
structure Group where
  type : GroupType := {}
  block1 : Block := {}
  block2 : Block := {}
  block3 : Block := {}
  block4 : Block := {}
  time : Option Int := none
  bler : Option Nat := none
  dataStream : Nat := 0
  hasType : Bool := false
  hasCPrime : Bool := false
  noOffsets : Bool := false
  deriving DecidableEq, Repr

namespace Group

/-- `blocks_[block_num]`. -/
def block (g : Group) : BlockNum → Block
  | .b1 => g.block1 | .b2 => g.block2 | .b3 => g.block3 | .b4 => g.block4

/-- `Group::get`, src/groups.cc:82-84. -/
def get (g : Group) (n : BlockNum) : Word := (g.block n).data

/-- `Group::has`, src/groups.cc:86-88. -/
def has (g : Group) (n : BlockNum) : Bool := (g.block n).isReceived

/-- `Group::isEmpty`, src/groups.cc:90-92. -/
def isEmpty (g : Group) : Bool :=
  !(g.has .b1 || g.has .b2 || g.has .b3 || g.has .b4)

/-- `Group::getPI`, src/groups.cc:95-102. -/
def getPI (g : Group) : Word :=
  if g.block1.isReceived then g.block1.data
  else if g.block3.isReceived && g.block3.offset == .Cprime then g.block3.data
  else 0

/-- Contribution of one block to `Group::getNumErrors`. -/
def blockErr (b : Block) : Nat := if b.hadErrors || !b.isReceived then 1 else 0

/-- `Group::getNumErrors`, src/groups.cc:110-114. -/
def getNumErrors (g : Group) : Nat :=
  blockErr g.block1 + blockErr g.block2 + blockErr g.block3 + blockErr g.block4

/-- `Group::hasPI`, src/groups.cc:116-120. -/
def hasPI (g : Group) : Bool :=
  g.type.version != .C &&
    (g.block1.isReceived || (g.block3.isReceived && g.block3.offset == .Cprime))

/-- `Group::disableOffsets`, src/groups.cc:142-144. -/
def disableOffsets (g : Group) : Group := { g with noOffsets := true }

/-- `Group::setVersionC`, src/groups.cc:146-149. -/
def setVersionC (g : Group) : Group :=
  { g with type := { g.type with version := .C }, hasType := true }

/-- `Group::setDataStream`, src/groups.cc:151-153. -/
def setDataStream (g : Group) (s : Nat) : Group := { g with dataStream := s }

/-- `blocks_[block_num] = block`, first line of `Group::setBlock`. -/
def putBlock (g : Group) (n : BlockNum) (b : Block) : Group :=
  match n with
  | .b1 => { g with block1 := b }
  | .b2 => { g with block2 := b }
  | .b3 => { g with block3 := b }
  | .b4 => { g with block4 := b }

/-- The type recognition part of `Group::setBlock` for BLOCK2 / BLOCK4,
src/groups.cc:165-181. -/
def recogniseType (g : Group) (n : BlockNum) (b : Block) : Group :=
  match n with
  | .b2 =>
    let t := GroupType.ofCode (getBits 5 b.data 11)
    { g with type := t, hasType := if t.version = .A then true else (g.hasCPrime || g.noOffsets) }
  | .b4 =>
    if g.hasCPrime && !g.hasType then
      let t := GroupType.ofCode (getBits 5 b.data 11)
      if t.number = 15 ∧ t.version = .B then { g with type := t, hasType := true } else g
    else g
  | _ => g

/-- `Group::setBlock`, src/groups.cc:159-186. -/
def setBlock (g : Group) (n : BlockNum) (b : Block) : Group :=
  let g := g.putBlock n b
  if g.hasType then g
  else
    let g := g.recogniseType n b
    if b.offset = .Cprime ∧ g.has .b2 then
      { g with hasType := g.type.version = .B }
    else g

/-- `Group::setTime`, src/groups.cc:188-191. -/
def setTime (g : Group) (t : Int) : Group := { g with time := some t }

end Group

end Redsea
