import Verif.Model.Channel
import Verif.Props.PiCode

/-
Notions for the properties of a channel: what the history of a channel says about the PI, the
error rate and the times of its groups. The history (`Trace`) is the list of groups that were
handled, in the form given to the station, and of resets of the PI cache.
-/

namespace Redsea

/-- A group is of version A or B. -/
def Group.isAB (g : Group) : Bool := g.type.version != .C

/-- The PI code in a group: version A and B groups have it in block 1, and in block 3 if this has
offset C'. -/
def groupPI (g : Group) : Option Word :=
  if !g.isAB then none
  else if g.block1.isReceived then some g.block1.data
  else if g.block3.isReceived && g.block3.offset == .Cprime then some g.block3.data
  else none

/-- What a part of the history means to the PI cache. -/
def Trace.piEvents : Trace → List PIEvent
  | .handled h => ((groupPI h.group).map PIEvent.recv).toList
  | .reset => [.reset]

/-- What a history means to the PI cache. -/
def piEvents (tr : List Trace) : List PIEvent := tr.flatMap Trace.piEvents

/-- The PI code that was announced last (`ChangeConfirmed`; see properties C15 to C17). -/
def lastAnnounced : List PIEvent → CachedPI → Option Word → Option Word
  | [], _, last => last
  | .reset :: es, c, last => lastAnnounced es c.reset last
  | .recv p :: es, c, last =>
    lastAnnounced es (c.update p).1 (if (c.update p).2 = .changeConfirmed then some p else last)

/-- The PI code that was announced last in a history, from start-up on. -/
def announcedPI (tr : List Trace) : Option Word := lastAnnounced (piEvents tr) {} none

/-- The groups of a history. -/
def Trace.group? : Trace → Option Group
  | .handled h => some h.group
  | .reset => none

/-- The groups of a history. -/
def groupsOf (tr : List Trace) : List Group := tr.filterMap Trace.group?

/-- The last version A or B group of a history had a PI code. -/
def lastGroupHadPI (tr : List Trace) : Bool :=
  (((groupsOf tr).filter Group.isAB).getLast?.map fun g => (groupPI g).isSome).getD false

/-- The upper-case hexadecimal digit of a number below 16. -/
def hexDigitChar (n : Nat) : Byte := if n < 10 then BitVec.ofNat 8 (48 + n) else BitVec.ofNat 8 (55 + n)

/-- A PI code as it is printed: `0x` and four digits. -/
def piText (p : Word) : Str :=
  [0x30, 0x78, hexDigitChar (p.toNat / 4096), hexDigitChar (p.toNat / 256 % 16),
   hexDigitChar (p.toNat / 16 % 16), hexDigitChar (p.toNat % 16)]

/-- A group has no received block. -/
def Group.hasNothing (g : Group) : Bool :=
  !g.block1.isReceived && !g.block2.isReceived && !g.block3.isReceived && !g.block4.isReceived

/-- The number of wrong blocks of a group: blocks not received or received with errors. -/
def wrongBlocks (g : Group) : Nat :=
  (([g.block1, g.block2, g.block3, g.block4].filter fun b => b.hadErrors || !b.isReceived)).length

end Redsea
