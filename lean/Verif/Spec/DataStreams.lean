import Verif.Model.Channel

/-
The groups of the data streams of a channel.
-/

namespace Redsea

/-- The blocks of a group. -/
def Group.fourBlocks (g : Group) : List Block := [g.block1, g.block2, g.block3, g.block4]

/-- The blocks of the groups of the stream `i` that were handled. -/
def streamBlocks (i : Nat) (tr : List Trace) : List (List Block) :=
  tr.filterMap fun t => match t with
  | .handled h => if h.group.dataStream = i then some h.group.fourBlocks else none
  | _ => none

/-- The call is about bits, or resets the PI cache. -/
def ChannelEvent.IsBits : ChannelEvent → Prop
  | .bit _ _ _ => True
  | .bits _ _ _ => True
  | .resetPI => True
  | _ => False

end Redsea
