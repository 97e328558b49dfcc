import Verif.Model.Channel

/-
What a channel does for the data stream 0 (RDS), apart from the upper data streams of RDS2.
-/

namespace Redsea

/-- The call is about stream 0, or resets the PI cache. -/
def ChannelEvent.isBase : ChannelEvent → Bool
  | .bit _ _ n => n == 0
  | .bits _ _ n => n == 0
  | .group _ _ n => n == 0
  | .flush _ => false
  | .resetPI => true

/-- A group handed over for stream 0 is of version A or B, as all groups are that the program reads. -/
def ChannelEvent.Usual : ChannelEvent → Prop
  | .group _ g n => n = 0 → g.type.version ≠ .C
  | _ => True

/-- The lines printed for groups of stream 0. -/
def baseLines (tr : List Trace) : List Line :=
  tr.filterMap fun t => match t with
  | .handled h => if h.group.dataStream = 0 then h.line else none
  | .reset => none

end Redsea
