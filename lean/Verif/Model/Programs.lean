import Verif.Model.Channel
import Verif.Model.Input

/-
The loops of src/redsea.cc:168-201 for input that is not sound: from the text that is read to the
lines that are printed. The loop for sound is in Model/Subcarrier.lean.
-/

namespace Redsea

/-- The calls of `processASCIIBitsInput`, src/redsea.cc:172-176, for the bits `bs`. `now i` is the
time at the `i`-th bit, `later` gives the times during `flush`. -/
def bitCalls (now : Nat → Int) (later : Nat → Int) (bs : List Bool) : List ChannelEvent :=
  (bs.zipIdx.map fun q => .bit (now q.2) q.1 0) ++ [.flush later]

/-- `processASCIIBitsInput`, src/redsea.cc:168-179. -/
def processASCIIBitsInput (env : Env) (delay : Nat → Int) (now later : Nat → Int) (o : Options)
    (input : Str) : Option (Channel × List Trace) :=
  Channel.run env delay (Channel.new o 0) (bitCalls now later (asciiBitsFed input))

/-- The calls in the loop of `processHexInput`, src/redsea.cc:184-187, for the groups `gs`. -/
def groupCalls (now : Nat → Int) (gs : List Group) : List ChannelEvent :=
  gs.zipIdx.map fun q => .group (now q.2) q.1 q.1.dataStream

/-- `processHexInput`, src/redsea.cc:181-190. -/
def processHexInput (env : Env) (delay : Nat → Int) (now : Nat → Int) (o : Options) (input : Str) :
    Option (Channel × List Trace) :=
  Channel.run env delay (Channel.new o 0) (groupCalls now (hexInputGroups input))

/-- The lines that are printed. -/
def printedLines (tr : List Trace) : List Line :=
  tr.filterMap fun t => match t with
    | .handled h => h.line
    | .reset => none

/-- The text of a line in hexadecimal form. -/
def Line.hexText : Line → Str
  | .hex s => s
  | _ => []

/-- The text of hexadecimal output. -/
def hexOutput (tr : List Trace) : Str := ((printedLines tr).map Line.hexText).flatten

end Redsea
