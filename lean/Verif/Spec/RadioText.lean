import Verif.Spec.Text
import Verif.Model.Group

/-
What type 2 groups transmit (IEC 62106: 2A carries four characters in blocks 3 and 4, 2B two
characters in block 4; the segment address is in the low four bits of block 2, the text A/B
flag in bit 4).
-/

namespace Redsea.Spec

/-- High and low byte of a word. -/
def hiByte (w : Word) : Byte := BitVec.ofNat 8 (w.toNat / 256)
def loByte (w : Word) : Byte := BitVec.ofNat 8 (w.toNat % 256)

/-- Both text blocks were received. -/
def RtUsable (g : Group) : Bool := g.block3.isReceived && g.block4.isReceived

/-- 2A (as opposed to 2B). -/
def rtIsA (g : Group) : Bool := g.type.version == .A

/-- The text A/B flag. -/
def rtFlag (g : Group) : Bool := g.block2.data.toNat / 16 % 2 == 1

/-- The characters transmitted in a type 2 group, with their positions. -/
def rtReceptions (g : Group) : List (Nat × Byte) :=
  let seg := g.block2.data.toNat % 16
  if rtIsA g then
    [(4 * seg, hiByte g.block3.data), (4 * seg + 1, loByte g.block3.data),
     (4 * seg + 2, hiByte g.block4.data), (4 * seg + 3, loByte g.block4.data)]
  else
    [(2 * seg, hiByte g.block4.data), (2 * seg + 1, loByte g.block4.data)]

/-- The history of the RadioText field caused by a list of type 2 groups, when the flag was
`ab` before: a change of the flag clears the text. -/
def rtOps : Bool → List Group → List TextOp
  | _, [] => []
  | ab, g :: gs =>
    if RtUsable g then
      (if rtFlag g != ab then [.clear] else []) ++
        (rtReceptions g).map (fun p => .recv p.1 p.2) ++ rtOps (rtFlag g) gs
    else rtOps ab gs

/-- The station changes between 2A and 2B only together with the A/B flag. (`v`: the version
used last, `ab`: the flag before.) -/
def VersionsStable : Option Bool → Bool → List Group → Prop
  | _, _, [] => True
  | v, ab, g :: gs =>
    if RtUsable g then
      (v = none ∨ v = some (rtIsA g) ∨ rtFlag g ≠ ab) ∧
        VersionsStable (some (rtIsA g)) (rtFlag g) gs
    else VersionsStable v ab gs

end Redsea.Spec
