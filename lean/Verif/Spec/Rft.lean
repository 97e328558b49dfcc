import Verif.Model.Rft
import Verif.Spec.RadioText

/-
File transfer (IEC 62106-2, RFT): what a history of events on a pipe means.
-/

namespace Redsea.Spec

/-- The five bytes of a segment: second half of block 2, then blocks 3 and 4. -/
def segmentBytes (block2 block3 block4 : Word) : List Byte :=
  [loByte block2, hiByte block3, loByte block3, hiByte block4, loByte block4]

/-- Sizes announced by an event. Sizes above 5 * 32768 cannot be addressed and are not taken
as announcements. -/
def sizeIn : RftEvent → Option Nat
  | .info n _ => if n ≤ 163840 then some n else none
  | _ => none

/-- The file size announced last (0 if there was none). -/
def announcedSize (evs : List RftEvent) : Nat := ((evs.filterMap sizeIn).getLast?).getD 0

/-- The event carries the segment with the given address. -/
def CarriesSegment (a : Nat) : RftEvent → Prop
  | .segment _ address _ _ _ => address = a
  | _ => False

/-- All segments among the events have this toggle bit. -/
def SameToggle (t : Nat) (evs : List RftEvent) : Prop :=
  ∀ e ∈ evs, match e with
    | .segment toggle _ _ _ _ => toggle = t
    | _ => True

/-- The latest segment with address `a` among the events has these bytes. -/
def LatestSegment (evs : List RftEvent) (a : Nat) (bytes : List Byte) : Prop :=
  ∃ before t b2 b3 b4 after, evs = before ++ .segment t a b2 b3 b4 :: after ∧
    (∀ e ∈ after, ¬ CarriesSegment a e) ∧ bytes = segmentBytes b2 b3 b4

end Redsea.Spec
