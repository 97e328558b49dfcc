import Verif.Model.Text
import Verif.Model.Group

/-
RadioText: src/text/radiotext.hh:12-43 and `Station::decodeType2`, src/groups.cc:598-674.
-/

namespace Redsea

/-- `RadioText::Plus`, src/text/radiotext.hh:24-37 (the fields that influence decoding; `exists`,
`cb`, `scb` and `template_num` are only ever written). -/
structure RTPlus where
  toggle : Bool := false
  itemRunning : Bool := false
  deriving DecidableEq, Repr

/-- `class RadioText`, src/text/radiotext.hh:12-43. `ab` holds 0 or 1. -/
structure RadioText where
  text : RDSString := RDSString.new 64
  plus : RTPlus := {}
  previousPotentiallyComplete : Str := []
  ab : Bool := false
  deriving DecidableEq, Repr

namespace RadioText

/-- `RadioText::update`, src/text/radiotext.hh:20-22. -/
def update (ucs2 : Ucs2Decoder) (rt : RadioText) (pos : Nat) (b1 b2 : Byte) : RadioText :=
  { rt with text := rt.text.set2 ucs2 pos b1 b2 }

end RadioText

/-- What `decodeType2` adds to the JSON object. -/
structure RTOut where
  rtAb : Option Bool := none
  radiotext : Option Str := none
  partialRadiotext : Option Str := none
  /-- an exception message is pushed to "debug" -/
  debug : Bool := false
  deriving DecidableEq, Repr

/-- The condition `has_potentially_complete_message`, src/groups.cc:616-618. -/
def rtPotential (rt : RadioText) (pos : Nat) : Bool :=
  decide (pos = 0) && decide (rt.text.getReceivedLength > 1) && !rt.text.isComplete &&
    !rt.text.hasPreviouslyReceivedTerminators

/-- Buffer update part of `decodeType2`, src/groups.cc:634-654. -/
def rtReceive (ucs2 : Ucs2Decoder) (rt : RadioText) (g : Group) (isA isAbChanged : Bool)
    (pos : Nat) : RadioText :=
  let rt := if isAbChanged then { rt with text := rt.text.clear } else rt
  let rt :=
    if isA then
      let rt := { rt with text := rt.text.resize 64 }
      rt.update ucs2 pos (getUint8 (g.get .b3) 8) (getUint8 (g.get .b3) 0)
    else { rt with text := rt.text.resize 32 }
  if g.has .b4 then
    rt.update ucs2 (pos + (if isA then 2 else 0)) (getUint8 (g.get .b4) 8)
      (getUint8 (g.get .b4) 0)
  else rt

/-- Output part of `decodeType2`, src/groups.cc:656-673. `message` is the potentially complete
message if it was confirmed. -/
def rtPrint (ucs2 : Ucs2Decoder) (showPartial : Bool) (rt : RadioText) (message : Option Str)
    (out : RTOut) : RTOut :=
  if rt.text.isComplete then { out with radiotext := some (rtrim rt.text.lastCompleteString) }
  else
    match message with
    | some m => { out with radiotext := some (rtrim m) }
    | none =>
      if showPartial then
        match rt.text.str ucs2 with
        | none => { out with debug := true }
        | some t => if (rtrim t).length > 0 then { out with partialRadiotext := some t } else out
      else out

/-- `Station::decodeType2`, src/groups.cc:598-674. -/
def decodeType2 (ucs2 : Ucs2Decoder) (showPartial : Bool) (rt : RadioText) (g : Group) :
    RadioText × RTOut :=
  if !(g.has .b3 && g.has .b4) then (rt, {})
  else
    let isA := g.type.version == .A
    let pos := getBits 4 (g.get .b2) 0 * (if isA then 4 else 2)
    let ab := getBool (g.get .b2) 4
    let isAbChanged := rt.ab != ab
    let rt := { rt with ab := ab }
    let out : RTOut := { rtAb := if showPartial then some ab else none }
    if rtPotential rt pos then
      match rt.text.str ucs2 with
      | none => (rt, { out with debug := true })
      | some t =>
        let m := rtrim t
        let confirmed := m == rt.previousPotentiallyComplete
        let rt := { rt with previousPotentiallyComplete := m }
        let rt := rtReceive ucs2 rt g isA isAbChanged pos
        (rt, rtPrint ucs2 showPartial rt (if confirmed then some m else none) out)
    else
      let rt := rtReceive ucs2 rt g isA isAbChanged pos
      (rt, rtPrint ucs2 showPartial rt none out)

end Redsea
