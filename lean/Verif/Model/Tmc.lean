import Verif.Model.AltFreq
import Verif.Model.Json
import Verif.Model.ClockTime
import Verif.Model.Tables

/-
Traffic Message Channel: src/tmc/tmc.hh, src/tmc/tmc.cc.

Data that are read from files (event list, supplementary information, service keys, location
tables) are parameters of the model.

Members of `Message` that are written but never used are omitted: `duration_`, `duration_type_`,
`diversion_advised_`, `length_affected_`, `has_length_affected_`.
-/

namespace Redsea

/-- `popBits`, src/tmc/tmc.cc:56-66. -/
def popBits (bits : List Bool) (len : Nat) : Nat × List Bool :=
  if bits.length ≥ len then
    ((bits.take len).foldl (fun r b => (2 * r + b.toNat) % 2 ^ 16) 0, bits.drop len)
  else (0, bits)

/-- `rotl16`, src/tmc/tmc.cc:68-73. -/
def rotl16 (value : Word) (count : BitVec 32) : Word :=
  let count := count &&& 15#32
  (value <<< count.toNat) ||| (value >>> ((-count) &&& 15#32).toNat)

/-- `MessagePart`, src/tmc/tmc.hh:118-125. -/
structure MessagePart where
  isReceived : Bool := false
  data0 : Word := 0
  data1 : Word := 0
  deriving DecidableEq, Repr

/-- `field_size`, src/tmc/tmc.cc:77-78. -/
def fieldSizes : List Nat := [3, 3, 5, 5, 5, 8, 8, 8, 8, 11, 16, 16, 16, 16, 0, 0]

/-- The bits of a word from bit `n - 1` down to bit 0, as pushed in src/tmc/tmc.cc:90-95. -/
def lowBits (n : Nat) (w : Word) : List Bool := (List.range n).map fun b => getBool w (n - 1 - b)

/-- The 28 freeform bits of one group, src/tmc/tmc.cc:90-95. -/
def partBits (p : MessagePart) : List Bool := lowBits 12 p.data0 ++ lowBits 16 p.data1

/-- The loop that concatenates the freeform bits, src/tmc/tmc.cc:85-97, from part `i` on. -/
def freeformBits (parts : List MessagePart) (secondGsi : Nat) : Nat → List MessagePart → List Bool
  | _, [] => []
  | i, p :: rest =>
    if !p.isReceived then []
    else (if i = 1 ∨ i ≥ parts.length - secondGsi then partBits p else []) ++
      freeformBits parts secondGsi (i + 1) rest

/-- The loop that separates the fields, src/tmc/tmc.cc:100-113. Every round takes at least 4 bits;
`fuel` is an upper bound for the number of rounds. -/
def separateFields : Nat → List Bool → List (Nat × Nat)
  | 0, _ => []
  | fuel + 1, bits =>
    if bits.length > 4 then
      let (label, bits) := popBits bits 4
      let size := fieldSizes.getD label 0
      if bits.length < size then []
      else
        let (data, bits) := popBits bits size
        if label = 0 ∧ data = 0 then []
        else if label ≤ 14 then (label, data) :: separateFields fuel bits
        else separateFields fuel bits
    else []

/-- `getFreeformFields`, src/tmc/tmc.cc:76-116: list of (label, data). -/
def getFreeformFields (parts : List MessagePart) : List (Nat × Nat) :=
  let secondGsi := getBits 2 (parts.getD 1 {}).data0 12
  let bits := freeformBits parts secondGsi 1 (parts.drop 1)
  separateFields bits.length bits

/-- `EventUrgency`, src/tmc/tmc.hh:41. -/
inductive Urgency where
  | none | u | x
  deriving DecidableEq, Repr

/-- `getUrgencyString`, src/tmc/tmc.cc:118-125. -/
def getUrgencyString : Urgency → Str
  | .none => ascii "none"
  | .u => ascii "U"
  | .x => ascii "X"

/-- `month_names`, src/tmc/tmc.cc:149-151. -/
def monthNames : List String :=
  ["January", "February", "March", "April", "May", "June", "July", "August", "September", "October",
   "November", "December"]

/-- `getTimeString`, src/tmc/tmc.cc:127-157. -/
def getTimeString (v : Nat) : Str :=
  if v ≤ 95 then getHoursMinutesString (v / 4) (15 * (v % 4))
  else if v ≤ 200 then
    let days := (v - 96) / 24
    let hour := (v - 96) % 24
    if days = 0 then ascii "at " ++ decPadded 2 hour ++ ascii ":00"
    else if days = 1 then ascii "after 1 day at " ++ decPadded 2 hour ++ ascii ":00"
    else ascii "after " ++ decimal days ++ ascii " days at " ++ decPadded 2 hour ++ ascii ":00"
  else if v ≤ 231 then ascii "day " ++ decimal (v - 200) ++ ascii " of the month"
  else
    let month := (v - 232) / 2
    let endOrMid := (v - 232) % 2 ≠ 0
    match monthNames[month]? with
    | some name => (if endOrMid then ascii "end of " else ascii "mid-") ++ ascii name
    | none => []

/-- `getScopeStrings`, src/tmc/tmc.cc:159-176. -/
def getScopeStrings (mgs : Word) : List Str :=
  (if getBool mgs 3 then [ascii "inter-road"] else []) ++
  (if getBool mgs 2 then [ascii "national"] else []) ++
  (if getBool mgs 1 then [ascii "regional"] else []) ++
  (if getBool mgs 0 then [ascii "urban"] else [])

/-- `QuantifierType`, src/tmc/tmc.hh:45-59. -/
inductive QuantifierType where
  | smallNumber | number | lessThanMetres | percent | uptoKmh | uptoTime | degreesCelsius | time
  | tonnes | metres | uptoMillimetres | mhz | khz
  deriving DecidableEq, Repr

/-- `getQuantifierSize`, src/tmc/tmc.cc:178-196. -/
def getQuantifierSize : QuantifierType → Nat
  | .smallNumber | .number | .lessThanMetres | .percent | .uptoKmh | .uptoTime => 5
  | .degreesCelsius | .time | .tonnes | .metres | .uptoMillimetres | .mhz | .khz => 8

/-- `struct Event`, src/tmc/tmc.hh:101-112 (the members that are used). `both` is
`EventDirectionality::Both`. -/
structure Event where
  description : Str := []
  descriptionWithQuantifier : Str := []
  quantifierType : QuantifierType := .smallNumber
  both : Bool := false
  urgency : Urgency := .none
  updateClass : Nat := 0
  allowsQuantifier : Bool := false
  deriving DecidableEq, Repr

/-- `CarrierFrequency::str`, src/util.cc:112-131. The frequencies are multiples of 100 kHz (FM), so
that rounding to one decimal of the nearest float gives the exact value. -/
def CarrierFrequency.toStr (f : CarrierFrequency) : Str :=
  if f.isValid then
    match f.band with
    | .fm => decimal (f.kHz.toNat / 1000) ++ ascii "." ++ decimal (f.kHz.toNat / 100 % 10) ++ ascii " MHz"
    | .lfMf => intStr f.kHz ++ ascii " kHz"
  else ascii "N/A"

/-- `std::setfill('0') << std::setw(2) << v` for an int. -/
def intPadded2 (v : Int) : Str :=
  let s := intStr v
  List.replicate (2 - s.length) 0x30 ++ s

/-- One decimal digit after the point, as for tonnes and metres, src/tmc/tmc.cc:262-279. -/
def tenths (v : Nat) : Str := decimal (v / 10) ++ ascii "." ++ decimal (v % 10)

/-- The text for the quantifier, src/tmc/tmc.cc:198-287. -/
def quantifierText (t : QuantifierType) (q0 : Nat) : Str :=
  let q := if getQuantifierSize t = 5 ∧ q0 = 0 then 32 else q0
  match t with
  | .smallNumber => decimal (if q > 28 then q + (q - 28) else q)
  | .number => decimal (if q ≤ 4 then q else if q ≤ 14 then (q - 4) * 10 else (q - 12) * 50)
  | .lessThanMetres => ascii "less than " ++ decimal (q * 10) ++ ascii " metres"
  | .percent => decimal (if q = 32 then 0 else q * 5) ++ ascii " %"
  | .uptoKmh => ascii "of up to " ++ decimal (q * 5) ++ ascii " km/h"
  | .uptoTime =>
    if q ≤ 10 then ascii "of up to " ++ decimal (q * 5) ++ ascii " minutes"
    else if q ≤ 22 then ascii "of up to " ++ decimal (q - 10) ++ ascii " hours"
    else ascii "of up to " ++ decimal ((q - 20) * 6) ++ ascii " hours"
  | .degreesCelsius => intStr ((q : Int) - 51) ++ ascii " degrees Celsius"
  | .time =>
    let minute : Int := ((q : Int) - 1) * 10
    intPadded2 (minute.tdiv 60) ++ ascii ":" ++ intPadded2 (minute.tmod 60)
  | .tonnes => tenths (if q ≤ 100 then q else 100 + (q - 100) * 5) ++ ascii " tonnes"
  | .metres => tenths (if q ≤ 100 then q else 100 + (q - 100) * 5) ++ ascii " metres"
  | .uptoMillimetres => ascii "of up to " ++ decimal q ++ ascii " millimetres"
  | .mhz => ({ code := q, band := .fm } : CarrierFrequency).toStr
  | .khz => ({ code := q, band := .lfMf } : CarrierFrequency).toStr

/-- `std::regex_replace(s, "\\(Q\\)", text)`: the text never contains a dollar sign. -/
def replaceQ (text : Str) : Str → Str
  | 0x28#8 :: 0x51#8 :: 0x29#8 :: rest => text ++ replaceQ text rest
  | c :: rest => c :: replaceQ text rest
  | [] => []

/-- `getDescriptionWithQuantifier`, src/tmc/tmc.cc:198-290. -/
def getDescriptionWithQuantifier (e : Event) (q : Nat) : Str :=
  replaceQ (quantifierText e.quantifierType q) e.descriptionWithQuantifier

/-- `ucfirst`, src/tmc/tmc.cc:292-296 (`std::toupper` in the C locale). -/
def ucfirst : Str → Str
  | [] => []
  | c :: rest => (if 0x61 ≤ c.toNat ∧ c.toNat ≤ 0x7A then c - 0x20#8 else c) :: rest

/-- `ServiceKey`, src/tmc/tmc.hh:95-99. -/
structure ServiceKey where
  xorval : Byte := 0
  xorstart : Byte := 0
  nrot : Byte := 0
  deriving DecidableEq, Repr

/-- `struct Point`, src/tmc/locationdb.hh:28-38 (the members that are used). Coordinates are the bits
of single precision numbers. -/
structure Point where
  name1 : Str := []
  roadName : Str := []
  roaLcd : Word := 0
  negOff : Word := 0
  posOff : Word := 0
  lon : BitVec 32 := 0
  lat : BitVec 32 := 0
  deriving DecidableEq, Repr

/-- `struct Road`, src/tmc/locationdb.hh:45-50. -/
structure Road where
  roadNumber : Str := []
  name : Str := []
  deriving DecidableEq, Repr

/-- `struct LocationDatabase`, src/tmc/locationdb.hh:57-64. -/
structure LocationDatabase where
  ltn : Word := 0
  points : Word → Option Point := fun _ => none
  roads : Word → Option Road := fun _ => none
  /-- `points.size()`, `roads.size()`, `names.size()` -/
  numPoints : Nat := 0
  numRoads : Nat := 0
  numNames : Nat := 0

/-- Data from files, and the `iconv` library. -/
structure TmcEnv where
  ucs2 : Ucs2Decoder
  /-- `g_event_data` after `loadEventData` -/
  events : Nat → Option Event
  /-- `g_supplementary_data` -/
  supplementary : Nat → Option Str
  /-- `service_key_table_` -/
  serviceKey : Nat → Option ServiceKey
  /-- `g_location_databases[ltn]`; an empty database for a table that was not loaded -/
  locations : Nat → LocationDatabase

/-- `getEvent`, src/tmc/tmc.cc:438-443. -/
def TmcEnv.getEvent (env : TmcEnv) (code : Nat) : Event := (env.events code).getD {}

/-- The loop of `decodeLocation`, src/tmc/tmc.cc:393-399. -/
def walkPoints (db : LocationDatabase) (isPositive : Bool) : Nat → Word → List Point
  | 0, _ => []
  | left + 1, lcd =>
    match db.points lcd with
    | none => []
    | some p => p :: walkPoints db isPositive left (if isPositive then p.posOff else p.negOff)

/-- `decodeLocation`, src/tmc/tmc.cc:379-424. `location` is the "location" member of the message and
`extent` its "extent" member converted by `std::stoi`. The coordinates are assigned element by
element in the code, which has the same effect as assigning the array. -/
def decodeLocation (db : LocationDatabase) (ltn : Nat) (location : Option Word) (extent : Int) :
    List JOp :=
  if db.ltn.toNat ≠ ltn ∨ db.ltn = 0 then []
  else
    match location with
    | none => []
    | some lcd =>
      match db.points lcd with
      | none => []
      | some point =>
        let points := walkPoints db (decide (extent ≥ 0)) (extent.natAbs + 1) lcd
        let msg (k : String) := ["tmc", "message", k]
        [.set (msg "coordinates") (.arr (points.map fun p =>
          .obj [("lat", .float p.lat), ("lon", .float p.lon)]))] ++
        (match points.head?, points.getLast? with
         | some first, some last =>
           if points.length > 1 ∧ first.name1.length > 0 ∧ last.name1.length > 0 then
             [.set (msg "span_from") (.str first.name1), .set (msg "span_to") (.str last.name1)]
           else []
         | _, _ => []) ++
        (match db.roads point.roaLcd with
         | none => []
         | some road =>
           (if road.roadNumber ≠ [] then [.set (msg "road_number") (.str road.roadNumber)] else []) ++
           (if road.name.length > 0 then [.set (msg "road_name") (.str road.name)]
            else if point.roadName ≠ [] then [.set (msg "road_name") (.str point.roadName)]
            else []))

/-- `class Message`, src/tmc/tmc.hh:127-168. `negative` is `direction_ == Direction::Negative`. -/
structure Message where
  isEncrypted : Bool
  wasEncrypted : Bool
  negative : Bool := false
  extent : Nat := 0
  events : List Nat := []
  supplementary : List Nat := []
  quantifiers : List (Nat × Nat) := []
  diversion : List Nat := []
  location : Word := 0
  encryptedLocation : Word := 0
  isComplete : Bool := false
  timeUntil : Option Nat := none
  timeStarts : Option Nat := none
  speedLimit : Option Nat := none
  both : Bool := false
  urgency : Urgency := .none
  continuityIndex : Nat := 0
  parts : List MessagePart := List.replicate 5 {}
  deriving DecidableEq, Repr

namespace Message

/-- Constructor, src/tmc/tmc.hh:129-130. -/
def new (isLocEncrypted : Bool) : Message :=
  { isEncrypted := isLocEncrypted, wasEncrypted := isLocEncrypted }

/-- The first group: common part of `pushSingle`, src/tmc/tmc.cc:642-657, and `decodeMulti`,
src/tmc/tmc.cc:696-706. -/
def firstGroup (env : TmcEnv) (m : Message) (y z : Word) : Message :=
  let m := { m with
    negative := getBool y 14
    extent := getBits 3 y 11
    events := m.events ++ [getBits 11 y 0] }
  let m := if m.isEncrypted then { m with encryptedLocation := z } else { m with location := z }
  let e := env.getEvent (m.events.headD 0)
  { m with both := e.both, urgency := e.urgency, isComplete := true }

/-- `pushSingle`, src/tmc/tmc.cc:642-657. -/
def pushSingle (env : TmcEnv) (m : Message) (y z : Word) : Message := m.firstGroup env y z

/-- `ControlCode::IncreaseUrgency`, src/tmc/tmc.cc:719-724. -/
def increaseUrgency : Urgency → Urgency
  | .none => .u
  | .u => .x
  | .x => .none

/-- `ControlCode::ReduceUrgency`, src/tmc/tmc.cc:727-732. -/
def reduceUrgency : Urgency → Urgency
  | .none => .x
  | .u => .none
  | .x => .u

/-- The inner `switch` for control codes, src/tmc/tmc.cc:714-762. -/
def control (m : Message) (code : Nat) : Message :=
  match code with
  | 0 => { m with urgency := increaseUrgency m.urgency }
  | 1 => { m with urgency := reduceUrgency m.urgency }
  | 2 => { m with both := !m.both }
  | 6 => { m with extent := (m.extent + 8) % 2 ^ 16 }
  | 7 => { m with extent := (m.extent + 16) % 2 ^ 16 }
  | _ => m

/-- The cases for quantifiers, src/tmc/tmc.cc:774-792. -/
def quantifier (env : TmcEnv) (m : Message) (size data : Nat) : Message :=
  match m.events.getLast? with
  | none => m
  | some last =>
    if (m.quantifiers.lookup (m.events.length - 1)).isNone ∧ (env.getEvent last).allowsQuantifier ∧
        getQuantifierSize (env.getEvent last).quantifierType = size then
      { m with quantifiers := m.quantifiers ++ [(m.events.length - 1, data)] }
    else m

/-- The `switch` over the fields, src/tmc/tmc.cc:711-811. -/
def field (env : TmcEnv) (m : Message) (f : Nat × Nat) : Message :=
  match f.1 with
  | 1 => m.control f.2
  | 3 => { m with speedLimit := some (f.2 * 5 % 2 ^ 16) }
  | 4 => m.quantifier env 5 f.2
  | 5 => m.quantifier env 8 f.2
  | 6 => { m with supplementary := m.supplementary ++ [f.2] }
  | 7 => { m with timeStarts := some f.2 }
  | 8 => { m with timeUntil := some f.2 }
  | 9 => { m with events := m.events ++ [f.2] }
  | 10 => { m with diversion := m.diversion ++ [f.2] }
  | _ => m

/-- `decodeMulti`, src/tmc/tmc.cc:689-812. -/
def decodeMulti (env : TmcEnv) (m : Message) : Message :=
  let p0 := m.parts.getD 0 {}
  if !p0.isReceived then m
  else
    let m := m.firstGroup env p0.data0 p0.data1
    if (m.parts.getD 1 {}).isReceived then (getFreeformFields m.parts).foldl (field env) m else m

/-- `clear`, src/tmc/tmc.cc:814-818. -/
def clear (m : Message) : Message :=
  { m with parts := m.parts.map fun p => { p with isReceived := false }, continuityIndex := 0 }

/-- `current_group` in `pushMulti`, src/tmc/tmc.cc:669-681. -/
def groupSlot (y : Word) : Nat :=
  if getBool y 15 then 0 else if getBool y 14 then 1 else 4 - getBits 2 y 12

/-- `is_last_group` in `pushMulti`, src/tmc/tmc.cc:669-681. -/
def isLastGroup (y : Word) : Bool := !getBool y 15 && getBits 2 y 12 == 0

/-- `pushMulti`, src/tmc/tmc.cc:659-687. The slot is at most 4, so that the access with `at` is
valid. -/
def pushMulti (env : TmcEnv) (m : Message) (x y z : Word) : Message :=
  let m := { m with continuityIndex := getBits 3 x 0 }
  let m := { m with parts := m.parts.set (groupSlot y) { isReceived := true, data0 := y, data1 := z } }
  if isLastGroup y then (m.decodeMulti env).clear else m

/-- `decrypt`, src/tmc/tmc.cc:878-885. `none`: the shift is undefined (the key comes from a file). -/
def decrypt (m : Message) (key : ServiceKey) : Option Message :=
  if !m.isEncrypted then some m
  else if key.xorstart.toNat < 32 ∧ key.xorval.toNat * 2 ^ key.xorstart.toNat < 2 ^ 32 then
    some { m with
      location := rotl16 (m.encryptedLocation ^^^
        BitVec.ofNat 16 (key.xorval.toNat * 2 ^ key.xorstart.toNat)) (key.nrot.setWidth 32)
      isEncrypted := false }
  else none

/-- The description of one event, src/tmc/tmc.cc:831-841. -/
def eventSentence (env : TmcEnv) (m : Message) (i code : Nat) : List Str :=
  match env.events code with
  | none => []
  | some e =>
    match m.quantifiers.lookup i with
    | some q => [ucfirst (getDescriptionWithQuantifier e q)]
    | none => [ucfirst e.description]

/-- `sentences` in `json`, src/tmc/tmc.cc:829-848. -/
def sentences (env : TmcEnv) (m : Message) : List Str :=
  (m.events.zipIdx.flatMap fun (code, i) => m.eventSentence env i code) ++
  m.supplementary.flatMap fun code => ((env.supplementary code).map ucfirst).toList

/-- A member with a list of numbers, created by `push_back`, if the list is not empty. -/
def listMember (k : String) (l : List Nat) : List (String × J) :=
  if l = [] then [] else [(k, .arr (l.map J.nat))]

/-- The "extent" member, src/tmc/tmc.cc:866. -/
def extentString (m : Message) : Str :=
  (if m.negative then ascii "-" else ascii "+") ++ decimal m.extent

/-- `json`, src/tmc/tmc.cc:820-876; `none` for an empty value. -/
def json (env : TmcEnv) (m : Message) : Option (List (String × J)) :=
  if !m.isComplete || m.events.isEmpty then none
  else some (
    listMember "event_codes" m.events ++
    listMember "supplementary_codes" m.supplementary ++
    ((env.events (m.events.headD 0)).map fun e => ("update_class", J.nat e.updateClass)).toList ++
    (if m.sentences env = [] then []
     else [("description", .str (joinStr (ascii ". ") (m.sentences env) ++ ascii "."))]) ++
    listMember "diversion_route" m.diversion ++
    (m.speedLimit.map fun v => ("speed_limit", J.str (decimal v ++ ascii " km/h"))).toList ++
    (if m.wasEncrypted then [("encrypted_location", .nat m.encryptedLocation.toNat)] else []) ++
    (if !m.isEncrypted then [("location", .nat m.location.toNat)] else []) ++
    [("direction", .str (if m.both then ascii "both" else ascii "single")),
     ("extent", .str m.extentString)] ++
    (m.timeStarts.map fun v => ("starts", J.str (getTimeString v))).toList ++
    (m.timeUntil.map fun v => ("until", J.str (getTimeString v))).toList ++
    [("urgency", .str (getUrgencyString m.urgency))])

end Message

/-- `class TMCService`, src/tmc/tmc.hh:170-188. `other_network_freqs_` is empty between calls. -/
structure TMCService where
  isInitialized : Bool := false
  isEncrypted : Bool := false
  hasEncid : Bool := false
  ltn : Nat := 0
  sid : Nat := 0
  encid : Nat := 0
  ltcc : Nat := 0
  message : Message := Message.new false
  ps : RDSString := RDSString.new 8
  deriving DecidableEq, Repr

/-- `"0x" + hex`, `getPrefixedHexString<4>`, src/util.hh:91-93. -/
def prefixedHex4 (v : Nat) : Str := ascii "0x" ++ hexPadded 4 v

namespace TMCService

/-- `gap_values`, src/tmc/tmc.cc:490. -/
def gapValues : List Nat := [3, 5, 8, 11]

/-- `receiveSystemGroup`, src/tmc/tmc.cc:459-504. `none`: a table lookup out of range. -/
def receiveSystemGroup (s : TMCService) (message : Word) : Option (TMCService × List JOp) :=
  let info (k : String) := ["tmc", "system_info", k]
  match getBits 2 message 14 with
  | 0 =>
    let ltn := getBits 6 message 6
    let encrypted := ltn == 0
    let s := { s with isInitialized := true, isEncrypted := encrypted
                      ltn := if encrypted then s.ltn else ltn }
    some (s, [.set (info "is_encrypted") (.bool encrypted)] ++
      (if encrypted then [] else [.set (info "location_table") (.nat ltn)]) ++
      [.set (info "is_on_alt_freqs") (.bool (getBool message 5))] ++
      (getScopeStrings (BitVec.ofNat 16 (getBits 4 message 0))).map fun t => .push (info "scope") (.str t))
  | 1 => do
    let gap ← gapValues[getBits 2 message 12]?
    let ltcc := getBits 4 message 0
    let s := { s with sid := getBits 6 message 6, ltcc := ltcc }
    pure (s, [.set (info "service_id") (.nat s.sid), .set (info "gap") (.nat gap)] ++
      (if ltcc > 0 then [.set (info "ltcc") (.nat ltcc)] else []))
  | 2 => do
    let ltecc := (getUint8 message 0).toNat
    if ltecc > 0 then
      if s.ltcc > 0 then
        let country ← getCountryString s.ltcc ltecc
        pure (s, [.set (info "ltecc") (.nat ltecc), .set (info "country") (.str country)])
      else pure (s, [.set (info "ltecc") (.nat ltecc)])
    else pure (s, [])
  | _ => some (s, [])

/-- Tuning information, src/tmc/tmc.cc:526-592. -/
def tuningInformation (env : TmcEnv) (s : TMCService) (x y z : Word) :
    Option (TMCService × List JOp) :=
  let other (k : String) := ["tmc", "other_network", k]
  match getBits 4 x 0 with
  | 6 => do
    let l ← ({} : AltFreqList).insert (getUint8 y 8).toNat
    let l ← l.insert (getUint8 y 0).toNat
    let raw ← l.getRawList
    pure (s, [.set (other "pi") (.str (prefixedHex4 z.toNat))] ++
      raw.map fun f => .push (other "frequencies_khz") (.int f))
  | 8 =>
    if y = 0 ∨ z = 0 ∨ y = z then some (s, [.set (other "pi") (.str (prefixedHex4 y.toNat))])
    else some (s, [.push (other "pi_codes") (.str (prefixedHex4 y.toNat)),
                   .push (other "pi_codes") (.str (prefixedHex4 z.toNat))])
  | 9 =>
    some (s, [.set (other "pi") (.str (prefixedHex4 z.toNat)),
              .set (other "service_id") (.nat (getBits 6 y 0)),
              .set (other "location_table") (.nat (getBits 6 y 10))] ++
      (getScopeStrings (BitVec.ofNat 16 (getBits 4 y 6))).map fun t => .push (other "scope") (.str t))
  | variant =>
    if variant = 4 ∨ variant = 5 then
      let pos := 4 * (variant - 4)
      let ps := s.ps.set env.ucs2 pos (getUint8 y 8)
      let ps := ps.set env.ucs2 (pos + 1) (getUint8 y 0)
      let ps := ps.set env.ucs2 (pos + 2) (getUint8 z 8)
      let ps := ps.set env.ucs2 (pos + 3) (getUint8 z 0)
      some ({ s with ps := ps },
        if ps.isComplete then [.set ["tmc", "service_provider"] (.str ps.lastCompleteString)] else [])
    else
      some (s, [.push ["debug"] (.str (ascii "TODO: TMC tuning info variant " ++ decimal variant))])

/-- Decryption, if a key is known, and output of a complete message, src/tmc/tmc.cc:604-610 and
621-628. -/
def printMessage (env : TmcEnv) (s : TMCService) (m : Message) : Option (List JOp) := do
  let m ← if s.isEncrypted then
      match env.serviceKey s.encid with
      | some key => m.decrypt key
      | none => some m
    else some m
  match m.json env with
  | none => pure []
  | some members =>
    let extent : Int := if m.negative then -(m.extent : Int) else m.extent
    pure (.set ["tmc", "message"] (.obj members) ::
      decodeLocation (env.locations s.ltn) s.ltn (if m.isEncrypted then none else some m.location) extent)

/-- `receiveUserGroup`, src/tmc/tmc.cc:506-632. -/
def receiveUserGroup (env : TmcEnv) (s : TMCService) (x y z : Word) :
    Option (TMCService × List JOp) :=
  let info (k : String) := ["tmc", "system_info", k]
  if !s.isInitialized then some (s, [])
  else if getBits 5 x 0 = 0 then
    let s := { s with sid := getBits 6 y 5, encid := getBits 5 y 0, ltn := getBits 6 z 10
                      hasEncid := true }
    some (s, [.set (info "service_id") (.nat s.sid), .set (info "encryption_id") (.nat s.encid),
              .set (info "location_table") (.nat s.ltn)])
  else if getBool x 4 then s.tuningInformation env x y z
  else if s.isEncrypted && !s.hasEncid then some (s, [])
  else if getBool x 3 then do
    let out ← s.printMessage env ((Message.new s.isEncrypted).pushSingle env y z)
    pure (s, out)
  else
    let m := if getBits 3 x 0 ≠ s.message.continuityIndex then Message.new s.isEncrypted else s.message
    let m := m.pushMulti env x y z
    if m.isComplete then do
      let out ← s.printMessage env m
      pure ({ s with message := Message.new s.isEncrypted }, out)
    else some ({ s with message := m }, [])

end TMCService

end Redsea
