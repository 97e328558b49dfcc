import Verif.Model.Options
import Verif.Model.RadioText
import Verif.Model.Rft
import Verif.Model.Tmc

/-
A station: src/groups.hh:123-187 and src/groups.cc:236-1309.

Every decoder returns the new state of the station and the operations that it performs on the JSON
object, in the order of the code. `none` stands for an invalid access or an exception that nothing
catches.

Members that are written but never read are omitted: `pin_`, `tmc_id_`, `linkage_la_`,
`clock_time_`, `has_country_`, `ert_uses_chartable_e3_`, `pager_`, and `ecc_` and `cc_`, which are
only used in the function that sets them. Maps are functions.
-/

namespace Redsea

/-- What the decoder gets from libraries and files. -/
structure Env where
  tmc : TmcEnv
  /-- `getTimePointString` with the chosen format, src/util.cc:40-67 -/
  formatTime : Int → Str
  /-- `what()` of an exception caught in a decoder -/
  what : Str

/-- The `iconv` library. -/
def Env.ucs2 (env : Env) : Ucs2Decoder := env.tmc.ucs2

/-- `class PTYName`, src/text/radiotext.hh:66-82. -/
structure PTYName where
  text : RDSString := RDSString.new 8
  ab : Bool := false
  deriving DecidableEq, Repr

/-- `class Station`, src/groups.hh:123-187. -/
structure Station where
  pi : Word := 0
  hasPi : Bool := false
  options : Options
  whichChannel : Nat
  ps : RDSString := RDSString.new 8
  longPs : RDSString := (RDSString.new 32).setEncoding .utf8
  radiotext : RadioText := {}
  ert : RadioText := {}
  ptyname : PTYName := {}
  fullTdc : RDSString := RDSString.new 128
  odaForGroup : GroupType → Option Word := fun _ => none
  odaForPipe : Nat → Option Word := fun _ => none
  eonPs : Word → Option RDSString := fun _ => none
  eonAf : Word → AltFreqList := fun _ => {}
  lastGroupHadPi : Bool := false
  altFreq : AltFreqList := {}
  tmc : TMCService := {}
  rftFiles : List RFTFile := List.replicate 16 {}

/-- A map with one value replaced. -/
def mapSet {α β : Type} [DecidableEq α] (f : α → β) (a : α) (b : β) : α → β :=
  fun x => if x = a then b else f x

/-- `GroupType::str`, src/groups.cc:67-71. -/
def GroupType.str (t : GroupType) : Str :=
  match t.version with
  | .C => ascii "C"
  | .A => decimal t.number ++ ascii "A"
  | .B => decimal t.number ++ ascii "B"

/-- `json_["debug"].push_back(s)`. -/
def debugOp (s : Str) : JOp := .push ["debug"] (.str s)

namespace Station

/-- Constructor for an unknown PI, src/groups.cc:236-237. -/
def unknown (options : Options) (whichChannel : Nat) : Station :=
  { options := options, whichChannel := whichChannel }

/-- Constructor for a known PI, src/groups.cc:239-246. -/
def withPI (options : Options) (whichChannel : Nat) (pi : Word) : Station :=
  { unknown options whichChannel with pi := pi, hasPi := true }

/-- The programme type name by standard, src/groups.cc:400 and others. -/
def ptyString (st : Station) (pty : Nat) : Option Str :=
  if st.options.rbds then getPTYNameStringRBDS pty else getPTYNameString pty

/-- `decodeBasics`, src/groups.cc:390-411. -/
def decodeBasics (st : Station) (g : Group) : Option (List JOp) :=
  if g.type.version = .C then some [.set ["group"] (.str (ascii "C"))]
  else if g.has .b2 then do
    let pty ← st.ptyString (getBits 5 (g.get .b2) 5)
    pure ((if g.hasType then [.set ["group"] (.str g.type.str)] else []) ++
      [.set ["tp"] (.bool (getBool (g.get .b2) 10)), .set ["prog_type"] (.str pty)])
  else if g.type.number = 15 ∧ g.type.version = .B ∧ g.has .b4 then do
    let pty ← st.ptyString (getBits 5 (g.get .b4) 5)
    pure [.set ["group"] (.str g.type.str), .set ["tp"] (.bool (getBool (g.get .b4) 10)),
          .set ["prog_type"] (.str pty)]
  else some []

/-- `getDICodeString` as a member name, src/tables.cc:267-272. -/
def diKey (di : Nat) : Option String := if di < 4 then diCodes[di]? else some "unknown"

/-- The operations for alternative frequencies in `decodeType0`, src/groups.cc:473-491. -/
def afOps : AfOut → List JOp
  | .nothing => []
  | .methodA l => l.map fun f => .push ["alt_frequencies_a"] (.int f)
  | .methodB tuned same regional =>
    .set ["alt_frequencies_b", "tuned_frequency"] (.int tuned) ::
      ((same.map fun f => .push ["alt_frequencies_b", "same_programme"] (.int f)) ++
        regional.map fun f => .push ["alt_frequencies_b", "regional_variants"] (.int f))
  | .partialList l => l.map fun f => .push ["partial_alt_frequencies"] (.int f)

/-- The programme service name in `decodeType0`, src/groups.cc:494-512. -/
def decodePs (env : Env) (st : Station) (g : Group) : Station × List JOp :=
  if !g.has .b4 then (st, [])
  else
    let ps := st.ps.set2 env.ucs2 (getBits 2 (g.get .b2) 0 * 2) (getUint8 (g.get .b4) 8)
      (getUint8 (g.get .b4) 0)
    ({ st with ps := ps },
      if ps.isComplete then [.set ["ps"] (.str ps.lastCompleteString)]
      else if st.options.showPartial then
        [((ps.str env.ucs2).map fun t => JOp.set ["partial_ps"] (.str t)).getD (debugOp env.what)]
      else [])

/-- `decodeType0`, src/groups.cc:414-513. -/
def decodeType0 (env : Env) (st : Station) (g : Group) : Option (Station × List JOp) := do
  let key ← diKey (getBits 2 (g.get .b2) 0)
  let flags := [JOp.set ["di", key] (.bool (getBool (g.get .b2) 2)),
    .set ["ta"] (.bool (getBool (g.get .b2) 4)), .set ["is_music"] (.bool (getBool (g.get .b2) 3))]
  if !g.has .b3 then
    let af ← afMissing st.altFreq
    pure ({ st with altFreq := af }, flags)
  else if g.type.version = .A then
    let r ← afReceive st.options.showPartial st.altFreq (g.get .b3)
    let p := decodePs env { st with altFreq := r.1 } g
    pure (p.1, flags ++ afOps r.2 ++ p.2)
  else
    let p := decodePs env st g
    pure (p.1, flags ++ p.2)

/-- Operations of `decodePIN` on an object, src/groups.cc:53-56. -/
def pinOps (pre : List String) (p : PinOut) : List JOp :=
  [.set (pre ++ ["prog_item_number"]) (.nat p.number.toNat),
   .set (pre ++ ["prog_item_started", "day"]) (.nat p.day),
   .set (pre ++ ["prog_item_started", "time"]) (.str p.time)]

/-- The slow labelling codes in `decodeType1`, src/groups.cc:533-586. -/
def slowLabel (st : Station) (g : Group) : Option (List JOp) :=
  match getBits 3 (g.get .b3) 12 with
  | 0 =>
    let ecc := (getUint8 (g.get .b3) 0).toNat
    if ecc ≠ 0 then do
      let country ← getCountryString (getBits 4 st.pi 12) ecc
      pure [.set ["country"] (.str country)]
    else some []
  | 1 => some [.set ["tmc_id"] (.nat (getBits 12 (g.get .b3) 0))]
  | 2 => some []
  | 3 => do
    let language ← getLanguageString (getUint8 (g.get .b3) 0).toNat
    pure [.set ["language"] (.str language)]
  | 6 => some [.set ["slc_broadcaster_bits"]
      (.str (ascii "0x" ++ hexPadded 3 (getBits 11 (g.get .b3) 0)))]
  | 7 => some [.set ["ews"] (.nat (getBits 12 (g.get .b3) 0))]
  | variant => some [debugOp (ascii "TODO: SLC variant " ++ decimal variant)]

/-- `decodeType1`, src/groups.cc:516-587. The state is not changed (see above). -/
def decodeType1 (st : Station) (g : Group) : Option (List JOp) :=
  if !(g.has .b3 && g.has .b4) then some []
  else
    let pin := g.get .b4
    let pinPart :=
      if pin ≠ 0 then ((decodePIN pin).map (pinOps [])).getD [debugOp (ascii "invalid PIN")]
      else []
    if g.type.version = .A then do
      let label ← st.slowLabel g
      pure (pinPart ++ [.set ["has_linkage"] (.bool (getBool (g.get .b3) 15))] ++ label)
    else some pinPart

/-- The operations of `decodeType2`, src/groups.cc:598-674. -/
def rtOps (env : Env) (out : RTOut) : List JOp :=
  (out.rtAb.map fun ab => JOp.set ["rt_ab"] (.str (ascii (if ab then "B" else "A")))).toList ++
  (out.radiotext.map fun t => JOp.set ["radiotext"] (.str t)).toList ++
  (out.partialRadiotext.map fun t => JOp.set ["partial_radiotext"] (.str t)).toList ++
  (if out.debug then [debugOp env.what] else [])

/-- `decodeType3A`, src/groups.cc:677-733. (It is only called for type 3A.) -/
def decodeType3A (st : Station) (g : Group) : Option (Station × List JOp) :=
  if !(g.has .b3 && g.has .b4) then some (st, [])
  else if g.type.version ≠ .A then some (st, [])
  else
    let t := GroupType.ofCode (getBits 5 (g.get .b2) 0)
    let message := g.get .b3
    let app := g.get .b4
    let st := { st with odaForGroup := mapSet st.odaForGroup t (some app) }
    let ops := [JOp.set ["open_data_app", "oda_group"] (.str t.str),
      .set ["open_data_app", "app_name"] (.str (getAppNameString app.toNat))]
    if app = 0x0093 then some (st, ops)
    else if app = 0x4BD7 then some (st, ops)
    else if app = 0x4BD8 then some (st, ops)
    else if app = 0x6552 then
      some ({ st with
        ert := { st.ert with
          text := st.ert.text.setEncoding (if getBool message 0 then .utf8 else .ucs2) } }, ops)
    else if app = 0xCD46 ∨ app = 0xCD47 then do
      let r ← st.tmc.receiveSystemGroup message
      pure ({ st with tmc := r.1 }, ops ++ r.2)
    else
      some (st, ops ++ [debugOp (ascii "TODO: Unimplemented ODA app " ++ hexPadded 4 app.toNat),
        .set ["open_data_app", "message"] (.nat message.toNat)])

/-- The operations of `decodeType4A`, src/groups.cc:736-803. -/
def clockOps : ClockOut → List JOp
  | .nothing => []
  | .invalid => [debugOp (ascii "invalid date/time")]
  | .time t => [.set ["clock_time"] (.str t)]

/-- Bytes in hex, separated by spaces (src/groups.cc:816-818, 829-833, 842). -/
def hexBytes (l : List Byte) : Str := joinStr (ascii " ") (l.map fun b => hexPadded 2 b.toNat)

/-- `decodeType5`, src/groups.cc:806-847. -/
def decodeType5 (env : Env) (st : Station) (g : Group) : Option (Station × List JOp) :=
  let address := getBits 5 (g.get .b2) 0
  let tdc (k : String) := ["transparent_data", k]
  let addressOp := JOp.set (tdc "address") (.nat address)
  let d2 := getUint8 (g.get .b4) 8
  let d3 := getUint8 (g.get .b4) 0
  if g.type.version = .A then do
    let d0 := getUint8 (g.get .b3) 8
    let d1 := getUint8 (g.get .b3) 0
    let text := ((RDSString.new 4).set2 env.ucs2 0 d0 d1).set2 env.ucs2 2 d2 d3
    let full := (st.fullTdc.set2 env.ucs2 (address * 4) d0 d1).set2 env.ucs2 (address * 4 + 2) d2 d3
    let fullOps ←
      if full.isComplete then
        (full.str env.ucs2).map fun t =>
          [JOp.set (tdc "full_text") (.str t), .set (tdc "full_raw") (.str (hexBytes full.getData))]
      else some []
    let asText ← text.str env.ucs2
    pure ({ st with fullTdc := full },
      [addressOp, .set (tdc "raw") (.str (hexBytes [d0, d1, d2, d3]))] ++ fullOps ++
        [.set (tdc "as_text") (.str asText)])
  else do
    let text := (RDSString.new 2).set2 env.ucs2 0 d2 d3
    let asText ← text.str env.ucs2
    pure (st, [addressOp, .set (tdc "raw") (.str (hexBytes [d2, d3])),
      .set (tdc "as_text") (.str asText)])

/-- `decodeType6`, src/groups.cc:850-865. -/
def decodeType6 (g : Group) : List JOp :=
  let op (v : Nat) := JOp.push ["in_house_data"] (.nat v)
  op (getBits 5 (g.get .b2) 0) ::
    if g.type.version = .A then
      if g.has .b3 then
        op (getBits 16 (g.get .b3) 0) :: if g.has .b4 then [op (getBits 16 (g.get .b4) 0)] else []
      else []
    else if g.has .b4 then [op (getBits 16 (g.get .b4) 0)]
    else []

/-- `decodeType7A`, src/groups.cc:868-871, and `decodeType9A`, src/groups.cc:874-877. -/
def todoOps (s : String) : List JOp := [debugOp (ascii s)]

/-- `decodeType10A`, src/groups.cc:880-896. -/
def decodeType10A (env : Env) (st : Station) (g : Group) : Station × List JOp :=
  if !g.has .b3 || !g.has .b4 then (st, [])
  else
    let segment := getBits 1 (g.get .b2) 0
    let ab := getBool (g.get .b2) 4
    let text := if st.ptyname.ab != ab then st.ptyname.text.clear else st.ptyname.text
    let text := text.set2 env.ucs2 (segment * 4) (getUint8 (g.get .b3) 8) (getUint8 (g.get .b3) 0)
    let text :=
      text.set2 env.ucs2 (segment * 4 + 2) (getUint8 (g.get .b4) 8) (getUint8 (g.get .b4) 0)
    ({ st with ptyname := { text := text, ab := ab } },
      if text.isComplete then [.set ["pty_name"] (.str text.lastCompleteString)] else [])

/-- The variants of `decodeType14` for a 14A group, src/groups.cc:914-992. -/
def eonVariant (env : Env) (st : Station) (g : Group) : Option (Station × List JOp) :=
  let onPi := g.get .b4
  let block3 := g.get .b3
  let variant := getBits 4 (g.get .b2) 0
  let other (k : String) := ["other_network", k]
  if variant ≤ 3 then
    let text := (st.eonPs onPi).getD (RDSString.new 8)
    let text := text.set env.ucs2 (2 * variant) (getUint8 block3 8)
    let text := text.set env.ucs2 (2 * variant + 1) (getUint8 block3 0)
    some ({ st with eonPs := mapSet st.eonPs onPi (some text) },
      if text.isComplete then [.set (other "ps") (.str text.lastCompleteString)] else [])
  else if variant = 4 then do
    let l ← (st.eonAf onPi).insert (getUint8 block3 8).toNat
    let l ← l.insert (getUint8 block3 0).toNat
    if l.isComplete then
      let raw ← l.getRawList
      pure ({ st with eonAf := mapSet st.eonAf onPi l.clear },
        raw.map fun f => .push (other "alt_frequencies") (.int f))
    else pure ({ st with eonAf := mapSet st.eonAf onPi l }, [])
  else if variant ≤ 9 then
    let f : CarrierFrequency := { code := (getUint8 block3 0).toNat }
    some (st, if f.isValid then [.set (other "kilohertz") (.int f.kHz)] else [])
  else if variant = 12 then
    let hasLinkage := getBool block3 15
    let lsn := getBits 12 block3 0
    some (st, .set (other "has_linkage") (.bool hasLinkage) ::
      if hasLinkage ∧ lsn ≠ 0 then [.set (other "linkage_set") (.nat lsn)] else [])
  else if variant = 13 then do
    let pty ← st.ptyString (getBits 5 block3 11)
    pure (st, [.set (other "prog_type") (.str pty), .set (other "ta") (.bool (getBool block3 0))])
  else if variant = 14 then
    some (st, if block3 ≠ 0 then ((decodePIN block3).map (pinOps ["other_network"])).getD [] else [])
  else if variant = 15 then
    some (st, [.set (other "broadcaster_data") (.str (hexPadded 4 block3.toNat))])
  else some (st, [debugOp (ascii "TODO: EON variant " ++ decimal variant)])

/-- `decodeType14`, src/groups.cc:899-993. -/
def decodeType14 (env : Env) (st : Station) (g : Group) : Option (Station × List JOp) :=
  if !g.has .b4 then some (st, [])
  else
    let ops := [JOp.set ["other_network", "pi"] (.str (prefixedHex4 (g.get .b4).toNat)),
      .set ["other_network", "tp"] (.bool (getBool (g.get .b2) 4))]
    if g.type.version = .B then
      some (st, ops ++ [.set ["other_network", "ta"] (.bool (getBool (g.get .b2) 3))])
    else if !g.has .b3 then some (st, ops)
    else do
      let r ← st.eonVariant env g
      pure (r.1, ops ++ r.2)

/-- `decodeType15A`, src/groups.cc:997-1020. -/
def decodeType15A (env : Env) (st : Station) (g : Group) : Station × List JOp :=
  let segment := getBits 3 (g.get .b2) 0
  let text := st.longPs
  let text :=
    if g.has .b3 then
      text.set2 env.ucs2 (segment * 4) (getUint8 (g.get .b3) 8) (getUint8 (g.get .b3) 0)
    else text
  let text :=
    if g.has .b4 then
      text.set2 env.ucs2 (segment * 4 + 2) (getUint8 (g.get .b4) 8) (getUint8 (g.get .b4) 0)
    else text
  ({ st with longPs := text },
    if (g.has .b3 || g.has .b4) && text.isComplete then
      [.set ["long_ps"] (.str (rtrim text.lastCompleteString))]
    else if st.options.showPartial then
      [((text.str env.ucs2).map fun t => JOp.set ["partial_long_ps"] (.str t)).getD
        (debugOp env.what)]
    else [])

/-- `decodeType15B`, src/groups.cc:1023-1031. -/
def decodeType15B (g : Group) : Option (List JOp) := do
  let n := if g.has .b2 then BlockNum.b2 else .b4
  let key ← diKey (getBits 2 (g.get .b2) 0)
  pure [.set ["di", key] (.bool (getBool (g.get .b2) 2)), .set ["ta"] (.bool (getBool (g.get n) 4)),
        .set ["is_music"] (.bool (getBool (g.get n) 3))]

/-- A tag in `parseRadioTextPlus`, src/groups.cc:1237-1246. -/
def rtPlusTagOps (key : String) (text : Str) (contentType start length : Nat) :
    Option (List JOp) :=
  let t := substringChars text start length
  if t.length > 0 ∧ contentType ≠ 0 then do
    let name ← getRTPlusContentTypeString contentType
    pure [.push [key, "tags"] (.obj [("content-type", .str name), ("data", .str (rtrim t))])]
  else some []

/-- `parseRadioTextPlus`, src/groups.cc:1209-1247; `key` is the member given by the caller
(src/groups.cc:1051 and 1054). -/
def parseRadioTextPlus (key : String) (rt : RadioText) (g : Group) :
    Option (RadioText × List JOp) := do
  let toggle := getBool (g.get .b2) 4
  let running := getBool (g.get .b2) 3
  let rt :=
    if toggle != rt.plus.toggle || running != rt.plus.itemRunning then
      { rt with text := rt.text.clear, plus := { toggle := toggle, itemRunning := running } }
    else rt
  let ops := [JOp.touch [key], .set [key, "item_running"] (.bool running),
    .set [key, "item_toggle"] (.nat (if toggle then 1 else 0))]
  let text := rt.text.lastCompleteString
  let tag1 ←
    if g.has .b3 then
      rtPlusTagOps key text (getBits2 6 (g.get .b2) (g.get .b3) 13) (getBits 6 (g.get .b3) 7)
        (getBits 6 (g.get .b3) 1 + 1)
    else some []
  let tag2 ←
    if g.has .b3 && g.has .b4 then
      rtPlusTagOps key text (getBits2 6 (g.get .b3) (g.get .b4) 11) (getBits 6 (g.get .b4) 5)
        (getBits 5 (g.get .b4) 0 + 1)
    else some []
  pure (rt, ops ++ tag1 ++ tag2)

/-- `parseEnhancedRT`, src/groups.cc:1250-1262. -/
def parseEnhancedRT (env : Env) (rt : RadioText) (g : Group) : RadioText × List JOp :=
  let pos := getBits 5 (g.get .b2) 0 * 4
  let rt := rt.update env.ucs2 pos (getUint8 (g.get .b3) 8) (getUint8 (g.get .b3) 0)
  let rt :=
    if g.has .b4 then
      rt.update env.ucs2 (pos + 2) (getUint8 (g.get .b4) 8) (getUint8 (g.get .b4) 0)
    else rt
  (rt, if rt.text.isComplete then
      [.set ["enhanced_radiotext"] (.str (rtrim rt.text.lastCompleteString))]
    else [])

/-- `modes` in `parseDAB`, src/groups.cc:1276. -/
def dabModes : List String := ["unspecified", "I", "II or III", "IV"]

/-- `dab_channels` in `parseDAB`, src/groups.cc:1283-1300. -/
def dabChannels : List (Nat × String) := [
  (174928, "5A"), (176640, "5B"), (178352, "5C"), (180064, "5D"),
  (181936, "6A"), (183648, "6B"), (185360, "6C"), (187072, "6D"),
  (188928, "7A"), (190640, "7B"), (192352, "7C"), (194064, "7D"),
  (195936, "8A"), (197648, "8B"), (199360, "8C"), (201072, "8D"),
  (202928, "9A"), (204640, "9B"), (206352, "9C"), (208064, "9D"),
  (209936, "10A"), (211648, "10B"), (213360, "10C"), (215072, "10D"),
  (216928, "11A"), (218640, "11B"), (220352, "11C"), (222064, "11D"),
  (223936, "12A"), (225648, "12B"), (227360, "12C"), (229072, "12D"),
  (230784, "13A"), (232496, "13B"), (234208, "13C"), (235776, "13D"),
  (237488, "13E"), (239200, "13F"), (1452960, "LA"), (1454672, "LB"),
  (1456384, "LC"), (1458096, "LD"), (1459808, "LE"), (1461520, "LF"),
  (1463232, "LG"), (1464944, "LH"), (1466656, "LI"), (1468368, "LJ"),
  (1470080, "LK"), (1471792, "LL"), (1473504, "LM"), (1475216, "LN"),
  (1476928, "LO"), (1478640, "LP"), (1480352, "LQ"), (1482064, "LR"),
  (1483776, "LS"), (1485488, "LT"), (1487200, "LU"), (1488912, "LV"),
  (1490624, "LW")]

/-- `parseDAB`, src/groups.cc:1265-1309. -/
def parseDAB (g : Group) : Option (List JOp) :=
  if getBool (g.get .b2) 4 then some [debugOp (ascii "TODO: DAB service table")]
  else do
    let mode ← dabModes[getBits 2 (g.get .b2) 2]?
    let freq := 16 * getBits2 18 (g.get .b2) (g.get .b3) 0
    pure ([.set ["dab", "mode"] (.str (ascii mode)), .set ["dab", "kilohertz"] (.nat freq)] ++
      ((dabChannels.lookup freq).map fun c => JOp.set ["dab", "channel"] (.str (ascii c))).toList ++
      [.set ["dab", "ensemble_id"] (.str (prefixedHex4 (g.get .b4).toNat))])

/-- The raw data of an unknown ODA group, src/groups.cc:1036-1039 and 1071-1074. -/
def odaRaw (g : Group) : Str :=
  hexPadded 2 (getBits 5 (g.get .b2) 0) ++ ascii " " ++
    (if g.has .b3 then hexPadded 4 (g.get .b3).toNat else ascii "----") ++ ascii " " ++
    (if g.has .b4 then hexPadded 4 (g.get .b4).toNat else ascii "----")

/-- A TMC group, src/groups.cc:354-357 and 1060-1065. -/
def decodeTmc (env : Env) (st : Station) (g : Group) : Option (Station × List JOp) :=
  if g.has .b2 && g.has .b3 && g.has .b4 then do
    let r ← st.tmc.receiveUserGroup env.tmc (BitVec.ofNat 16 (getBits 5 (g.get .b2) 0)) (g.get .b3)
      (g.get .b4)
    pure ({ st with tmc := r.1 }, r.2)
  else some (st, [])

/-- `decodeODAGroup` for an application, src/groups.cc:1043-1075. -/
def decodeODAApp (env : Env) (st : Station) (g : Group) (app : Word) :
    Option (Station × List JOp) :=
  if app = 0x0093 then (parseDAB g).map fun ops => (st, ops)
  else if app = 0x4BD7 then
    (parseRadioTextPlus "radiotext_plus" st.radiotext g).map fun r =>
      ({ st with radiotext := r.1 }, r.2)
  else if app = 0x4BD8 then
    (parseRadioTextPlus "ert_plus" st.ert g).map fun r => ({ st with ert := r.1 }, r.2)
  else if app = 0x6552 then
    let r := parseEnhancedRT env st.ert g
    some ({ st with ert := r.1 }, r.2)
  else if app = 0xCD46 ∨ app = 0xCD47 then st.decodeTmc env g
  else
    some (st, [.set ["unknown_oda", "app_id"] (.str (hexPadded 4 app.toNat)),
      .set ["unknown_oda", "app_name"] (.str (getAppNameString app.toNat)),
      .set ["unknown_oda", "raw_data"] (.str (odaRaw g))])

/-- `decodeODAGroup`, src/groups.cc:1034-1075. -/
def decodeODAGroup (env : Env) (st : Station) (g : Group) : Option (Station × List JOp) :=
  match st.odaForGroup g.type with
  | none => some (st, [.set ["unknown_oda", "raw_data"] (.str (odaRaw g))])
  | some app => st.decodeODAApp env g app

/-- The bytes of words as an array of numbers. -/
def byteArray (l : List Byte) : J := .arr (l.map fun b => .nat b.toNat)

/-- The 5 bytes of file data in a group, src/groups.cc:1101-1104. -/
def segmentData (g : Group) : J :=
  byteArray [getUint8 (g.get .b2) 0, getUint8 (g.get .b3) 8, getUint8 (g.get .b3) 0,
    getUint8 (g.get .b4) 8, getUint8 (g.get .b4) 0]

/-- The RFT variants of an assignment group, src/groups.cc:1140-1190. The effect on the files is
in `decodeCRft`. -/
def rftInfoOps (g : Group) : List JOp :=
  let b3 := g.get .b3
  let b4 := g.get .b4
  let variant := getBits 4 b3 12
  let info (k : String) := ["rft", "file_info", k]
  let crcInfo (k : String) := ["rft", "crc_info", k]
  if variant = 0 then
    [.set (info "version") (.nat (getBits 3 b3 8)), .set (info "id") (.nat (getBits 6 b3 2)),
     .set (info "size") (.nat (getBits2 18 b3 b4 0)), .set (info "has_crc") (.bool (getBool b3 11))]
  else if variant = 1 then
    let mode := getBits 3 b3 9
    if mode = 0 then [.set (crcInfo "file_crc16") (.nat b4.toNat)]
    else if mode ≠ 6 then
      [.set (crcInfo "chunk_crc16") (.nat b4.toNat),
       .set (crcInfo "chunk_address") (.nat (getBits 9 b3 0)), .set (crcInfo "crc_mode") (.nat mode)]
    else [debugOp (ascii "TODO: CRC mode " ++ decimal mode)]
  else if variant ≥ 8 then
    [.set ["open_data_app", "non_file_oda_data"] (.str (hexPadded 7 (getBits2 28 b3 b4 0)))]
  else [.set ["open_data_app", "file_oda_data"] (.str (hexPadded 7 (getBits2 28 b3 b4 0)))]

/-- `decodeC`, src/groups.cc:1078-1206. -/
def decodeC (st : Station) (g : Group) : Option (Station × List JOp) :=
  if !g.has .b1 || !g.has .b2 || !g.has .b3 || !g.has .b4 then some (st, [])
  else do
    let b1 := g.get .b1
    let b2 := g.get .b2
    let b3 := g.get .b3
    let b4 := g.get .b4
    let fid := getBits 2 b1 14
    let fn := getBits 6 b1 8
    let app (k : String) := ["open_data_app", k]
    let data (k : String) := ["rft", "data", k]
    let files ← decodeCRft st.rftFiles b1 b2 b3 b4
    let st := { st with rftFiles := files.1 }
    if fid = 0 ∧ fn = 0 then pure (st, [debugOp (ascii "TODO: Tunnelling A & B over type C")])
    else if fid = 0 ∧ fn &&& 0b110000 = 0b100000 then
      let pipe := fn &&& 0b1111
      pure (st,
        ((st.odaForPipe pipe).map fun a =>
          JOp.set (app "app_name") (.str (getAppNameString a.toNat))).toList ++
        [.set (data "pipe") (.nat pipe), .set (data "toggle") (.nat (getBits 1 b1 7)),
         .set (data "byte_address") (.nat (getBits2 15 b1 b2 8 * 5)),
         .set (data "segment_data") (segmentData g)] ++
        (files.2.map fun f => JOp.set (data "file_contents") (.str f.2)).toList)
    else if fid = 1 then
      pure (st, [.set (app "channel") (.nat fn), .set (app "app_data")
        (byteArray [getUint8 b1 0, getUint8 b2 8, getUint8 b2 0, getUint8 b3 8, getUint8 b3 0,
          getUint8 b4 8, getUint8 b4 0])])
    else if fid = 2 ∧ fn = 0 then
      let method := getBits 2 b1 6 + 1
      let channel := getBits 6 b1 0
      if method = 1 then
        pure ({ st with odaForPipe := mapSet st.odaForPipe channel (some b2) },
          [.set (app "channel") (.nat channel), .set (app "oda_aid") (.nat b2.toNat),
           .set (app "app_name") (.str (getAppNameString b2.toNat))] ++
          (if channel < 16 then rftInfoOps g
           else [.set (app "app_data")
             (byteArray [getUint8 b3 8, getUint8 b3 0, getUint8 b4 8, getUint8 b4 0])]))
      else pure (st, [debugOp (ascii "TODO: assignment method " ++ decimal method)])
    else
      pure (st, [debugOp (ascii "TODO: FID " ++ decimal fid ++ ascii " FN " ++ decimal fn),
        .set (app "data")
          (byteArray [getUint8 b2 8, getUint8 b2 0, getUint8 b3 8, getUint8 b3 0, getUint8 b4 8,
            getUint8 b4 0])])

/-- Choice of the decoder by group type, src/groups.cc:319-369. -/
def dispatch (env : Env) (st : Station) (g : Group) : Option (Station × List JOp) :=
  let t := g.type
  if t.version = .C then st.decodeC g
  else if t.number = 0 then st.decodeType0 env g
  else if t.number = 1 then (st.decodeType1 g).map fun ops => (st, ops)
  else if t.number = 2 then
    let r := decodeType2 env.ucs2 st.options.showPartial st.radiotext g
    some ({ st with radiotext := r.1 }, rtOps env r.2)
  else if t.number = 3 ∧ t.version = .A then st.decodeType3A g
  else if t.number = 4 ∧ t.version = .A then some (st, clockOps (decodeType4A g))
  else if t.number = 10 ∧ t.version = .A then some (st.decodeType10A env g)
  else if t.number = 14 then st.decodeType14 env g
  else if t.number = 15 ∧ t.version = .B then (decodeType15B g).map fun ops => (st, ops)
  else if (st.odaForGroup t).isSome then st.decodeODAGroup env g
  else if t.number = 5 then st.decodeType5 env g
  else if t.number = 6 then some (st, decodeType6 g)
  else if t.number = 7 ∧ t.version = .A then some (st, todoOps "TODO: 7A")
  else if t.number = 8 ∧ t.version = .A then st.decodeTmc env g
  else if t.number = 9 ∧ t.version = .A then some (st, todoOps "TODO: 9A")
  else if t.number = 15 ∧ t.version = .A then some (st.decodeType15A env g)
  else st.decodeODAGroup env g

/-- The check for missed PI codes, src/groups.cc:260-272. `none`: the group is not decoded;
otherwise the station with the new `last_group_had_pi_`. -/
def checkPI (st : Station) (g : Group) : Station × Bool :=
  if g.type.version = .C then (st, true)
  else if g.hasPI then ({ st with lastGroupHadPi := true }, !g.isEmpty)
  else if st.lastGroupHadPi then ({ st with lastGroupHadPi := false }, !g.isEmpty)
  else (st, false)

/-- Rounding of the block error rate in percent, `std::lround` in src/groups.cc:292. `q` is the
number of wrong blocks out of 48. -/
def blerPercent (q : Nat) : Nat := (200 * q + 48) / 96

/-- "stream", src/groups.cc:256-258. -/
def streamOps (st : Station) (g : Group) : List JOp :=
  if st.options.streams then [.set ["stream"] (.nat g.dataStream)] else []

/-- "pi" and "callsign", src/groups.cc:274-285. -/
def piOps (st : Station) (g : Group) : List JOp :=
  if g.type.version = .C then []
  else JOp.set ["pi"] (.str (prefixedHex4 st.pi.toNat)) ::
    if st.options.rbds ∧ getCallsignFromPI st.pi ≠ [] then
      [.set [if st.pi &&& 0xF000 = 0x1000 then "callsign_uncertain" else "callsign"]
        (.str (getCallsignFromPI st.pi))]
    else []

/-- "rx_time", src/groups.cc:287-289. -/
def timeOps (env : Env) (st : Station) (g : Group) : List JOp :=
  if st.options.timestamp then [.set ["rx_time"] (.str (env.formatTime (g.time.getD 0)))] else []

/-- "bler", src/groups.cc:291-293. -/
def blerOps (g : Group) : List JOp :=
  (g.bler.map fun q => JOp.set ["bler"] (.nat (blerPercent q))).toList

/-- "channel", src/groups.cc:295-297. -/
def channelOps (st : Station) : List JOp :=
  if st.options.numChannels > 1 then [.set ["channel"] (.nat st.whichChannel)] else []

/-- "raw_data", src/groups.cc:299-303. -/
def rawOps (st : Station) (g : Group) : List JOp :=
  if st.options.showRaw then [.set ["raw_data"] (.str g.printHex)] else []

/-- The first part of `updateAndPrint`, src/groups.cc:256-303: members that do not depend on the
contents of the group. -/
def headerOps (env : Env) (st : Station) (g : Group) : List JOp :=
  st.streamOps g ++ st.piOps g ++ timeOps env st g ++ blerOps g ++ st.channelOps ++ st.rawOps g

/-- The operations on the JSON object in `updateAndPrint`, src/groups.cc:249-369, and the new
state. `[]` with `false`: nothing is printed. -/
def update (env : Env) (st : Station) (g : Group) : Option (Station × Option (List JOp)) :=
  if !st.hasPi then some (st, none)
  else
    let c := st.checkPI g
    if !c.2 then some (c.1, none)
    else do
      let basics ← c.1.decodeBasics g
      let r ← if g.hasType then c.1.dispatch env g else some (c.1, [])
      pure (r.1, some (headerOps env st g ++ basics ++ r.2))

end Station

/-- Strings are valid UTF-8 (the check of `nlohmann::json::dump`, RFC 3629). -/
def validUtf8 : Str → Bool
  | [] => true
  | b :: rest =>
    let b := b.toNat
    if b < 0x80 then validUtf8 rest
    else if 0xC2 ≤ b ∧ b ≤ 0xDF then
      match rest with
      | c1 :: rest => isContinuation c1 && validUtf8 rest
      | _ => false
    else if 0xE0 ≤ b ∧ b ≤ 0xEF then
      match rest with
      | c1 :: c2 :: rest =>
        isContinuation c1 && isContinuation c2 && (b != 0xE0 || decide (c1.toNat ≥ 0xA0)) &&
          (b != 0xED || decide (c1.toNat ≤ 0x9F)) && validUtf8 rest
      | _ => false
    else if 0xF0 ≤ b ∧ b ≤ 0xF4 then
      match rest with
      | c1 :: c2 :: c3 :: rest =>
        isContinuation c1 && isContinuation c2 && isContinuation c3 &&
          (b != 0xF0 || decide (c1.toNat ≥ 0x90)) && (b != 0xF4 || decide (c1.toNat ≤ 0x8F)) &&
          validUtf8 rest
      | _ => false
    else false

mutual
/-- All strings in a value (not member names, which are ASCII constants) are valid UTF-8. -/
def J.utf8 : J → Bool
  | .str s => validUtf8 s
  | .arr l => J.utf8List l
  | .obj l => J.utf8Members l
  | _ => true
/-- … for the elements of an array -/
def J.utf8List : List J → Bool
  | [] => true
  | j :: l => j.utf8 && J.utf8List l
/-- … for the members of an object -/
def J.utf8Members : List (String × J) → Bool
  | [] => true
  | m :: l => m.2.utf8 && J.utf8Members l
end

/-- A printed line. -/
inductive Line where
  /-- the JSON object -/
  | json (j : J)
  /-- `{"debug": …}` with the message of an exception thrown by `nlohmann::operator<<` -/
  | error
  /-- a line of hex output -/
  | hex (s : Str)

/-- Printing of the JSON object, src/groups.cc:371-382. -/
def printJson (j : J) : Line := if j.utf8 then .json j else .error

/-- `Station::updateAndPrint`, src/groups.cc:249-383. -/
def Station.updateAndPrint (env : Env) (st : Station) (g : Group) :
    Option (Station × Option Line) := do
  let r ← st.update env g
  match r.2 with
  | none => pure (r.1, none)
  | some ops =>
    let j ← J.build ops .null
    pure (r.1, some (printJson j))

end Redsea
