import Verif.Model.Csv
import Verif.Model.Tmc

/-
Data that the TMC decoder loads from tables: src/tmc/csv.cc, src/tmc/tmc.cc:298-377, src/tmc/locationdb.cc.
-/

namespace Redsea

/-- Bytes of a number, the least significant first. Only for `bytes!`. -/
def ofBytes : Nat → Nat → Str
  | 0, _ => []
  | len + 1, n => BitVec.ofNat 8 (n % 256) :: ofBytes len (n / 256)

/-- Byte strings from string literals, in a form that the kernel evaluates quickly. -/
macro "bytes! " s:str : term => do
  let l := s.getString.toUTF8.toList.map (·.toNat)
  let n := l.foldr (fun b n => b + 256 * n) 0
  `(ofBytes $(Lean.quote l.length) $(Lean.quote n))

/-- `std::isspace` in the C locale. -/
def isSpaceByte (c : Byte) : Bool := c == 0x20 || (0x09 ≤ c.toNat && c.toNat ≤ 0x0D)

/-- The value of a decimal digit. -/
def digitOf (c : Byte) : Option Nat :=
  if 0x30 ≤ c.toNat ∧ c.toNat ≤ 0x39 then some (c.toNat - 0x30) else none

/-- The digits at the beginning of a text. -/
def leadingDigits : Str → List Nat
  | [] => []
  | c :: s => match digitOf c with
    | some d => d :: leadingDigits s
    | none => []

/-- `std::stoi(s)`: white space, a sign and digits; what follows is ignored. `none` when it throws (no
digits, or outside the range of a 32-bit `int`). -/
def stoi (s : Str) : Option Int :=
  let s := s.dropWhile isSpaceByte
  let negative := s.head? = some 0x2D
  let s := if s.head? = some 0x2D ∨ s.head? = some 0x2B then s.tail else s
  let digits := leadingDigits s
  if digits = [] then none
  else
    let v : Int := (digits.foldl (fun v d => v * 10 + d) 0 : Nat)
    let v := if negative then -v else v
    if -2147483648 ≤ v ∧ v ≤ 2147483647 then some v else none

/-- `get_int`, src/tmc/csv.cc:45-47: `none` when it throws. -/
def CSVTable.getInt (t : CSVTable) (row : CSVRow) (title : Str) : Option Int :=
  (t.getString row title).bind stoi

/-- `get_uint16`, src/tmc/csv.cc:49-51. -/
def CSVTable.getUint16 (t : CSVTable) (row : CSVRow) (title : Str) : Option Word :=
  (t.getInt row title).map fun v => BitVec.ofInt 16 v

/-- `row_contains`, src/tmc/csv.cc:53-55. -/
def CSVTable.rowContains (t : CSVTable) (row : CSVRow) (title : Str) : Option Bool :=
  (t.getString row title).map fun s => !s.isEmpty

/-- A number that may be missing: `row_contains` and `get_int`, as in src/tmc/tmc.cc:312-313 and
src/tmc/locationdb.cc:96-98. -/
def optInt (t : CSVTable) (row : CSVRow) (title : Str) : Option Int := do
  let present ← t.rowContains row title
  if present then t.getInt row title else some 0

/-- `static_cast<QuantifierType>(qt)`, src/tmc/tmc.hh:45-59, for the values 0 to 12. -/
def quantifierTypes : List QuantifierType :=
  [.smallNumber, .number, .lessThanMetres, .percent, .uptoKmh, .uptoTime, .degreesCelsius, .time, .tonnes,
    .metres, .uptoMillimetres, .mhz, .khz]

/-- One row of the event list, src/tmc/tmc.cc:301-340: `none` if an exception is thrown, in which case
the row is skipped. `N` and `T` are only read (nature and duration of an event are never used). -/
def eventOfRow (t : CSVTable) (row : CSVRow) : Option (Word × Event) := do
  let code ← t.getUint16 row (ascii "Code")
  let description ← t.getString row (ascii "Description")
  let withQ ← t.getString row (ascii "Description with Q")
  let _ ← t.getString row (ascii "N")
  let qt ← optInt t row (ascii "Q")
  let urgency ← t.getString row (ascii "U")
  let _ ← t.getString row (ascii "T")
  let d ← optInt t row (ascii "D")
  let updateClass ← t.getUint16 row (ascii "C")
  pure (code,
    { description := description
      descriptionWithQuantifier := withQ
      quantifierType := if 0 ≤ qt ∧ qt ≤ 12 then quantifierTypes.getD qt.toNat .smallNumber else .smallNumber
      allowsQuantifier := !withQ.isEmpty
      urgency := if urgency = ascii "U" then .u else if urgency = ascii "X" then .x else .none
      both := d == 2
      updateClass := updateClass.toNat })

/-- The first loop of `loadEventData`, src/tmc/tmc.cc:299-341: `g_event_data` with the latest
assignment first. -/
def loadEvents (lines : List Str) : Option (List (Word × Event)) := do
  let t ← readCSVWithTitles lines 0x3B
  pure (t.rows.filterMap (eventOfRow t)).reverse

/-- The second loop, src/tmc/tmc.cc:343-351: `none` if `std::stoi` throws. `insert` keeps the first entry. -/
def loadSupplementary : List Str → Option (List (Word × Str))
  | [] => some []
  | line :: lines =>
    let row := CSVRow.new line 0x3B
    if row.fields.length < 2 then loadSupplementary lines
    else do
      let code ← (row.at? 0).bind stoi
      let text ← row.at? 1
      let rest ← loadSupplementary lines
      pure ((BitVec.ofInt 16 code, text) :: rest)

/-- One row of the service key table, src/tmc/tmc.cc:357-371: `none` for rows that are skipped. -/
def keyOfRow (row : CSVRow) : Option (Word × ServiceKey) := do
  guard (4 ≤ row.fields.length)
  let encid ← (row.at? 0).bind stoi
  let xorval ← (row.at? 1).bind stoi
  let xorstart ← (row.at? 2).bind stoi
  let nrot ← (row.at? 3).bind stoi
  pure (BitVec.ofInt 16 encid,
    { xorval := BitVec.ofInt 8 xorval, xorstart := BitVec.ofInt 8 xorstart, nrot := BitVec.ofInt 8 nrot })

/-- `loadServiceKeyTable`, src/tmc/tmc.cc:354-377, from the lines of the file (none if there is no file).
`insert` keeps the first entry. -/
def loadServiceKeys (lines : List Str) : List (Word × ServiceKey) :=
  lines.filterMap fun line => keyOfRow (CSVRow.new line 0x2C)

/-! ### Location database -/

/-- The files of a location table, as lines; empty if the file does not exist. -/
structure LocationFiles where
  readme : List Str := []
  datasets : List Str := []
  names : List Str := []
  roads : List Str := []
  segments : List Str := []
  points : List Str := []
  offsets : List Str := []

/-- `readLTN`, src/tmc/locationdb.cc:45-58: the last row that has a number. -/
def readLTN (f : LocationFiles) : Option Word := do
  let t ← readCSVWithTitles f.datasets 0x3B
  pure (((t.rows.filterMap fun row => t.getUint16 row (ascii "TABCD")).getLast?).getD 0)

/-- A text that matches `ISO.8859-n\b.*` where `n` is the given text (src/tmc/locationdb.cc:73-76): a word
boundary is the end of the text or a character that is no letter, digit or underscore; the
remaining characters are no line ends. -/
def matchesIso (n s : Str) : Bool :=
  let isDot (c : Byte) : Bool := c != 0x0A && c != 0x0D
  let isWord (c : Byte) : Bool :=
    (0x30 ≤ c.toNat && c.toNat ≤ 0x39) || (0x41 ≤ c.toNat && c.toNat ≤ 0x5A) ||
      (0x61 ≤ c.toNat && c.toNat ≤ 0x7A) || c == 0x5F
  s.take 3 == ascii "ISO" && ((s.drop 3).head?.map isDot).getD false &&
    (s.drop 4).take (5 + n.length) == ascii "8859-" ++ n &&
    !(((s.drop (9 + n.length)).head?.map isWord).getD false) &&
    (s.drop (9 + n.length)).all isDot

/-- The character encoding of the texts, src/tmc/locationdb.cc:60-76. -/
def locationEncoding (f : LocationFiles) : Str :=
  let e := (((f.readme.filterMap fun line => (CSVRow.new line 0x3B).at? 4)).getLast?).getD (ascii "UTF-8")
  let e := if matchesIso (ascii "1") e then ascii "ISO-8859-1" else e
  if matchesIso (ascii "15") e then ascii "ISO-8859-15" else e

/-- The conversion of texts by `iconv`: the constructor throws for an unknown encoding (outer `none`),
`convert` for a text that is not valid (inner `none`). -/
abbrev TextConverter := Str → Option (Str → Option Str)

/-- `names`, src/tmc/locationdb.cc:80-88. Maps are lists with the latest assignment first. (In C++14 an entry
with an empty name may be left if `to_utf8` throws; this has the same effect as no entry, except for the number of
names that is printed.) -/
def nameOfRow (convert : Str → Option Str) (t : CSVTable) (row : CSVRow) : Option (Int × Str) := do
  let nid ← t.getInt row (ascii "NID")
  let name ← t.getString row (ascii "NAME")
  let name ← convert name
  pure (nid, name)

/-- `roads`, src/tmc/locationdb.cc:90-105. -/
def roadOfRow (names : List (Int × Str)) (t : CSVTable) (row : CSVRow) : Option (Word × Road) := do
  let lcd ← t.getUint16 row (ascii "LCD")
  let number ← t.getString row (ascii "ROADNUMBER")
  let rnid ← optInt t row (ascii "RNID")
  pure (lcd, { roadNumber := number, name := (names.lookup rnid).getD [] })

/-- `segments`, src/tmc/locationdb.cc:107-117: the road of each segment. -/
def segmentOfRow (t : CSVTable) (row : CSVRow) : Option (Word × Word) := do
  let lcd ← t.getUint16 row (ascii "LCD")
  let road ← t.getUint16 row (ascii "ROA_LCD")
  pure (lcd, road)

/-- The state of the loop over POINTS.DAT; `names` changes because of `locdb.names[rnid]`. -/
structure PointState where
  ltn : Word := 0
  names : List (Int × Str)
  points : List (Word × Point) := []

/-- A coordinate: `static_cast<float>(get_int(...)) * 1e-5f` is a parameter of the model. -/
def coordinate (toDegrees : Int → BitVec 32) (t : CSVTable) (row : CSVRow) (title : Str) : Option (BitVec 32) := do
  let present ← t.rowContains row title
  if present then (t.getInt row title).map toDegrees else some 0

/-- An optional location code, as in src/tmc/locationdb.cc:134-137. -/
def optLcd (t : CSVTable) (row : CSVRow) (title : Str) : Option Word := do
  let present ← t.rowContains row title
  if present then t.getUint16 row title else some 0

/-- The columns of a row of POINTS.DAT after TABCD, src/tmc/locationdb.cc:123-144. `none` if an
exception is thrown. -/
def pointColumns (toDegrees : Int → BitVec 32) (names : List (Int × Str)) (t : CSVTable) (row : CSVRow) :
    Option (Word × Point × Word × Int) := do
  let lcd ← t.getUint16 row (ascii "LCD")
  let n1id ← optInt t row (ascii "N1ID")
  let lon ← coordinate toDegrees t row (ascii "XCOORD")
  let lat ← coordinate toDegrees t row (ascii "YCOORD")
  let road ← optLcd t row (ascii "ROA_LCD")
  let seg ← optLcd t row (ascii "SEG_LCD")
  let rnid ← optInt t row (ascii "RNID")
  pure (lcd, { name1 := (names.lookup n1id).getD [], lon := lon, lat := lat, roaLcd := road
               roadName := (names.lookup rnid).getD [] }, seg, rnid)

/-- One row of POINTS.DAT, src/tmc/locationdb.cc:119-155. The location table number is assigned before
anything else can throw. `roads.at` throws if the road of the segment is unknown; otherwise the name of
the road is assigned and overwritten by `locdb.names[rnid]` (which inserts an empty name). -/
def pointStep (toDegrees : Int → BitVec 32) (roads : List (Word × Road)) (segments : List (Word × Word))
    (t : CSVTable) (st : PointState) (row : CSVRow) : PointState :=
  match t.getUint16 row (ascii "TABCD") with
  | none => st
  | some ltn =>
    let st := { st with ltn := ltn }
    match pointColumns toDegrees st.names t row with
    | none => st
    | some (lcd, p, seg, rnid) =>
      match (if p.roaLcd = 0 then segments.lookup seg else none) with
      | none => { st with points := (lcd, p) :: st.points }
      | some road =>
        match roads.lookup road with
        | none => st
        | some _ =>
          let name := (st.names.lookup rnid).getD []
          { st with
            names := if (st.names.lookup rnid).isSome then st.names else (rnid, []) :: st.names
            points := (lcd, { p with roaLcd := road, roadName := name }) :: st.points }

/-- A row of POFFSETS.DAT, src/tmc/locationdb.cc:157-170. -/
def offsetOfRow (t : CSVTable) (row : CSVRow) : Option (Word × Word × Word) := do
  let lcd ← t.getUint16 row (ascii "LCD")
  let neg ← t.getUint16 row (ascii "NEG_OFF_LCD")
  let pos ← t.getUint16 row (ascii "POS_OFF_LCD")
  pure (lcd, neg, pos)

/-- Setting the offsets of a point that exists. -/
def setOffsets (points : List (Word × Point)) (o : Word × Word × Word) : List (Word × Point) :=
  match points.lookup o.1 with
  | none => points
  | some p => (o.1, { p with negOff := o.2.1, posOff := o.2.2 }) :: points

/-- `size` of a map, given as a list of assignments: the number of keys. -/
def mapSize {κ α : Type} [BEq κ] : List (κ × α) → Nat
  | [] => 0
  | p :: l => if l.any (·.1 == p.1) then mapSize l else mapSize l + 1

/-- `loadLocationDatabase`, src/tmc/locationdb.cc:60-185; `none` if the encoding is not known to `iconv`.
Administrative areas are never used and are left out. -/
def loadLocationDatabase (converter : TextConverter) (toDegrees : Int → BitVec 32) (f : LocationFiles) :
    Option LocationDatabase := do
  let convert ← converter (locationEncoding f)
  let t ← readCSVWithTitles f.names 0x3B
  let names := (t.rows.filterMap (nameOfRow convert t)).reverse
  let t ← readCSVWithTitles f.roads 0x3B
  let roads := (t.rows.filterMap (roadOfRow names t)).reverse
  let t ← readCSVWithTitles f.segments 0x3B
  let segments := (t.rows.filterMap (segmentOfRow t)).reverse
  let t ← readCSVWithTitles f.points 0x3B
  let st := t.rows.foldl (pointStep toDegrees roads segments t) { names := names }
  let t ← readCSVWithTitles f.offsets 0x3B
  let points := (t.rows.filterMap (offsetOfRow t)).foldl setOffsets st.points
  pure { ltn := st.ltn, points := fun lcd => points.lookup lcd, roads := fun lcd => roads.lookup lcd
         numPoints := mapSize points, numRoads := mapSize roads, numNames := mapSize st.names }

/-- `operator<<`, src/tmc/locationdb.cc:187-192: the line about a location table. -/
def LocationDatabase.text (db : LocationDatabase) : Str :=
  ascii "{\"location_table_info\":{" ++ ascii "\"ltn\":" ++ decimal db.ltn.toNat ++ ascii "," ++
    ascii "\"num_points\":" ++ decimal db.numPoints ++ ascii "," ++
    ascii "\"num_roads\":" ++ decimal db.numRoads ++ ascii "," ++
    ascii "\"num_names\":" ++ decimal db.numNames ++ ascii "}}" ++ [0x0A]

end Redsea
