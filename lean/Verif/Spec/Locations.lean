import Verif.Spec.Tables
import Verif.Model.TmcData

/-
A location table (TMC Forum, "Location Coding Handbook"): names, roads, segments, points and the offsets between
points, each in a file of its own. What a receiver should know about each location after reading the files.
-/

namespace Redsea.Spec

/-- The text of a number: perhaps a sign, perhaps zeros in front. -/
def IsNumber (s : Str) (z : Int) : Prop :=
  -2147483648 ≤ z ∧ z ≤ 2147483647 ∧ ∃ (sign : Str) (zeros : Nat),
    (((sign = [] ∨ sign = [0x2B]) ∧ 0 ≤ z) ∨ (sign = [0x2D] ∧ z ≤ 0)) ∧
    s = sign ++ List.replicate zeros 0x30 ++ decimal z.natAbs

/-- There is no number: no cell, an empty cell, or a text. -/
def NoNumber (c : Option Str) : Prop :=
  ∀ s, c = some s → s = [] ∨
    ∃ b ∈ s.head?, (0x41 ≤ b.toNat ∧ b.toNat ≤ 0x5A) ∨ (0x61 ≤ b.toNat ∧ b.toNat ≤ 0x7A) ∨ b = 0x23

/-- A cell with a number. -/
def CellIs (titles cells : List Str) (title : Str) (z : Int) : Prop :=
  ∃ s, cell titles cells title = some s ∧ IsNumber s z

/-- A cell that may be empty. -/
def CellMay (titles cells : List Str) (title : Str) : Option Int → Prop
  | none => cell titles cells title = some []
  | some z => CellIs titles cells title z

structure NameRecord where
  nid : Int
  name : Str

/-- A location code of 0 means that there is no location. -/
structure RoadRecord where
  lcd : Word
  number : Str
  rnid : Option Int

structure SegmentRecord where
  lcd : Word
  road : Word

structure PointRecord where
  lcd : Word
  n1id : Option Int
  x : Option Int
  y : Option Int
  road : Option Word
  segment : Option Word
  rnid : Option Int

structure OffsetRecord where
  lcd : Word
  negative : Word
  positive : Word

/-- A location table. `none` stands for a row that is damaged. -/
structure LocationTable where
  number : Word
  names : List (Option NameRecord)
  roads : List (Option RoadRecord)
  segments : List (Option SegmentRecord)
  points : List (Option PointRecord)
  offsets : List (Option OffsetRecord)

/-! ### Rows -/

def showsName (titles cells : List Str) : Option NameRecord → Prop
  | none => NoNumber (cell titles cells (ascii "NID"))
  | some r => CellIs titles cells (ascii "NID") r.nid ∧ cell titles cells (ascii "NAME") = some r.name

def showsRoad (titles cells : List Str) : Option RoadRecord → Prop
  | none => NoNumber (cell titles cells (ascii "LCD"))
  | some r => CellIs titles cells (ascii "LCD") r.lcd.toNat ∧ cell titles cells (ascii "ROADNUMBER") = some r.number ∧
      CellMay titles cells (ascii "RNID") r.rnid

def showsSegment (titles cells : List Str) : Option SegmentRecord → Prop
  | none => NoNumber (cell titles cells (ascii "LCD")) ∨ NoNumber (cell titles cells (ascii "ROA_LCD"))
  | some r => CellIs titles cells (ascii "LCD") r.lcd.toNat ∧ CellIs titles cells (ascii "ROA_LCD") r.road.toNat

def showsPoint (number : Word) (titles cells : List Str) : Option PointRecord → Prop
  | none => NoNumber (cell titles cells (ascii "TABCD")) ∨
      (CellIs titles cells (ascii "TABCD") number.toNat ∧ NoNumber (cell titles cells (ascii "LCD")))
  | some r => CellIs titles cells (ascii "TABCD") number.toNat ∧ CellIs titles cells (ascii "LCD") r.lcd.toNat ∧
      CellMay titles cells (ascii "N1ID") r.n1id ∧ CellMay titles cells (ascii "XCOORD") r.x ∧
      CellMay titles cells (ascii "YCOORD") r.y ∧
      CellMay titles cells (ascii "ROA_LCD") (r.road.map fun w => (w.toNat : Int)) ∧
      CellMay titles cells (ascii "SEG_LCD") (r.segment.map fun w => (w.toNat : Int)) ∧
      CellMay titles cells (ascii "RNID") r.rnid

/-- A row with one of the two offsets missing counts as damaged. -/
def showsOffset (titles cells : List Str) : Option OffsetRecord → Prop
  | none => NoNumber (cell titles cells (ascii "LCD")) ∨ NoNumber (cell titles cells (ascii "NEG_OFF_LCD")) ∨
      NoNumber (cell titles cells (ascii "POS_OFF_LCD"))
  | some r => CellIs titles cells (ascii "LCD") r.lcd.toNat ∧ CellIs titles cells (ascii "NEG_OFF_LCD") r.negative.toNat ∧
      CellIs titles cells (ascii "POS_OFF_LCD") r.positive.toNat

/-- Files with the content of a location table. -/
structure LocationTable.InFiles (l : LocationTable) (f : LocationFiles) : Prop where
  names : Written 0x3B showsName f.names l.names
  roads : Written 0x3B showsRoad f.roads l.roads
  segments : Written 0x3B showsSegment f.segments l.segments
  points : Written 0x3B (showsPoint l.number) f.points l.points
  offsets : Written 0x3B showsOffset f.offsets l.offsets

/-- A table that is consistent: 0 is no number of a name or segment; a segment belongs to a road of
the table. -/
structure LocationTable.Valid (l : LocationTable) : Prop where
  names : ∀ r, some r ∈ l.names → r.nid ≠ 0
  segments : ∀ r, some r ∈ l.segments → r.lcd ≠ 0 ∧ ∃ road, some road ∈ l.roads ∧ road.lcd = r.road
  points : ∀ r, some r ∈ l.points → r.road ≠ some 0

/-! ### Meaning -/

/-- The last of the records with a value. -/
def latest {R α : Type} (value : R → Option α) (l : List (Option R)) : Option α :=
  (l.filterMap fun r => r.bind value).getLast?

/-- The text of a name, after conversion from the encoding of the files. -/
def LocationTable.name (l : LocationTable) (convert : Str → Option Str) (id : Option Int) : Str :=
  match id with
  | none => []
  | some i => (latest (fun r : NameRecord => if r.nid = i then convert r.name else none) l.names).getD []

def LocationTable.road (l : LocationTable) (lcd : Word) : Option RoadRecord :=
  latest (fun r : RoadRecord => if r.lcd = lcd then some r else none) l.roads

def LocationTable.point (l : LocationTable) (lcd : Word) : Option PointRecord :=
  latest (fun r : PointRecord => if r.lcd = lcd then some r else none) l.points

/-- The road of a point: its own or that of its segment. -/
def LocationTable.roadOf (l : LocationTable) (r : PointRecord) : Word :=
  match r.road with
  | some road => road
  | none => match r.segment with
    | none => 0
    | some s => (latest (fun g : SegmentRecord => if g.lcd = s then some g.road else none) l.segments).getD 0

/-- The name of the road of a point: its own, or that of the road of its segment. -/
def LocationTable.roadName (l : LocationTable) (convert : Str → Option Str) (r : PointRecord) : Str :=
  match r.rnid, r.road with
  | some i, _ => l.name convert (some i)
  | none, some _ => []
  | none, none => ((l.road (l.roadOf r)).map fun road => l.name convert road.rnid).getD []

/-- The neighbours of a point in negative and positive direction. -/
def LocationTable.offset (l : LocationTable) (lcd : Word) : Word × Word :=
  (latest (fun r : OffsetRecord => if r.lcd = lcd then some (r.negative, r.positive) else none) l.offsets).getD (0, 0)

/-- What is known about a road. -/
def LocationTable.RoadIs (l : LocationTable) (convert : Str → Option Str) (r : RoadRecord) (road : Road) : Prop :=
  road.roadNumber = r.number ∧ road.name = l.name convert r.rnid

/-- What is known about a point, apart from the name of its road. -/
structure LocationTable.PointIs (l : LocationTable) (convert : Str → Option Str) (toDegrees : Int → BitVec 32)
    (r : PointRecord) (p : Point) : Prop where
  name : p.name1 = l.name convert r.n1id
  longitude : p.lon = (r.x.map toDegrees).getD 0
  latitude : p.lat = (r.y.map toDegrees).getD 0
  road : p.roaLcd = l.roadOf r
  offsets : (p.negOff, p.posOff) = l.offset r.lcd

/-- The next location in a direction. -/
def LocationTable.next (l : LocationTable) (positive : Bool) (lcd : Word) : Word :=
  if positive then (l.offset lcd).2 else (l.offset lcd).1

/-- Points that follow each other from a location on. -/
def LocationTable.Along (l : LocationTable) (positive : Bool) : Word → List PointRecord → Prop
  | _, [] => True
  | lcd, r :: rest => l.point lcd = some r ∧ l.Along positive (l.next positive lcd) rest

/-- Where they end. -/
def LocationTable.beyond (l : LocationTable) (positive : Bool) : Word → List PointRecord → Word
  | lcd, [] => lcd
  | lcd, _ :: rest => l.beyond positive (l.next positive lcd) rest

/-- The number of things with a property. -/
def CountOf {α : Type} (S : α → Prop) (n : Nat) : Prop := ∃ l : List α, l.Nodup ∧ l.length = n ∧ ∀ a, a ∈ l ↔ S a

/-- The table has a name with this number. -/
def LocationTable.HasName (l : LocationTable) (i : Int) : Prop := ∃ r, some r ∈ l.names ∧ r.nid = i

/-- A point has its road from a segment. -/
def LocationTable.BySegment (l : LocationTable) (r : PointRecord) : Prop :=
  r.road = none ∧ ∃ g, some g ∈ l.segments ∧ r.segment = some g.lcd

/-! ### Other files -/

/-- A character that can not continue a word. -/
def EndsWord (rest : Str) : Prop :=
  ∀ b ∈ rest.head?, ¬ ((0x30 ≤ b.toNat ∧ b.toNat ≤ 0x39) ∨ (0x41 ≤ b.toNat ∧ b.toNat ≤ 0x5A) ∨
    (0x61 ≤ b.toNat ∧ b.toNat ≤ 0x7A) ∨ b = 0x5F)

/-- The name of an encoding as it should be, for a name as found in files: `ISO 8859-1 (Latin 1)` etc. -/
inductive EncodingName : Str → Str → Prop where
  | latin1 (c : Byte) (rest : Str) : EndsWord rest →
      EncodingName (ascii "ISO" ++ [c] ++ ascii "8859-1" ++ rest) (ascii "ISO-8859-1")
  | latin9 (c : Byte) (rest : Str) : EndsWord rest →
      EncodingName (ascii "ISO" ++ [c] ++ ascii "8859-15" ++ rest) (ascii "ISO-8859-15")
  | other (e : Str) : e.take 3 ≠ ascii "ISO" → EncodingName e e

/-- Rows of the list of tables: the number of a table, or a damaged row. -/
def showsTable (titles cells : List Str) : Option Word → Prop
  | none => NoNumber (cell titles cells (ascii "TABCD"))
  | some w => CellIs titles cells (ascii "TABCD") w.toNat

end Redsea.Spec
