import Verif.Model.Text

/-
CSV tables: src/tmc/csv.hh, src/tmc/csv.cc.
-/

namespace Redsea

/-- `length_until_line_feed`, src/tmc/csv.hh:22-26. -/
def lineEnd (line : Str) : Nat := line.findIdx fun c => c == 0x0D || c == 0x0A

/-- `line.find(delimiter, start)`; `none` for `npos`. -/
def findFrom (line : Str) (delimiter : Byte) (start : Nat) : Option Nat :=
  ((line.drop start).findIdx? (· == delimiter)).map (· + start)

/-- `end` after src/tmc/csv.hh:29-31. -/
def fieldEnd (line : Str) (delimiter : Byte) (start : Nat) : Nat :=
  (findFrom line delimiter start).getD (lineEnd line)

theorem le_fieldEnd (line : Str) (delimiter : Byte) (start : Nat) (h : start ≤ lineEnd line) :
    start ≤ fieldEnd line delimiter start := by
  unfold fieldEnd findFrom
  cases (line.drop start).findIdx? (· == delimiter) with
  | none => exact h
  | some i => exact Nat.le_add_left start i

/-- The loop in the constructor of `CSVRow`, src/tmc/csv.hh:28-35, as pairs of offset and length. Since
`start` is always `end + 1` except at the beginning, where both are 0, `end` is `start - 1`. -/
def csvFields (line : Str) (delimiter : Byte) (start : Nat) : List (Nat × Nat) :=
  if h : start - 1 < lineEnd line then
    have : lineEnd line + 1 - (fieldEnd line delimiter start + 1) < lineEnd line + 1 - start := by
      have := le_fieldEnd line delimiter start (by omega)
      omega
    (start, fieldEnd line delimiter start - start) ::
      csvFields line delimiter (fieldEnd line delimiter start + 1)
  else []
termination_by lineEnd line + 1 - start

/-- `struct CSVRow`, src/tmc/csv.hh:15-46; `fields` are `offsets` and `lengths`. -/
structure CSVRow where
  fields : List (Nat × Nat)
  rowString : Str
  deriving DecidableEq, Repr

/-- The constructor, src/tmc/csv.hh:16-37. -/
def CSVRow.new (line : Str) (delimiter : Byte) : CSVRow :=
  { fields := csvFields line delimiter 0, rowString := line }

/-- `std::string::substr`: throws if the position is outside. -/
def substr (s : Str) (pos len : Nat) : Option Str :=
  if pos ≤ s.length then some ((s.drop pos).take len) else none

/-- `CSVRow::at`, src/tmc/csv.hh:38-42: `none` when it throws. -/
def CSVRow.at? (r : CSVRow) (i : Nat) : Option Str :=
  match r.fields[i]? with
  | none => none
  | some f => substr r.rowString f.1 f.2

/-- `struct CSVTable`, src/tmc/csv.hh:48-51. The map of titles is a list of pairs, the latest first. -/
structure CSVTable where
  titles : List (Str × Nat)
  rows : List CSVRow
  deriving DecidableEq, Repr

/-- The titles of the first row, src/tmc/csv.hh:91-94; `none` if `substr` throws. -/
def csvTitles (row : CSVRow) : Nat → List (Nat × Nat) → Option (List (Str × Nat))
  | _, [] => some []
  | i, f :: l => do
    let title ← substr row.rowString f.1 f.2
    let rest ← csvTitles row (i + 1) l
    pure (rest ++ [(title, i)])

/-- `readCSVContainerWithTitles`, src/tmc/csv.hh:80-104. -/
def readCSVWithTitles (lines : List Str) (delimiter : Byte) : Option CSVTable :=
  match lines with
  | [] => some { titles := [], rows := [] }
  | t :: lines => do
    let row := CSVRow.new t delimiter
    let titles ← csvTitles row 0 row.fields
    pure { titles := titles, rows := lines.map fun l => CSVRow.new l delimiter }

/-- `get_string`, src/tmc/csv.cc:41-43: `none` when it throws. -/
def CSVTable.getString (t : CSVTable) (row : CSVRow) (title : Str) : Option Str := do
  let i ← t.titles.lookup title
  row.at? i

end Redsea
