import Verif.Model.Text

/-
Tables as text files: cells separated by a character, one row in each line.
-/

namespace Redsea.Spec

/-- A cell contains neither the separator nor a line end. -/
def CleanCell (d : Byte) (s : Str) : Prop := d ∉ s ∧ (0x0D : Byte) ∉ s ∧ (0x0A : Byte) ∉ s

/-- A row of cells that can be told from an empty line. -/
def CleanRow (d : Byte) (cells : List Str) : Prop := 2 ≤ cells.length ∧ ∀ c ∈ cells, CleanCell d c

/-- The line of a row. -/
def joinCells (d : Byte) (cells : List Str) : Str := List.intercalate [d] cells

/-- A line of a file with these cells, or an empty line; there may be a carriage return at its end. -/
def IsLine (d : Byte) (cells : List Str) (line : Str) : Prop :=
  (CleanRow d cells ∨ cells = []) ∧ (line = joinCells d cells ∨ line = joinCells d cells ++ [0x0D])

/-- The cell below a title. -/
def cell (titles row : List Str) (title : Str) : Option Str := (titles.zip row).lookup title

/-- The lines of a file with different titles, and one row for each record. `shows titles cells r` says that the
cells of a row show the record `r`. -/
def Written {R : Type} (d : Byte) (shows : List Str → List Str → R → Prop) (lines : List Str) (records : List R) : Prop :=
  ∃ (titles : List Str) (first : Str) (rows : List (Str × R)),
    titles.Nodup ∧ IsLine d titles first ∧ lines = first :: rows.map (·.1) ∧ records = rows.map (·.2) ∧
    ∀ row ∈ rows, ∃ cells, IsLine d cells row.1 ∧ shows titles cells row.2

end Redsea.Spec
