import Verif.Model.TmcData

/-
Reading files: src/tmc/csv.cc:10-38.
-/

namespace Redsea

/-- The loop over `std::getline`, src/tmc/csv.cc:17-19 and 31-33, after `line` was read from the current line. `getline` fails if
nothing is left, so that an empty text after the last line break is no line. -/
def fileLinesFrom (line : Str) : Str → List Str
  | [] => if line = [] then [] else [line]
  | c :: s => if c = 0x0A then line :: fileLinesFrom [] s else fileLinesFrom (line ++ [c]) s

/-- The lines that `readCSV` and `readCSVWithTitles` get from a file, src/tmc/csv.cc:10-24 and 26-38; `none` is a file that can not be
opened. -/
def fileLines : Option Str → List Str
  | none => []
  | some text => fileLinesFrom [] text

/-- The files in a directory, by their names in src/tmc/locationdb.cc:48, 64, 80, 90, 107, 119 and 157. `files` gives
the content of the file with some path. -/
def tableFiles (files : Str → Option Str) (directory : Str) : LocationFiles :=
  { readme := fileLines (files (directory ++ ascii "/README.DAT"))
    datasets := fileLines (files (directory ++ ascii "/LOCATIONDATASETS.DAT"))
    names := fileLines (files (directory ++ ascii "/NAMES.DAT"))
    roads := fileLines (files (directory ++ ascii "/ROADS.DAT"))
    segments := fileLines (files (directory ++ ascii "/SEGMENTS.DAT"))
    points := fileLines (files (directory ++ ascii "/POINTS.DAT"))
    offsets := fileLines (files (directory ++ ascii "/POFFSETS.DAT")) }

end Redsea
