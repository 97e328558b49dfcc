import Verif.Model.Main
import Verif.Model.JsonText

/-
The text of the output of the program.
-/

namespace Redsea

/-- The text of something that is printed, src/groups.cc:371-382, src/tmc/locationdb.cc:187-192. The texts of the usage, of the
version and of errors, and the bytes of samples, are not modelled. `F` is the text of a floating point number, `report`
the message of an exception. -/
def Item.text {S : Type} (F : BitVec 32 → Str) (report : Str) : Item S → Str
  | .tableInfo t => t
  | .line l => l.text F report
  | .echo s => s
  | _ => []

/-- The text of all that is printed, with a message for each line. -/
def outputText {S : Type} (F : BitVec 32 → Str) : List (Item S × Str) → Str
  | [] => []
  | i :: items => i.1.text F i.2 ++ outputText F items

end Redsea
