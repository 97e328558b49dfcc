import Verif.Model.Text

/-
Text files: lines that end with a line feed.
-/

namespace Redsea.Spec

/-- The text of a file with these lines. Every line ends with a line feed; the last one of the file may be missing, if the line
is not empty. -/
def TextOf (lines : List Str) (text : Str) : Prop :=
  text = lines.flatMap (· ++ [0x0A]) ∨
    ∃ last, lines.getLast? = some last ∧ last ≠ [] ∧ text ++ [0x0A] = lines.flatMap (· ++ [0x0A])

end Redsea.Spec
