import Verif.Model.Bits

/-
PI code cache: src/channel.hh:34-77.
-/

namespace Redsea

/-- `CachedPI::Result`, src/channel.hh:38. -/
inductive PIResult where
  | changeConfirmed | noChange | spuriousChange
  deriving DecidableEq, Repr

/-- `class CachedPI`, src/channel.hh:36-77. -/
structure CachedPI where
  confirmed : Word := 0
  prev1 : Word := 0
  prev2 : Word := 0
  hasPrevious : Bool := false
  deriving DecidableEq, Repr

namespace CachedPI

/-- `CachedPI::reset`, src/channel.hh:67-70. -/
def reset (_ : CachedPI) : CachedPI := {}

/-- First `if` of `CachedPI::update`, src/channel.hh:44-50: three equal PIs in a row. -/
def confirm (c : CachedPI) (pi : Word) : CachedPI × PIResult :=
  if c.hasPrevious && c.prev1 == c.prev2 && pi == c.prev1 then
    ({ c with confirmed := pi }, if pi == c.confirmed then .noChange else .changeConfirmed)
  else (c, .spuriousChange)

/-- Second `if` of `CachedPI::update`, src/channel.hh:52-57: two corrupted PIs in a row. -/
def dropIfNoisy (c : CachedPI) (pi : Word) : CachedPI :=
  if c.hasPrevious && (pi != c.confirmed && c.prev1 != c.confirmed && pi != c.prev1) then
    c.reset
  else { c with hasPrevious := true }

/-- `CachedPI::update`, src/channel.hh:43-63. -/
def update (c : CachedPI) (pi : Word) : CachedPI × PIResult :=
  let (c, status) := c.confirm pi
  let c := c.dropIfNoisy pi
  ({ c with prev2 := c.prev1, prev1 := pi }, status)

/-- `CachedPI::get`, src/channel.hh:64-66. -/
def get (c : CachedPI) : Word := c.confirmed

end CachedPI

end Redsea
