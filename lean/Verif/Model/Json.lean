import Verif.Model.Text

/-
The JSON objects that are printed: the parts of `nlohmann::ordered_json` that redsea uses.

Decoders do not hold a JSON object; they return the list of operations that they perform on it
(`JOp`). `J.build` performs them. Objects keep the order in which their members were created.
-/

namespace Redsea

/-- JSON values. Strings are bytes. `float` holds the bits of a single precision number (only used
for coordinates). -/
inductive J where
  | null
  | bool (b : Bool)
  | int (i : Int)
  | float (bits : BitVec 32)
  | str (s : Str)
  | arr (l : List J)
  | obj (l : List (String × J))
  deriving Repr, Inhabited

/-- A number from an unsigned value. -/
abbrev J.nat (n : Nat) : J := .int n

/-- Operations on the JSON object. The path leads through nested objects. -/
inductive JOp where
  /-- `json[k1][k2]… = v` -/
  | set (path : List String) (v : J)
  /-- `json[k1][k2]….push_back(v)` -/
  | push (path : List String) (v : J)
  /-- `json[k1][k2]…` without assignment, which creates the member -/
  | touch (path : List String)
  deriving Repr

/-- The path of an operation. -/
def JOp.path : JOp → List String
  | .set p _ => p
  | .push p _ => p
  | .touch p => p

/-- The same operation inside of a member. -/
def JOp.under (pre : List String) : JOp → JOp
  | .set p v => .set (pre ++ p) v
  | .push p v => .push (pre ++ p) v
  | .touch p => .touch (pre ++ p)

/-- Replaces the member `k` by its image under `f`; creates it (as null) if it does not exist.
`none` if `f` fails. -/
def updateMember (k : String) (f : J → Option J) : List (String × J) → Option (List (String × J))
  | [] => (f .null).map fun v => [(k, v)]
  | (k', v) :: rest =>
    if k' = k then (f v).map fun v' => (k', v') :: rest
    else (updateMember k f rest).map fun rest' => (k', v) :: rest'

/-- `json[k1][k2]…`, followed by `f`. `operator[]` makes an object of a null value and throws an
exception for every other value that is not an object (`none`). -/
def J.update : List String → (J → Option J) → J → Option J
  | [], f, v => f v
  | k :: path, f, .null => (updateMember k (J.update path f) []).map .obj
  | k :: path, f, .obj l => (updateMember k (J.update path f) l).map .obj
  | _ :: _, _, _ => none

/-- `push_back` on an existing value: makes an array of a null value and throws an exception for
every other value that is not an array. -/
def J.pushBack (v : J) : J → Option J
  | .null => some (.arr [v])
  | .arr l => some (.arr (l ++ [v]))
  | _ => none

/-- Performs an operation. `none`: an exception is thrown. -/
def JOp.apply (op : JOp) (j : J) : Option J :=
  match op with
  | .set path v => j.update path (fun _ => some v)
  | .push path v => j.update path (J.pushBack v)
  | .touch path => j.update path some

/-- Performs operations in order. -/
def J.build (ops : List JOp) (j : J) : Option J := ops.foldlM (fun j op => op.apply j) j

/-- `value[k]` of an object, if it exists. -/
def J.get? (k : String) : J → Option J
  | .obj l => l.lookup k
  | _ => none

/-- `std::to_string` of an int. -/
def intStr (i : Int) : Str := ascii (toString i)

/-- `join`, src/util.cc:70-81. -/
def joinStr (d : Str) : List Str → Str
  | [] => []
  | [s] => s
  | s :: rest => s ++ d ++ joinStr d rest

end Redsea
