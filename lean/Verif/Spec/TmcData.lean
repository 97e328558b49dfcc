import Verif.Spec.Tables
import Verif.Model.Tmc

/-
The tables of TMC data as records: the event list (ISO 14819-2), supplementary information, service keys.
-/

namespace Redsea.Spec

/-- An empty cell or a number. -/
def optDecimal : Option Nat → Str
  | none => []
  | some n => decimal n

/-- A row of the event list. -/
structure EventRow where
  code : Nat
  text : Str
  textWithQ : Str
  nature : Str
  quantifier : Option Nat
  duration : Str
  directions : Option Nat
  urgency : Str
  updateClass : Nat
  reference : Str
  deriving DecidableEq

/-- The titles of the event list. -/
def eventTitles : List Str :=
  [ascii "Code", ascii "Description", ascii "Description with Q", ascii "N", ascii "Q", ascii "T", ascii "D",
    ascii "U", ascii "C", ascii "R"]

/-- The cells of a row. -/
def EventRow.cells (r : EventRow) : List Str :=
  [decimal r.code, r.text, r.textWithQ, r.nature, optDecimal r.quantifier, r.duration, optDecimal r.directions,
    r.urgency, decimal r.updateClass, r.reference]

/-- The line of a row. -/
def EventRow.line (r : EventRow) : Str := joinCells 0x3B r.cells

/-- Codes and classes of 16 bits, quantifier types 0 to 12, small numbers, texts without separators. -/
structure EventRow.Valid (r : EventRow) : Prop where
  code : r.code < 2 ^ 16
  quantifier : ∀ q ∈ r.quantifier, q ≤ 12
  directions : ∀ d ∈ r.directions, d < 2 ^ 16
  updateClass : r.updateClass < 2 ^ 16
  text : CleanCell 0x3B r.text
  textWithQ : CleanCell 0x3B r.textWithQ
  nature : CleanCell 0x3B r.nature
  duration : CleanCell 0x3B r.duration
  urgency : CleanCell 0x3B r.urgency
  reference : CleanCell 0x3B r.reference

/-- Quantifier types by number (ISO 14819-2). -/
def quantifierNumber : QuantifierType → Nat
  | .smallNumber => 0
  | .number => 1
  | .lessThanMetres => 2
  | .percent => 3
  | .uptoKmh => 4
  | .uptoTime => 5
  | .degreesCelsius => 6
  | .time => 7
  | .tonnes => 8
  | .metres => 9
  | .uptoMillimetres => 10
  | .mhz => 11
  | .khz => 12

/-- The event that a row describes. -/
structure EventRow.Describes (r : EventRow) (e : Event) : Prop where
  description : e.description = r.text
  descriptionWithQuantifier : e.descriptionWithQuantifier = r.textWithQ
  allowsQuantifier : e.allowsQuantifier = true ↔ r.textWithQ ≠ []
  quantifierType : quantifierNumber e.quantifierType = r.quantifier.getD 0
  both : e.both = true ↔ r.directions = some 2
  urgencyU : e.urgency = .u ↔ r.urgency = ascii "U"
  urgencyX : e.urgency = .x ↔ r.urgency = ascii "X"
  updateClass : e.updateClass = r.updateClass

/-- A row of the table of service keys. -/
structure KeyRow where
  encid : Nat
  xorval : Nat
  xorstart : Nat
  nrot : Nat
  deriving DecidableEq

/-- The line of a row. -/
def KeyRow.line (r : KeyRow) : Str :=
  joinCells 0x2C [decimal r.encid, decimal r.xorval, decimal r.xorstart, decimal r.nrot]

/-- The numbers fit into their types. -/
def KeyRow.Valid (r : KeyRow) : Prop := r.encid < 2 ^ 16 ∧ r.xorval < 256 ∧ r.xorstart < 256 ∧ r.nrot < 256

/-- The key of a row. -/
def KeyRow.Describes (r : KeyRow) (k : ServiceKey) : Prop :=
  k.xorval.toNat = r.xorval ∧ k.xorstart.toNat = r.xorstart ∧ k.nrot.toNat = r.nrot

/-- A line that is no row of keys: too few cells, or a letter (or nothing) where a number should begin. -/
def NoKeyRow (cells : List Str) : Prop :=
  CleanRow 0x2C cells ∧ (cells.length < 4 ∨ ∃ c ∈ cells.take 4, c = [] ∨
    ∃ b ∈ c.head?, (0x41 ≤ b.toNat ∧ b.toNat ≤ 0x5A) ∨ (0x61 ≤ b.toNat ∧ b.toNat ≤ 0x7A) ∨ b = 0x23)

end Redsea.Spec
