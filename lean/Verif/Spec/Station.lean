import Verif.Spec.Channel
import Verif.Spec.Text

/-
Notions for the properties of a station.
-/

namespace Redsea

/-- A station receives groups one after the other. The result is the new state and the line printed
for each group. -/
def Station.receive (env : Env) : Station → List Group → Option (Station × List (Option Line))
  | st, [] => some (st, [])
  | st, g :: gs =>
    (st.updateAndPrint env g).bind fun r =>
      (Station.receive env r.1 gs).map fun q => (q.1, r.2 :: q.2)

/-- The groups that were decoded: those for which a line was printed. -/
def decodedGroups : List Group → List (Option Line) → List Group
  | g :: gs, some _ :: ls => g :: decodedGroups gs ls
  | _ :: gs, none :: ls => decodedGroups gs ls
  | _, _ => []

/-- The group announces an open data application: a complete 3A group. The group type which will
carry the application is in the lower 5 bits of block 2, the application code in block 4. -/
def odaAnnounced (g : Group) : Option (GroupType × Word) :=
  if g.hasType ∧ g.type = ⟨3, .A⟩ ∧ g.block3.isReceived ∧ g.block4.isReceived then
    some (⟨g.block2.data.toNat / 2 % 16, if g.block2.data.toNat % 2 = 0 then .A else .B⟩, g.block4.data)
  else none

/-- The application that was announced last for a group type. -/
def assignedApp (gs : List Group) (t : GroupType) : Option Word :=
  (((gs.filterMap odaAnnounced).filter fun a => a.1 = t).getLast?).map Prod.snd

/-- Members of the JSON object that belong to an open data application. -/
def appMembers (app : Word) : List String :=
  if app = 0x0093 then ["dab", "debug"]
  else if app = 0x4BD7 then ["radiotext_plus"]
  else if app = 0x4BD8 then ["ert_plus"]
  else if app = 0x6552 then ["enhanced_radiotext"]
  else if app = 0xCD46 then ["tmc", "debug"]
  else if app = 0xCD47 then ["tmc", "debug"]
  else ["unknown_oda"]

/-- Group types with a fixed function, as number and version. -/
def fixedTypes : List GroupType :=
  [⟨0, .A⟩, ⟨0, .B⟩, ⟨1, .A⟩, ⟨1, .B⟩, ⟨2, .A⟩, ⟨2, .B⟩, ⟨3, .A⟩, ⟨4, .A⟩, ⟨10, .A⟩, ⟨14, .A⟩, ⟨14, .B⟩,
   ⟨15, .B⟩]

/-- Members of the JSON object for a group type with a fixed function. -/
def fixedMembers (t : GroupType) : List String :=
  if t.number = 0 then ["di", "ta", "is_music", "alt_frequencies_a", "alt_frequencies_b",
    "partial_alt_frequencies", "ps", "partial_ps", "debug"]
  else if t.number = 1 then ["prog_item_number", "prog_item_started", "has_linkage", "country", "tmc_id",
    "language", "slc_broadcaster_bits", "ews", "debug"]
  else if t.number = 2 then ["rt_ab", "radiotext", "partial_radiotext", "debug"]
  else if t.number = 3 then ["open_data_app", "tmc", "debug"]
  else if t.number = 4 then ["clock_time", "debug"]
  else if t.number = 10 then ["pty_name"]
  else if t.number = 14 then ["other_network", "debug"]
  else ["di", "ta", "is_music"]

/-- Members of the JSON object for the primary function of a group type. -/
def primaryMembers (t : GroupType) : List String :=
  if t.number = 5 then ["transparent_data"]
  else if t.number = 6 then ["in_house_data"]
  else if t = ⟨7, .A⟩ then ["debug"]
  else if t = ⟨8, .A⟩ then ["tmc", "debug"]
  else if t = ⟨9, .A⟩ then ["debug"]
  else if t = ⟨15, .A⟩ then ["long_ps", "partial_long_ps", "debug"]
  else ["unknown_oda"]

/-- Members of the JSON object that every group can have. -/
def commonMembers : List String :=
  ["stream", "pi", "callsign", "callsign_uncertain", "rx_time", "bler", "channel", "raw_data", "group",
   "tp", "prog_type"]

/-- Members of the JSON object that a version A or B group can have, if `app` is assigned to its
type. -/
def expectedMembers (g : Group) (app : Option Word) : List String :=
  commonMembers ++
    (if !g.hasType then []
     else if g.type ∈ fixedTypes then fixedMembers g.type
     else match app with
      | some a => appMembers a
      | none => primaryMembers g.type)

/-- A group tells something about another network: network, variant and data word. -/
def eonContent (g : Group) : Option (Word × Nat × Word) :=
  if g.hasType ∧ g.type = ⟨14, .A⟩ ∧ g.block3.isReceived ∧ g.block4.isReceived then
    some (g.block4.data, g.block2.data.toNat % 16, g.block3.data)
  else none

/-- What was told about network `n`. -/
def eonAbout (n : Word) (gs : List Group) : List (Nat × Word) :=
  (gs.filterMap eonContent).filterMap fun c => if c.1 = n then some c.2 else none

/-- The receptions for the name of a network. -/
def eonNameOps (cs : List (Nat × Word)) : List Spec.TextOp :=
  cs.flatMap fun c =>
    if c.1 ≤ 3 then
      [.recv (2 * c.1) (BitVec.ofNat 8 (c.2.toNat / 256)), .recv (2 * c.1 + 1) (BitVec.ofNat 8 c.2.toNat)]
    else []

/-- Two blocks are the same, as far as received. -/
def Block.SameReceived (a b : Block) : Prop :=
  a.isReceived = b.isReceived ∧ a.offset = b.offset ∧ a.hadErrors = b.hadErrors ∧
    (a.isReceived = true → a.data = b.data)

/-- Two groups are the same, except for the contents of blocks that were not received. -/
structure Group.SameReceived (a b : Group) : Prop where
  type : a.type = b.type
  hasType : a.hasType = b.hasType
  time : a.time = b.time
  bler : a.bler = b.bler
  dataStream : a.dataStream = b.dataStream
  hasCPrime : a.hasCPrime = b.hasCPrime
  noOffsets : a.noOffsets = b.noOffsets
  block1 : a.block1.SameReceived b.block1
  block2 : a.block2.SameReceived b.block2
  block3 : a.block3.SameReceived b.block3
  block4 : a.block4.SameReceived b.block4

/-- The PI cache and what the current station has received, one step further. -/
def stationStep (s : CachedPI × Option (Word × List Handled)) :
    Trace → CachedPI × Option (Word × List Handled)
  | .reset => (s.1.reset, s.2)
  | .handled h =>
    match groupPI h.group with
    | none => (s.1, s.2.map fun a => (a.1, a.2 ++ [h]))
    | some p =>
      ((s.1.update p).1,
        if (s.1.update p).2 = .changeConfirmed then some (p, [h])
        else s.2.map fun a => (a.1, a.2 ++ [h]))

/-- The current station in a history: its PI code, and the groups from the one that announced it
on. -/
def currentStation (tr : List Trace) : Option (Word × List Handled) :=
  (tr.foldl stationStep ({}, none)).2

end Redsea
