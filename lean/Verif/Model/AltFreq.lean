import Verif.Model.Bits

/-
Alternative frequencies: src/util.hh:95-125, src/util.cc:83-201, and the list handling in
`Station::decodeType0`, src/groups.cc:422-492.

Accesses to the array `alt_freqs_` are explicit: a function returns `none` if the C++ code
would access the array outside its 25 entries.
-/

namespace Redsea

/-- `CarrierFrequency::Band`, src/util.hh:97. -/
inductive Band where
  | lfMf | fm
  deriving DecidableEq, Repr

/-- `CarrierFrequency`, src/util.hh:95-109. -/
structure CarrierFrequency where
  code : Nat
  band : Band := .fm
  deriving DecidableEq, Repr

/-- `CarrierFrequency::isValid`, src/util.cc:86-89. -/
def CarrierFrequency.isValid (f : CarrierFrequency) : Bool :=
  (f.band == .lfMf && decide (f.code ≥ 1) && decide (f.code ≤ 135)) ||
    (f.band == .fm && decide (f.code ≥ 1) && decide (f.code ≤ 204))

/-- `CarrierFrequency::kHz`, src/util.cc:92-108. -/
def CarrierFrequency.kHz (f : CarrierFrequency) : Int :=
  if f.isValid then
    match f.band with
    | .fm => 87500 + 100 * (f.code : Int)
    | .lfMf =>
      if f.code ≤ 15 then 144 + 9 * (f.code : Int) else 522 + 9 * ((f.code : Int) - 15)
  else 0

/-- `AltFreqList`, src/util.hh:111-125. -/
structure AltFreqList where
  freqs : List Int := List.replicate 25 0
  numExpected : Nat := 0
  numReceived : Nat := 0
  lfMfFollows : Bool := false
  deriving DecidableEq, Repr

namespace AltFreqList

/-- `clear`, src/util.cc:199-201. -/
def clear (l : AltFreqList) : AltFreqList := { l with numExpected := 0, numReceived := 0 }

/-- `insert`, src/util.cc:139-170. `none`: write outside the array. -/
def insert (l : AltFreqList) (code : Nat) : Option AltFreqList :=
  let f : CarrierFrequency := { code := code, band := if l.lfMfFollows then .lfMf else .fm }
  let l := { l with lfMfFollows := false }
  if f.isValid && decide (l.numExpected > 0) then
    if l.numReceived < l.numExpected then
      if l.numReceived < l.freqs.length then
        some { l with freqs := l.freqs.set l.numReceived f.kHz, numReceived := l.numReceived + 1 }
      else none
    else some l.clear
  else if code = 205 ∨ code = 224 then some l
  else if 225 ≤ code ∧ code ≤ 249 then
    some { l with numExpected := code - 224, numReceived := 0 }
  else if code = 250 then some { l with lfMfFollows := true }
  else some l.clear

/-- The loop of `isMethodB`, src/util.cc:180-187, from index `i` on; `none`: read outside the
array. -/
def methodBLoop (l : AltFreqList) (tuned : Int) : Nat → Nat → Option Bool
  | 0, _ => some true
  | fuel + 1, i =>
    if i < l.numReceived then
      match l.freqs[i]?, l.freqs[i + 1]? with
      | some f1, some f2 =>
        if f1 ≠ tuned ∧ f2 ≠ tuned then some false else methodBLoop l tuned fuel (i + 2)
      | _, _ => none
    else some true

/-- `isMethodB`, src/util.cc:173-188. The loop runs at most `num_received_` times, which is
the fuel given. -/
def isMethodB (l : AltFreqList) : Option Bool :=
  if l.numExpected % 2 ≠ 1 ∨ l.numReceived < 3 then some false
  else
    match l.freqs[0]? with
    | some tuned => l.methodBLoop tuned l.numReceived 1
    | none => none

/-- `isComplete`, src/util.cc:190-192. -/
def isComplete (l : AltFreqList) : Bool :=
  l.numExpected == l.numReceived && decide (l.numReceived > 0)

/-- `getRawList`, src/util.cc:195-197. `none`: iterator past the end of the array. -/
def getRawList (l : AltFreqList) : Option (List Int) :=
  if l.numReceived ≤ l.freqs.length then some (l.freqs.take l.numReceived) else none

end AltFreqList

/-- The loop over frequency pairs in `decodeType0`, src/groups.cc:448-468, on the rest of
the raw list: collected same-programme frequencies and regional variants. `none`: a pair is
cut off (the `assert` fails and the list would be read past its end). -/
def methodBPairs (tuned : Int) : List Int → Option (List Int × List Int)
  | [] => some ([], [])
  | [_] => none
  | f1 :: f2 :: rest =>
    let nonTuned := if f1 = tuned then f2 else f1
    match methodBPairs tuned rest with
    | none => none
    | some (same, regional) =>
      if f1 < f2 then some (nonTuned :: same, regional) else some (same, nonTuned :: regional)

/-- Number of distinct elements (size of a `std::set` they were inserted into). -/
def uniqueCount : List Int → Nat
  | [] => 0
  | a :: l => if l.contains a then uniqueCount l else uniqueCount l + 1

/-- What the frequency part of `decodeType0` adds to the JSON object. -/
inductive AfOut where
  | nothing
  | methodA (list : List Int)
  | methodB (tuned : Int) (same regional : List Int)
  | partialList (list : List Int)
  deriving DecidableEq, Repr

/-- Output for a complete raw list, src/groups.cc:436-485. -/
def afComplete (raw : List Int) (isB : Bool) : Option AfOut :=
  if isB then
    match raw with
    | [] => none
    | tuned :: rest =>
      match methodBPairs tuned rest with
      | none => none
      | some (same, regional) =>
        if uniqueCount same + uniqueCount regional = raw.length / 2 then
          some (.methodB tuned same regional)
        else some .nothing
  else some (.methodA raw)

/-- Frequency part of `decodeType0` for a 0A group with block 3, src/groups.cc:429-491. The
outer `Option` is `none` for an invalid access. -/
def afReceive (showPartial : Bool) (l : AltFreqList) (block3 : Word) :
    Option (AltFreqList × AfOut) := do
  let l ← l.insert (getUint8 block3 8).toNat
  let l ← l.insert (getUint8 block3 0).toNat
  if l.isComplete then
    let raw ← l.getRawList
    let isB ← l.isMethodB
    let out ← afComplete raw isB
    pure (l.clear, out)
  else if showPartial then
    let raw ← l.getRawList
    pure (l, if raw = [] then .nothing else .partialList raw)
  else pure (l, .nothing)

/-- Frequency part of `decodeType0` when block 3 is missing, src/groups.cc:422-427. -/
def afMissing (l : AltFreqList) : Option AltFreqList := do
  let isB ← l.isMethodB
  pure (if isB then l.clear else l)

end Redsea
