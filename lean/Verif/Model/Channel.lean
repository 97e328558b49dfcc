import Verif.Model.BlockSync
import Verif.Model.CachedPI
import Verif.Model.Station

/-
A channel: src/channel.hh:79-104, src/channel.cc, and `RunningAverage`, src/util.hh:149-170.

Clock readings (`std::chrono::system_clock::now()`) are inputs. Times are in milliseconds.
-/

namespace Redsea

/-- `RunningAverage<float, 12>`, src/util.hh:149-170. The values pushed are multiples of 1/4; the
model counts in quarters, which floats represent exactly. -/
structure RunningAverage where
  history : List Nat := List.replicate 12 0
  sum : Int := 0
  ptr : Nat := 0
  deriving DecidableEq, Repr

/-- `RunningAverage::push`, src/util.hh:154-159. `none`: access outside of the array. -/
def RunningAverage.push (r : RunningAverage) (v : Nat) : Option RunningAverage := do
  let old ← r.history[r.ptr]?
  pure { history := r.history.set r.ptr v
         sum := r.sum - old + v
         ptr := (r.ptr + 1) % r.history.length }

/-- `Group::setAverageBLER`, src/groups.cc:194-197, with `100 * getAverage()`: the model keeps the
sum of the last 12 values in quarters, that is, the number of wrong blocks out of 48. -/
def Group.setBler (g : Group) (q : Nat) : Group := { g with bler := some q }

/-- `class Channel`, src/channel.hh:79-104. -/
structure Channel where
  options : Options
  whichChannel : Nat
  cachedPi : CachedPI := {}
  blockStreams : List BlockStream := List.replicate 4 {}
  station : Station
  blerAverage : RunningAverage := {}
  lastRxTime : Int := 0

/-- A group that was handled by `processGroup`, in the form given to the station, and the line
that was printed. -/
structure Handled where
  group : Group
  line : Option Line

namespace Channel

/-- Constructor, src/channel.cc:41-49. -/
def new (options : Options) (whichChannel : Nat) : Channel :=
  { options := options, whichChannel := whichChannel
    station := Station.unknown options whichChannel }

/-- Constructor used for tests, src/channel.cc:52-60. -/
def newWithPI (options : Options) (pi : Word) : Channel :=
  { options := options, whichChannel := 0, station := Station.withPI options 0 pi
    cachedPi := ((({} : CachedPI).update pi).1.update pi).1 }

/-- The time stamp in `processGroup`, src/channel.cc:102-112. `now` is the clock. -/
def stampGroup (c : Channel) (now : Int) (g : Group) : Channel × Group :=
  if c.options.timestamp && g.time.isNone then
    ({ c with lastRxTime := now }, g.setTime (if now < c.lastRxTime then c.lastRxTime else now))
  else (c, g)

/-- The block error rate in `processGroup`, src/channel.cc:114-117. -/
def addBler (c : Channel) (g : Group) : Option (Channel × Group) :=
  if c.options.bler then do
    let r ← c.blerAverage.push g.getNumErrors
    pure ({ c with blerAverage := r }, g.setBler r.sum.toNat)
  else some (c, g)

/-- The stream number, src/channel.cc:119-122. -/
def markStream (g : Group) (stream : Nat) : Group :=
  (if stream ≠ 0 then g.setVersionC else g).setDataStream stream

/-- The PI cache in `processGroup`, src/channel.cc:127-137. -/
def updatePI (c : Channel) (g : Group) : Channel :=
  if g.hasPI then
    let r := c.cachedPi.update g.getPI
    let c := { c with cachedPi := r.1 }
    if r.2 = .changeConfirmed then
      { c with station := Station.withPI c.options c.whichChannel c.cachedPi.get }
    else c
  else c

/-- Output of `processGroup`, src/channel.cc:139-143, and `printAsHex`, src/io/output.hh:12-21. -/
def output (env : Env) (c : Channel) (g : Group) : Option (Channel × Option Line) :=
  if c.options.outputType = .hex then
    some (c, if g.isEmpty then none else
      some (.hex (printAsHex g
        (if c.options.timestamp then some (env.formatTime (g.time.getD 0)) else none))))
  else do
    let r ← c.station.updateAndPrint env g
    pure ({ c with station := r.1 }, r.2)

/-- `processGroup` after the time stamp, src/channel.cc:114-143. -/
def handleGroup (env : Env) (c : Channel) (g : Group) (stream : Nat) :
    Option (Channel × Handled) := do
  let q ← c.addBler g
  let g := markStream q.2 stream
  let r ← (q.1.updatePI g).output env g
  pure (r.1, { group := g, line := r.2 })

/-- `processGroup`, src/channel.cc:101-144. -/
def processGroup (env : Env) (c : Channel) (now : Int) (g : Group) (stream : Nat) :
    Option (Channel × Handled) :=
  let p := c.stampGroup now g
  p.1.handleGroup env p.2 stream

/-- One bit, and a group if it is now complete; src/channel.cc:65-67 and 74-77. `none`: no such
stream. -/
def pushBit (c : Channel) (bit : Bool) (stream : Nat) : Option (Channel × Option Group) := do
  let s ← c.blockStreams[stream]?
  let r := s.step c.options.useFec bit
  pure ({ c with blockStreams := c.blockStreams.set stream r.1 }, r.2)

/-- `processBit`, src/channel.cc:64-69. -/
def processBit (env : Env) (c : Channel) (now : Int) (bit : Bool) (stream : Nat) :
    Option (Channel × List Handled) := do
  let r ← c.pushBit bit stream
  match r.2 with
  | none => pure (r.1, [])
  | some g =>
    let p ← r.1.processGroup env now g stream
    pure (p.1, [p.2])

/-- `processBits`, src/channel.cc:72-97, on the remaining bits. `timeReceived` belongs to the last
bit; `delay k` is the duration of `k` bits in milliseconds (the number of remaining bits divided by
1187.5 bit/s, computed in double precision and truncated). -/
def processBits (env : Env) (delay : Nat → Int) (timeReceived : Int) (stream : Nat) :
    Channel → List Bool → Option (Channel × List Handled)
  | c, [] => some (c, [])
  | c, bit :: bits => do
    let r ← c.pushBit bit stream
    match r.2 with
    | none => processBits env delay timeReceived stream r.1 bits
    | some g =>
      let t := timeReceived - delay bits.length
      let t := if t < r.1.lastRxTime then r.1.lastRxTime else t
      -- the group has a time, so the clock is not read
      let p ← r.1.processGroup env 0 (g.setTime t) stream
      let rest ← processBits env delay timeReceived stream { p.1 with lastRxTime := t } bits
      pure (rest.1, p.2 :: rest.2)

/-- `flush`, src/channel.cc:147-153, for the given streams. -/
def flushStreams (env : Env) (now : Nat → Int) : Channel → List Nat → Option (Channel × List Handled)
  | c, [] => some (c, [])
  | c, i :: rest => do
    let s ← c.blockStreams[i]?
    let g := s.flushCurrentGroup
    if g.isEmpty then flushStreams env now c rest
    else
      let p ← c.processGroup env (now i) g i
      let r ← flushStreams env now p.1 rest
      pure (r.1, p.2 :: r.2)

/-- `flush`, src/channel.cc:147-153: streams 1 to 3. -/
def flush (env : Env) (c : Channel) (now : Nat → Int) : Option (Channel × List Handled) :=
  c.flushStreams env now [1, 2, 3]

/-- `resetPI`, src/channel.cc:160-162. -/
def resetPI (c : Channel) : Channel := { c with cachedPi := c.cachedPi.reset }

end Channel

/-- The ways in which a channel is used by src/redsea.cc. -/
inductive ChannelEvent where
  | bit (now : Int) (b : Bool) (stream : Nat)
  | bits (timeReceived : Int) (l : List Bool) (stream : Nat)
  | group (now : Int) (g : Group) (stream : Nat)
  | flush (now : Nat → Int)
  | resetPI

/-- What happened in a channel, in order. -/
inductive Trace where
  /-- a group was handled -/
  | handled (h : Handled)
  /-- the PI cache was reset -/
  | reset

/-- One call. -/
def Channel.step (env : Env) (delay : Nat → Int) (c : Channel) :
    ChannelEvent → Option (Channel × List Trace)
  | .bit now b stream => (c.processBit env now b stream).map fun r => (r.1, r.2.map .handled)
  | .bits t l stream =>
    (Channel.processBits env delay t stream c l).map fun r => (r.1, r.2.map .handled)
  | .group now g stream =>
    (c.processGroup env now g stream).map fun r => (r.1, [.handled r.2])
  | .flush now => (c.flush env now).map fun r => (r.1, r.2.map .handled)
  | .resetPI => some (c.resetPI, [.reset])

/-- A sequence of calls. -/
def Channel.run (env : Env) (delay : Nat → Int) : Channel → List ChannelEvent →
    Option (Channel × List Trace)
  | c, [] => some (c, [])
  | c, e :: es => do
    let r ← c.step env delay e
    let s ← Channel.run env delay r.1 es
    pure (s.1, r.2 ++ s.2)

end Redsea
