import Verif.Model.Dsp
import Verif.Model.Input
import Verif.Model.Channel

/-
The demodulator and the main loop for MPX input: src/dsp/subcarrier.cc:91-240, src/redsea.cc:119-165.

The objects of liquid-dsp (src/dsp/liquid_wrappers.cc) are state machines about which nothing is known.
-/

namespace Redsea

/-- The objects of liquid-dsp behind the wrappers in src/dsp/liquid_wrappers.cc: their states, and what a call
does. `C` are the complex samples. -/
structure Liquid (F C : Type) where
  Agc : Type
  Fir : Type
  Nco : Type
  Sym : Type
  Modem : Type
  Res : Type
  /-- the states after construction, src/dsp/subcarrier.cc:91-103 -/
  newAgc : Agc
  newFir : Fir
  newNco : Nco
  newSym : Sym
  newModem : Modem
  newRes : Res
  /-- `AGC::execute` -/
  agcExecute : Agc → C → Agc × C
  /-- `FIRFilter::push`, `FIRFilter::execute` -/
  firPush : Fir → C → Fir
  firExecute : Fir → Fir × C
  /-- `NCO::mixDown` (changes nothing) of a sample, for a stream; `NCO::step`, `NCO::stepPLL`, `NCO::reset` -/
  mixDown : Nco → F → Nat → C
  ncoStep : Nco → Nco
  stepPLL : Nco → F → Nco
  ncoReset : Nco → Nco
  /-- `SymSync::execute`: `out_[0]` and the number of symbols; `SymSync::reset` -/
  symExecute : Sym → C → Sym × C × Nat
  symReset : Sym → Sym
  /-- `Modem::demodulate`, and the phase error limited and multiplied as in src/dsp/subcarrier.cc:190-192 -/
  demodulate : Modem → C → Modem
  phaseError : Modem → F
  /-- real part -/
  real : C → F
  /-- `Resampler::execute` -/
  resample : Res → F → Res × List F

/-- `struct Demod`, src/dsp/subcarrier.hh:54-62. -/
structure Demod {F C : Type} (L : Liquid F C) where
  agc : L.Agc
  fir : L.Fir
  sym : L.Sym
  delta : BitVec 32
  biphase : BiphaseDecoder F
  nco : L.Nco
  modem : L.Modem

/-- `class SubcarrierSet`, src/dsp/subcarrier.hh:65-92. `resampling` tells whether `resample_ratio_` differs
from 1. -/
structure SubcarrierSet {F C : Type} (L : Liquid F C) where
  sampleNum : BitVec 32
  resampling : Bool
  resampler : L.Res
  demods : List (Demod L)

/-- `kDecimateRatio`, src/dsp/subcarrier.hh:77-78: `(int)(171000.f / 1187.5f / 2 / 3)`. -/
def kDecimateRatio : Nat := 24

section

variable {F C : Type} (ar : Arith F) (L : Liquid F C)

/-- The state after construction. -/
def Demod.new : Demod L where
  agc := L.newAgc
  fir := L.newFir
  sym := L.newSym
  delta := 0
  biphase := BiphaseDecoder.new ar
  nco := L.newNco
  modem := L.newModem

/-- `SubcarrierSet::SubcarrierSet`, src/dsp/subcarrier.cc:91-103. (Sample rates for which the constructor throws:
see `resamplerAccepts`.) -/
def SubcarrierSet.new (resampling : Bool) : SubcarrierSet L where
  sampleNum := 0
  resampling := resampling
  resampler := L.newRes
  demods := List.replicate 4 (Demod.new ar L)

/-- `SubcarrierSet::reset`, src/dsp/subcarrier.cc:105-111. -/
def SubcarrierSet.reset (s : SubcarrierSet L) : SubcarrierSet L :=
  { s with
    demods := s.demods.map fun d => { d with sym := L.symReset d.sym, nco := L.ncoReset d.nco }
    sampleNum := 0 }

/-- The loop in `SubcarrierSet::resampleChunk`, src/dsp/subcarrier.cc:125-139. `used` is `i_resampled`. `none`:
a write outside `resamp_output` or `resampled_chunk_.data` (the assertions fail, or are compiled out). -/
def resampleLoop : L.Res → Nat → List F → Option (L.Res × List F)
  | r, _, [] => some (r, [])
  | r, used, x :: xs =>
    let q := L.resample r x
    if q.2.length > 2 ∨ used + q.2.length > kBufferSize then none
    else do
      let rest ← resampleLoop q.1 (used + q.2.length) xs
      pure (rest.1, q.2 ++ rest.2)

/-- `SubcarrierSet::resampleChunk`, src/dsp/subcarrier.cc:114-144. -/
def SubcarrierSet.resampleChunk (s : SubcarrierSet L) (chunk : List F) : Option (SubcarrierSet L × List F) :=
  if s.resampling then do
    let r ← resampleLoop L s.resampler 0 chunk
    pure ({ s with resampler := r.1 }, r.2)
  else some (s, chunk)

/-- The part that runs for every 24th sample, src/dsp/subcarrier.cc:177-204. The bits that are stored; `none` if
the biphase decoder leaves its array. -/
def Demod.decimated (d : Demod L) : Option (Demod L × List Bool) :=
  let f := L.firExecute d.fir
  let a := L.agcExecute d.agc f.2
  let s := L.symExecute d.sym a.2
  let d := { d with fir := f.1, agc := a.1, sym := s.1 }
  if s.2.2 = 1 then do
    let symbol := s.2.1
    let modem := L.demodulate d.modem symbol
    let b ← BiphaseDecoder.push ar d.biphase (L.real symbol)
    let d := { d with modem := modem, nco := L.stepPLL d.nco (L.phaseError modem), biphase := b.1 }
    if b.2.2 then
      let q := deltaDecode d.delta (if b.2.1 then 1 else 0)
      pure ({ d with delta := q.2 }, [q.1 != 0])
    else pure (d, [])
  else some (d, [])

/-- One sample of one stream, src/dsp/subcarrier.cc:166-206. -/
def Demod.sample (d : Demod L) (stream : Nat) (x : F) (decimate : Bool) : Option (Demod L × List Bool) := do
  let d := { d with fir := L.firPush d.fir (L.mixDown d.nco x stream) }
  let r ← if decimate then d.decimated ar L else some (d, [])
  pure ({ r.1 with nco := L.ncoStep r.1.nco }, r.2)

/-- One sample of all streams, src/dsp/subcarrier.cc:165-207; the streams have nothing in common. The numbers of the
streams begin with `k`. -/
def sampleStreams (num : Nat) (x : F) (decimate : Bool) : Nat → List (Demod L) →
    Option (List (Demod L) × List (List Bool))
  | _, [] => some ([], [])
  | k, d :: ds => do
    let r ← if k < num then d.sample ar L k x decimate else some (d, [])
    let rs ← sampleStreams num x decimate (k + 1) ds
    pure (r.1 :: rs.1, r.2 :: rs.2)

/-- The loop over the samples, src/dsp/subcarrier.cc:164-218; the bits of each stream. -/
def sampleLoop (num : Nat) : SubcarrierSet L → List F → Option (SubcarrierSet L × List (List Bool))
  | s, [] => some (s, s.demods.map fun _ => [])
  | s, x :: xs => do
    let r ← sampleStreams ar L num x (s.sampleNum.toNat % kDecimateRatio == 0) 0 s.demods
    let rs ← sampleLoop num { s with demods := r.1, sampleNum := s.sampleNum + 1 } xs
    pure (rs.1, List.zipWith (· ++ ·) r.2 rs.2)

/-- `SubcarrierSet::processChunk`, src/dsp/subcarrier.cc:150-221. `none` also for a stream that does not exist. -/
def SubcarrierSet.processChunk (s : SubcarrierSet L) (chunk : List F) (num : Nat) :
    Option (SubcarrierSet L × List (List Bool)) :=
  if num > s.demods.length then none
  else do
    let r ← s.resampleChunk L chunk
    sampleLoop ar L num r.1 r.2

/-! ### The main loop -/

/-- One PCM channel. -/
structure MpxChannel where
  subcarriers : SubcarrierSet L
  channel : Channel

/-- The condition of a reset, src/redsea.cc:153-154: `(float)n / 1187.5f > 10.f` and `(float)m / 171000.f > 5.f`.
In single precision, too, these are `n > 11875` and `m > 855000`: conversion and division are monotone, both sides
are exact at the limit, and one more bit or sample makes a difference that is larger than the precision. -/
def resetNeeded (s : SubcarrierSet L) (c : Channel) : Option Bool := do
  let b ← c.blockStreams[0]?
  pure (b.numBitsSinceSyncLost.toNat > 11875 && s.sampleNum.toNat > 855000)

/-- The loop over the streams, src/redsea.cc:151-158. -/
def streamTurn (env : Env) (delay : Nat → Int) (time : Int) : Nat → MpxChannel L → List (List Bool) →
    Option (MpxChannel L × List Trace)
  | _, m, [] => some (m, [])
  | n, m, bits :: rest => do
    let r ← Channel.processBits env delay time n m.channel bits
    let reset ← resetNeeded L m.subcarriers r.1
    let m := if reset then ⟨m.subcarriers.reset L, r.1.resetPI⟩ else ⟨m.subcarriers, r.1⟩
    let q ← streamTurn env delay time (n + 1) m rest
    pure (q.1, r.2.map .handled ++ (if reset then [.reset] else []) ++ q.2)

/-- One turn for a channel, src/redsea.cc:150-158. -/
def channelTurn (env : Env) (delay : Nat → Int) (num : Nat) (time : Int) (m : MpxChannel L) (chunk : List F) :
    Option (MpxChannel L × List Trace) := do
  let r ← m.subcarriers.processChunk ar L chunk num
  streamTurn L env delay time 0 ⟨r.1, m.channel⟩ (r.2.take num)

/-- One turn for all channels, src/redsea.cc:149-159; the numbers of the channels begin with `k`. -/
def channelsTurn (env : Env) (delay : Nat → Int) (num : Nat) (time : Int) (reader : MPXReader F) :
    Nat → List (MpxChannel L) → Option (List (MpxChannel L) × List (Nat × Trace))
  | _, [] => some ([], [])
  | k, m :: ms => do
    let chunk ← reader.readChunk k
    let r ← channelTurn ar L env delay num time m chunk
    let rs ← channelsTurn env delay num time reader (k + 1) ms
    pure (r.1 :: rs.1, r.2.map (fun t => (k, t)) ++ rs.2)

/-- The loop, src/redsea.cc:147-160. `clock` gives the times of `fillBuffer`; `fuel` bounds the number of turns. -/
def mpxLoop (env : Env) (delay : Nat → Int) (num : Nat) (clock : Nat → Int) : Nat → MPXReader F →
    List (MpxChannel L) → Option (List (MpxChannel L) × List (Nat × Trace))
  | 0, _, _ => none
  | fuel + 1, reader, ms =>
    if reader.isEof then some (ms, [])
    else do
      let reader := reader.fillBuffer
      let r ← channelsTurn ar L env delay num (clock fuel) reader 0 ms
      let rs ← mpxLoop env delay num clock fuel reader r.1
      pure (rs.1, r.2 ++ rs.2)

/-- `flush` for all channels, src/redsea.cc:162; the numbers of the channels begin with `k`. -/
def flushChannels (env : Env) (now : Nat → Nat → Int) : Nat → List (MpxChannel L) → Option (List (Nat × Trace))
  | _, [] => some []
  | k, m :: ms => do
    let r ← m.channel.flush env (now k)
    let rs ← flushChannels env now (k + 1) ms
    pure (r.2.map (fun h => (k, .handled h)) ++ rs)

/-- `processMPXInput`, src/redsea.cc:119-165, for a file that was opened: what happens in which channel, in order.
(That all channels get the options, and that a channel shows its number, see `Channel.new`.) -/
def processMPXInput (env : Env) (delay : Nat → Int) (o : Options) (resampling : Bool) (clock : Nat → Int)
    (now : Nat → Nat → Int) (fuel channels : Nat) (file : List F) : Option (List (Nat × Trace)) := do
  let num := if o.streams then 4 else 1
  let ms := (List.range channels).map fun ch => (⟨SubcarrierSet.new ar L resampling, Channel.new o ch⟩ : MpxChannel L)
  let r ← mpxLoop ar L env delay num clock fuel (MPXReader.init channels file) ms
  let f ← flushChannels L env now 0 r.1
  pure (r.2 ++ f)

end

/-- Whether the constructors of `Resampler` and `SubcarrierSet` succeed, src/dsp/liquid_wrappers.cc:214-228,
src/dsp/subcarrier.cc:102: otherwise an exception leaves `processMPXInput` and the program. The ratio is
`171000 / rate`; the limits are 0.005 and 2. (In single precision rates up to 2 Hz above 34200000 Hz give the limit.) -/
def resamplerAccepts (rate : Nat) : Bool := 171000 * 200 ≥ rate && 171000 ≤ 2 * rate

/-- The checks of the sample rate in `MPXReader::init`, src/io/input.cc:82-92. -/
def rateAccepted (rate : Nat) (streams : Bool) : Bool :=
  if rate < 128000 then false
  else if streams && rate < 171000 then false
  else if rate > 40000000 then false
  else true

end Redsea
