/-
The oscillator of the subcarrier demodulator, src/dsp/liquid_wrappers.cc:100-131: what redsea computes from the phase
of the oscillator of liquid-dsp.

Simplified: angles are exact rational numbers, measured in half turns (`kPi` is 1, `k2Pi` is 2), not single precision
numbers. The oscillator of liquid-dsp itself (`nco_crcf`) is not modelled: it shows in the phases it reports.
-/

namespace Redsea

/-- `unwrap`, src/dsp/liquid_wrappers.cc:109-115. -/
def unwrapPhase (phase : Rat) : Rat :=
  if phase > 1 then phase - 2 else if phase < -1 then phase + 2 else phase

/-- The members `prev_f0_phase_` and `phases_` of class `NCO`, src/dsp/liquid_wrappers.hh:112-113. -/
structure CarrierPhases where
  prev : Rat := 0
  phases : List Rat := [0, 0, 0, 0]

/-- `subcarrier_frequencies`, src/dsp/liquid_wrappers.cc:126. -/
def subcarrierFrequencies : List Rat := [57000, 66500, 71250, 76000]

/-- `NCO::step`, src/dsp/liquid_wrappers.cc:117-131; `now` is the phase that liquid-dsp reports after its own step. -/
def CarrierPhases.step (c : CarrierPhases) (now : Rat) : CarrierPhases :=
  let delta := unwrapPhase (now - c.prev)
  { prev := now
    phases := List.zipWith (fun p f => unwrapPhase (p + delta * f / 57000)) c.phases subcarrierFrequencies }

/-- What is called between two samples, src/dsp/subcarrier.cc:108 and 205: `NCO::reset` sets only the oscillator of
liquid-dsp (src/dsp/liquid_wrappers.cc:100-103), `NCO::step` see above. -/
inductive NcoCall where
  | reset
  | step (now : Rat)

/-- The effect of a call on the members of `NCO`, src/dsp/liquid_wrappers.cc:100-103, 117-131. -/
def CarrierPhases.call (c : CarrierPhases) : NcoCall → CarrierPhases
  | .reset => c
  | .step now => c.step now

/-- A sequence of calls, src/dsp/subcarrier.cc:160-206. -/
def CarrierPhases.run (c : CarrierPhases) (calls : List NcoCall) : CarrierPhases := calls.foldl CarrierPhases.call c

/-- The angle by which `NCO::mixDown` turns a sample back, src/dsp/liquid_wrappers.cc:105-107 (`none`: beyond the
array). -/
def CarrierPhases.mixAngle (c : CarrierPhases) (stream : Nat) : Option Rat := c.phases[stream]?

end Redsea
