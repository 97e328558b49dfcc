import Verif.Model.Subcarrier

/-
How a subcarrier is demodulated, without regard to chunks and other subcarriers.
-/

namespace Redsea.Spec

variable {F C : Type} (L : Liquid F C)

/-- The signal path of one subcarrier up to its symbols: filter, gain control, symbol synchroniser, and a carrier
oscillator that follows the phase error of the symbols. -/
structure Front where
  agc : L.Agc
  fir : L.Fir
  sym : L.Sym
  nco : L.Nco
  modem : L.Modem

/-- The path at the start. -/
def Front.new : Front L := ⟨L.newAgc, L.newFir, L.newSym, L.newNco, L.newModem⟩

/-- Sample number `k` of subcarrier `n`. The sample is mixed down and filtered. Every 24th sample goes to the symbol
synchroniser, which may give a symbol; a symbol corrects the oscillator. -/
def Front.step (n k : Nat) (f : Front L) (x : F) : Front L × Option C :=
  let fir := L.firPush f.fir (L.mixDown f.nco x n)
  if k % 24 = 0 then
    let e := L.firExecute fir
    let a := L.agcExecute f.agc e.2
    let s := L.symExecute f.sym a.2
    if s.2.2 = 1 then
      let m := L.demodulate f.modem s.2.1
      (⟨a.1, e.1, s.1, L.ncoStep (L.stepPLL f.nco (L.phaseError m)), m⟩, some s.2.1)
    else (⟨a.1, e.1, s.1, L.ncoStep f.nco, f.modem⟩, none)
  else (⟨f.agc, fir, f.sym, L.ncoStep f.nco, f.modem⟩, none)

/-- The symbols of subcarrier `n` in the samples `xs`, of which the first has number `k`. -/
def Front.symbols (n : Nat) : Nat → Front L → List F → List C
  | _, _, [] => []
  | k, f, x :: xs => (f.step L n k x).2.toList ++ Front.symbols n (k + 1) (f.step L n k x).1 xs

/-- The path after the samples `xs`, of which the first has number `k`. -/
def Front.after (n : Nat) : Nat → Front L → List F → Front L
  | _, f, [] => f
  | k, f, x :: xs => Front.after n (k + 1) (f.step L n k x).1 xs

/-- A restart: symbol synchroniser and oscillator. -/
def Front.restart (f : Front L) : Front L := { f with sym := L.symReset f.sym, nco := L.ncoReset f.nco }

/-- The symbols of subcarrier `n` in stretches of samples with a restart after each; the numbers of the samples begin
with 0 in each stretch. -/
def Front.symbolsOver (n : Nat) : Front L → List (List F) → List C
  | _, [] => []
  | f, xs :: rest => f.symbols L n 0 xs ++ Front.symbolsOver n ((f.after L n 0 xs).restart L) rest

/-- The output of the resampler. -/
def resampled : L.Res → List F → List F
  | _, [] => []
  | r, x :: xs => (L.resample r x).2 ++ resampled (L.resample r x).1 xs

/-- The resampler works as documented for a ratio up to 171/128: there are at most 2 output samples per input sample,
and the number of output samples for `n` input samples is at most the ratio times `n`, rounded up. -/
structure KeepsRate : Prop where
  few : ∀ r x, (L.resample r x).2.length ≤ 2
  rate : ∀ r xs, (resampled L r xs).length ≤ (xs.length * 171 + 127) / 128

end Redsea.Spec

namespace Redsea

/-- A sequence of calls of `processChunk`, and the bits of each call. -/
def processChunks {F C : Type} (ar : Arith F) (L : Liquid F C) (num : Nat) :
    SubcarrierSet L → List (List F) → Option (SubcarrierSet L × List (List (List Bool)))
  | s, [] => some (s, [])
  | s, c :: cs => do
    let r ← s.processChunk ar L c num
    let rs ← processChunks ar L num r.1 cs
    pure (rs.1, r.2 :: rs.2)

end Redsea
