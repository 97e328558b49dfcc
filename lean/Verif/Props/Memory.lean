import Verif.Lemmas.Memory
import Verif.Props.Channel

/-
C95: the memory for a channel is bounded.
-/

namespace Redsea
open _root_.Redsea.Spec

/-- C95. However long a channel is received, and whatever is sent, its station never stores more than 7415734 elements
(bytes, flags, numbers); 7413760 of them for the sixteen files and for the 65536 possible other networks. -/
theorem C95_bounded (env : Env) (hk : env.tmc.KeysOk) (hu : env.ucs2.Modest) (delay : Nat → Int) (o : Options) (w : Nat)
    (es : List ChannelEvent) (c : Channel) (tr : List Trace) (h : Channel.run env delay (Channel.new o w) es = some (c, tr)) :
    stationUse c.station ≤ 7415734 :=
  (inv_calls (channel_fits hk hu) es (tr := []) (fits_unknown o w) h).use

/-- C95, for the single buffers: no text grows beyond its length, and no message beyond its five groups. -/
theorem C95_each_bounded (env : Env) (hk : env.tmc.KeysOk) (hu : env.ucs2.Modest) (delay : Nat → Int) (o : Options) (w : Nat)
    (es : List ChannelEvent) (c : Channel) (tr : List Trace) (h : Channel.run env delay (Channel.new o w) es = some (c, tr)) :
    textUse c.station.ps ≤ 40 ∧ textUse c.station.longPs ≤ 160 ∧ radioTextUse c.station.radiotext ≤ 512 ∧
      radioTextUse c.station.ert ≤ 512 ∧ textUse c.station.ptyname.text ≤ 40 ∧ textUse c.station.fullTdc ≤ 640 ∧
      c.station.altFreq.freqs.length = 25 ∧ messageUse c.station.tmc.message = 5 ∧ c.station.rftFiles.length = 16 ∧
      (∀ f ∈ c.station.rftFiles, fileUse f ≤ 197120) ∧ ∀ p < 65536, networkUse c.station p ≤ 65 := by
  have i := inv_calls (channel_fits hk hu) es (tr := []) (fits_unknown o w) h
  refine ⟨i.slots.ps.use, i.slots.longPs.use, i.slots.radiotext.use, i.slots.ert.use, i.slots.ptyname.use,
    i.slots.fullTdc.use, ?_, i.rest.tmc.use, i.good.rftLen, fun f hf => (i.rest.rft f hf).use, fun p _ => i.network p⟩
  obtain ⟨codes, hc⟩ := i.good.af
  exact hc.wf.len

/-- The hypotheses are met; a station with a complete name and a segment of a file stores something indeed. -/
example : demoEnv.tmc.KeysOk ∧ demoEnv.ucs2.Modest ∧
    (Channel.run demoEnv (fun _ => 0) (Channel.new {} 0) (demoCalls
      ([0, 0, 0, 0, 1, 2, 3].map (fun i => demoGroup 0x6204 (0x0400 + i) 0xE0CD 0x4142) ++
        [{ demoGroup 0x2000 0x0041 0x4242 0x4343 with type := ⟨0, .C⟩, hasType := true }]))).map
      (fun r => (textUse r.1.station.ps, (r.1.station.rftFiles.map fileUse))) =
      some (24, 196608 :: List.replicate 15 0) :=
  ⟨demoEnv_keys, (by intro b t h; cases h), by decide +kernel⟩

end Redsea
