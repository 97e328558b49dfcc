import Verif.Model.Channel

/-
How much a channel stores. Everything but the members of its station has a fixed size.
-/

namespace Redsea.Spec

/-- Bytes of a text. -/
def textUse (s : RDSString) : Nat := s.data.length + s.lastCompleteData.length + s.lastCompleteString.length

/-- Bytes of a RadioText. -/
def radioTextUse (r : RadioText) : Nat := textUse r.text + r.previousPotentiallyComplete.length

/-- Bytes and flags of a file: segments of five bytes, a flag for each, and checksums. -/
def fileUse (f : RFTFile) : Nat := 5 * f.data.size + f.received.size + f.crcChunks.size

/-- Elements of a traffic message. -/
def messageUse (m : Message) : Nat :=
  m.parts.length + m.events.length + m.supplementary.length + m.quantifiers.length + m.diversion.length

/-- What is stored about another network. -/
def networkUse (st : Station) (pi : Nat) : Nat :=
  ((st.eonPs (BitVec.ofNat 16 pi)).map textUse).getD 0 + (st.eonAf (BitVec.ofNat 16 pi)).freqs.length

/-- The number of elements in all strings, vectors and arrays of a station, and in its maps of other networks. -/
def stationUse (st : Station) : Nat :=
  textUse st.ps + textUse st.longPs + radioTextUse st.radiotext + radioTextUse st.ert + textUse st.ptyname.text +
    textUse st.fullTdc + st.altFreq.freqs.length + textUse st.tmc.ps + messageUse st.tmc.message +
    (st.rftFiles.map fileUse).sum + ((List.range 65536).map (networkUse st)).sum

end Redsea.Spec
