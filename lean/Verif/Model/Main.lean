import Verif.Model.FeedThrough
import Verif.Model.Subcarrier
import Verif.Model.TimeStamp
import Verif.Model.Files
import Verif.Model.TmcEvents

/-
The whole program: `main`, src/redsea.cc:205-234, with the loading of tables in the constructor of `TMCService`,
src/tmc/tmc.cc:445-457.

Output is a list of items for the standard output and one for the standard error. The texts of the usage, of the
version, of errors and warnings are not modelled. The order between the two streams is not modelled either.
-/

namespace Redsea

/-- What happens when the sound is opened, `MPXReader::init`, src/io/input.cc:46-98, `F` being samples. -/
inductive Recording (F : Type) where
  /-- `BeyondEofError` -/
  | nothing
  /-- another error of libsndfile -/
  | error
  /-- the file was opened; it has this sample rate and these channels -/
  | opened (rate channels : Nat) (samples : List F)

/-- What surrounds the program: libraries, files, clocks and input. -/
structure Machine (F : Type) where
  float : FloatLib
  /-- conversions of `strftime` -/
  conv : Str → Int → Str
  ucs2 : Ucs2Decoder
  what : Str
  converter : TextConverter
  toDegrees : Int → BitVec 32
  /-- the content of the file with some path, if it can be opened -/
  files : Str → Option Str
  delay : Nat → Int
  now : Nat → Int
  /-- the times during `flush` of a channel -/
  later : Nat → Nat → Int
  /-- the standard input, for input that is text -/
  stdin : Str
  /-- the sound, for these options -/
  sound : Options → Recording F

/-- Something that is printed. -/
inductive Item (F : Type) where
  | usage
  | version
  | error
  /-- the line about a location table, src/tmc/locationdb.cc:187-192 -/
  | tableInfo (text : Str)
  | line (l : Line)
  | echo (s : Str)
  | echoSamples (l : List F)

/-- The end of the program. -/
structure Finished (F : Type) where
  success : Bool
  stdout : List (Item F)
  stderr : List (Item F)

variable {F : Type}

/-- The lines of the key file, src/tmc/tmc.cc:357. -/
def Machine.keyFile (m : Machine F) : List Str := fileLines (m.files (ascii "service_key_table.csv"))

/-- The files of a location table. -/
def Machine.directory (m : Machine F) (dir : Str) : LocationFiles := tableFiles m.files dir

/-- The loop of the constructor of `TMCService`, src/tmc/tmc.cc:447-456: `g_location_databases`, the latest assignment
first. It runs when the first channel is made. `none`: an exception leaves the constructor. -/
def loadTables (m : Machine F) : List Str → Option (List (Word × LocationDatabase))
  | [] => some []
  | dir :: dirs => do
    let ltn ← readLTN (m.directory dir)
    let db ← loadLocationDatabase m.converter m.toDegrees (m.directory dir)
    let rest ← loadTables m dirs
    pure (rest ++ [(ltn, db)])

/-- The data of the decoder: the lists in the program, src/tmc/tmc.cc:298-352, the key file and the location tables.
`loadEventData` runs when the first system information is received; no event is looked up before (`receiveUserGroup`,
src/tmc/tmc.cc:507-509). -/
def Machine.env (m : Machine F) (o : Options) (tables : List (Word × LocationDatabase)) : Env :=
  { tmc :=
      { ucs2 := m.ucs2
        events := fun c => ((loadEvents tmcDataEvents).getD []).lookup (BitVec.ofNat 16 c)
        supplementary := fun c => ((loadSupplementary tmcDataSuppl).getD []).lookup (BitVec.ofNat 16 c)
        serviceKey := fun e => (loadServiceKeys m.keyFile).lookup (BitVec.ofNat 16 e)
        locations := fun n => (tables.lookup (BitVec.ofNat 16 n)).getD {} }
    formatTime := fun t => getTimePointString m.conv t o.timeFormat
    what := m.what }

/-- The lines about location tables, printed after each was loaded, src/tmc/tmc.cc:451-454. -/
def tableLines (tables : List (Word × LocationDatabase)) : List (Item F) :=
  tables.reverse.map fun t => .tableInfo t.2.text

/-- The end of a program that decodes: groups and the lines about tables go to the standard output, or, if the input is
echoed, to the standard error (src/redsea.cc:135, 169, 182, 194, src/tmc/tmc.cc:451-454). -/
def finish (o : Options) (tables : List (Word × LocationDatabase)) (tr : List Trace) (echo : Item F) : Finished F :=
  let lines := tableLines tables ++ (printedLines tr).map .line
  if o.feedThru then { success := true, stdout := [echo], stderr := lines }
  else { success := true, stdout := lines, stderr := [] }

/-- `processASCIIBitsInput`, src/redsea.cc:168-179, with everything around it. -/
def runBits (m : Machine F) (o : Options) : Option (Finished F) := do
  let tables ← loadTables m o.loctableDirs
  let r ← processASCIIBitsInput (m.env o tables) m.delay m.now (m.later 0) o m.stdin
  pure (finish o tables r.2 (.echo (bitsEcho m.stdin)))

/-- `processHexInput`, src/redsea.cc:181-190. -/
def runHex (m : Machine F) (o : Options) : Option (Finished F) := do
  let tables ← loadTables m o.loctableDirs
  let r ← processHexInput (m.env o tables) m.delay m.now o m.stdin
  pure (finish o tables r.2 (.echo (hexEcho m.stdin)))

/-- `processTEFInput`, src/redsea.cc:193-201. -/
def runTEF (m : Machine F) (o : Options) : Option (Finished F) := do
  let tables ← loadTables m o.loctableDirs
  let r ← processTEFInput (m.env o tables) m.delay m.now o m.stdin
  pure (finish o tables r.2 (.echo (tefEcho m.stdin)))

section
variable {C : Type} (ar : Arith F) (L : Liquid F C)

/-- `processMPXInput`, src/redsea.cc:119-165, with the conditions of `MPXReader::init` and of the constructors of
`SubcarrierSet`. Channels are made before subcarriers. -/
def runMPX (m : Machine F) (o : Options) : Option (Finished F) :=
  match m.sound o with
  | .nothing => some { success := false, stdout := [.usage], stderr := [] }
  | .error => some { success := false, stdout := [], stderr := [.error] }
  | .opened rate channels samples =>
    if !rateAccepted rate o.streams then some { success := false, stdout := [], stderr := [.error] }
    else do
      let o := { o with samplerate := .num rate, numChannels := channels }
      let tables ← loadTables m o.loctableDirs
      if !resamplerAccepts rate then none
      else do
        let tr ← processMPXInput ar L (m.env o tables) m.delay o (rate ≠ 171000) m.now m.later
          (samples.length + 2) channels samples
        let echo ← mpxEcho (samples.length + 2) (MPXReader.init channels samples)
        pure (finish o tables (tr.map (·.2)) (.echoSamples echo))

/-- `main`, src/redsea.cc:205-234. `none`: the program is terminated by an exception, or behaves in an undefined
way. -/
def runMain (m : Machine F) (opts : List Opt) (extra : Bool) : Option (Finished F) :=
  match getOptions m.float opts extra with
  | none => some { success := false, stdout := [], stderr := [.error] }
  | some o =>
    if o.earlyExit then
      some { success := !o.initError
             stdout := (if o.printUsage then [.usage] else []) ++ (if o.printVersion then [.version] else [])
             stderr := [] }
    else match o.inputType with
      | .mpxStdin => runMPX ar L m o
      | .mpxSndfile => runMPX ar L m o
      | .asciiBits => runBits m o
      | .hex => runHex m o
      | .tef6686 => runTEF m o

end

end Redsea
