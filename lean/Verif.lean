import Verif.Model.Bits
import Verif.Model.Group
import Verif.Model.BlockSync
import Verif.Lemmas.BurstTable
import Verif.Props.BlockCode
import Verif.Lemmas.StreamInv
import Verif.Lemmas.Running
import Verif.Lemmas.StreamStep
import Verif.Lemmas.StreamMain
import Verif.Lemmas.StreamRun
import Verif.Lemmas.StreamBlock
import Verif.Lemmas.StreamDeliver
import Verif.Lemmas.StreamPhase
import Verif.Props.Stream
import Verif.Props.Sync
import Verif.Props.GroupType
import Verif.Model.CachedPI
import Verif.Props.PiCode
import Verif.Model.Text
import Verif.Spec.Text
import Verif.Lemmas.Text
import Verif.Lemmas.TextInOrder
import Verif.Props.Text
import Verif.Lemmas.Utf8
import Verif.Props.RtPlus
import Verif.Model.RadioText
import Verif.Spec.RadioText
import Verif.Lemmas.RadioText
import Verif.Lemmas.RadioTextWindow
import Verif.Props.RadioText
import Verif.Model.AltFreq
import Verif.Spec.AltFreq
import Verif.Lemmas.AltFreq
import Verif.Lemmas.AltFreqList
import Verif.Props.AltFreq
import Verif.Model.Base64
import Verif.Spec.Base64
import Verif.Props.Base64
import Verif.Model.Rft
import Verif.Model.Input
import Verif.Spec.Crc
import Verif.Props.Crc
import Verif.Spec.Rft
import Verif.Lemmas.Rft
import Verif.Props.Rft
import Verif.Spec.Input
import Verif.Lemmas.Input
import Verif.Props.HexIo
import Verif.Props.OtherInput
import Verif.Model.Tables
import Verif.Spec.Callsign
import Verif.Props.Tables
import Verif.Model.ClockTime
import Verif.Spec.ClockTime
import Verif.Props.ClockTime
import Verif.Props.TmcBasic
import Verif.Props.TmcMessages
import Verif.Props.TmcMulti
import Verif.Model.Options
import Verif.Model.Station
import Verif.Model.Channel
import Verif.Lemmas.Json
import Verif.Lemmas.StationOps
import Verif.Spec.Channel
import Verif.Lemmas.Channel
import Verif.Lemmas.ChannelId
import Verif.Lemmas.ChannelParts
import Verif.Props.Channel
import Verif.Spec.Station
import Verif.Lemmas.StationKeys
import Verif.Lemmas.StationHistory
import Verif.Lemmas.JsonPath
import Verif.Props.Station
import Verif.Props.OtherNetworks
import Verif.Props.MissingBlocks
import Verif.Props.StaleBlocks
import Verif.Model.Dsp
import Verif.Spec.Dsp
import Verif.Props.Dsp
import Verif.Model.Csv
import Verif.Props.Csv
import Verif.Props.Options
import Verif.Spec.Broadcast
import Verif.Props.GroupFields
import Verif.Props.GroupFieldsOther
import Verif.Spec.Texts
import Verif.Lemmas.StationSlots
import Verif.Lemmas.StationTexts
import Verif.Props.StationTexts
import Verif.Props.StationFrequencies
import Verif.Props.StationRadiotext
import Verif.Props.StationEnhancedRT
import Verif.Spec.TmcMessage
import Verif.Lemmas.TmcFields
import Verif.Props.TmcContent
import Verif.Spec.TmcQuantifier
import Verif.Props.TmcQuantifier
import Verif.Model.TmcData
import Verif.Model.TmcEvents
import Verif.Spec.Tables
import Verif.Spec.TmcData
import Verif.Lemmas.CsvTable
import Verif.Lemmas.EventTable
import Verif.Props.TmcEvents
import Verif.Props.TmcBuiltin
import Verif.Props.ServiceKeys
import Verif.Spec.Locations
import Verif.Lemmas.Locations
import Verif.Lemmas.LocationPoints
import Verif.Props.Locations
import Verif.Spec.Utf8
import Verif.Lemmas.Utf8Bytes
import Verif.Lemmas.Utf8Strings
import Verif.Lemmas.Utf8Station
import Verif.Lemmas.Utf8Check
import Verif.Props.Utf8
import Verif.Spec.OnAir
import Verif.Lemmas.EndToEnd
import Verif.Props.EndToEnd
import Verif.Model.Subcarrier
import Verif.Spec.Demod
import Verif.Lemmas.Subcarrier
import Verif.Props.Subcarrier
import Verif.Lemmas.SyncLost
import Verif.Lemmas.MpxLoop
import Verif.Lemmas.MpxChannels
import Verif.Props.MpxLoop
import Verif.Model.Programs
import Verif.Lemmas.HexPipe
import Verif.Props.HexPipe
import Verif.Spec.TmcStation
import Verif.Lemmas.TmcStation
import Verif.Props.TmcStation
import Verif.Props.TmcTuning
import Verif.Spec.TypeC
import Verif.Lemmas.TypeC
import Verif.Props.TypeC
import Verif.Spec.LineHeader
import Verif.Props.LineHeader
import Verif.Model.FeedThrough
import Verif.Props.FeedThrough
import Verif.Props.TefSession
import Verif.Model.TimeStamp
import Verif.Spec.TimeStamp
import Verif.Props.TimeStamp
import Verif.Spec.Countries
import Verif.Props.Countries
import Verif.Model.Main
import Verif.Props.Main
import Verif.Props.TmcProgram
import Verif.Model.JsonText
import Verif.Model.Output
import Verif.Spec.JsonText
import Verif.Lemmas.JsonText
import Verif.Lemmas.JsonLines
import Verif.Lemmas.OutputLines
import Verif.Props.JsonText
import Verif.Props.TableInfo
import Verif.Model.Files
import Verif.Spec.Files
import Verif.Props.Files
import Verif.Spec.CommandLine
import Verif.Props.CommandLine
import Verif.Spec.OutputOptions
import Verif.Lemmas.OutputOptions
import Verif.Lemmas.PlainMembers
import Verif.Lemmas.OutputOptionsRun
import Verif.Props.OutputOptions
import Verif.Props.PipeProgram
import Verif.Spec.Schema
import Verif.Lemmas.Schema
import Verif.Lemmas.SchemaOps
import Verif.Lemmas.SchemaApps
import Verif.Props.Schema
import Verif.Model.Nco
import Verif.Spec.Nco
import Verif.Lemmas.Nco
import Verif.Props.Nco
import Verif.Spec.ErrorDetection
import Verif.Lemmas.ErrorDetection
import Verif.Props.ErrorDetection
import Verif.Spec.Services
import Verif.Lemmas.Services
import Verif.Props.Services
import Verif.Spec.Recovery
import Verif.Lemmas.Recovery
import Verif.Props.Recovery
import Verif.Spec.Memory
import Verif.Lemmas.Memory
import Verif.Props.Memory
import Verif.Lemmas.Causal
import Verif.Props.Causal
import Verif.Spec.WallClock
import Verif.Lemmas.Alike
import Verif.Lemmas.WallClock
import Verif.Lemmas.OptionSound
import Verif.Props.WallClock
import Verif.Spec.Rbds
import Verif.Lemmas.Rbds
import Verif.Props.Rbds
import Verif.Spec.HexLines
import Verif.Lemmas.HexLines
import Verif.Props.HexLines
import Verif.Spec.DataStreams
import Verif.Lemmas.DataStreams
import Verif.Props.DataStreams
import Verif.Spec.UpperStreams
import Verif.Lemmas.UpperStreams
import Verif.Lemmas.UpperSound
import Verif.Props.UpperStreams
import Verif.Props.TmcWords
import Verif.Lemmas.ChannelNumber
import Verif.Props.ChannelNumber
import Verif.Spec.PlaceMembers
import Verif.Lemmas.PlaceMembers
import Verif.Props.PlaceMembers
import Verif.Lemmas.PlaceAbsent
import Verif.Props.PlaceAbsent
import Verif.Spec.KeyMembers
import Verif.Lemmas.KeyMembers
import Verif.Props.KeyMembers
