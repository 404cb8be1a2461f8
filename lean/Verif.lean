import Verif.Props.Header
import Verif.Props.Address
import Verif.Props.RouteAttr
import Verif.Props.Record
import Verif.Props.Compare
import Verif.Props.Cache
import Verif.Props.Collector
import Verif.Props.SaverFiles
import Verif.Props.SaverRuns
import Verif.Props.SaverInput
import Verif.Props.SaverStats
import Verif.Model.Marshal
import Verif.Spec.Marshal
import Verif.Lemmas.Marshal
import Verif.Props.Marshal
import Verif.Model.Snapshot
import Verif.Spec.Snapshot
import Verif.Lemmas.Snapshot
import Verif.Props.Snapshot
import Verif.Model.RawReader
import Verif.Props.RawReader
import Verif.Model.Zstd
import Verif.Spec.Zstd
import Verif.Lemmas.Zstd
import Verif.Props.Zstd
import Verif.Model.EventSocket
import Verif.Spec.EventSocket
import Verif.Lemmas.EventSocket
import Verif.Props.EventSocket
import Verif.Model.Strings
import Verif.Props.Strings
import Verif.Model.Text
import Verif.Lemmas.Text
import Verif.Model.Json
import Verif.Lemmas.Json
import Verif.Lemmas.JsonStr
import Verif.Model.Archive
import Verif.Spec.Archive
import Verif.Lemmas.Archive
import Verif.Model.IPText
import Verif.Lemmas.IPText
import Verif.Lemmas.AddrText
import Verif.Spec.NumText
import Verif.Lemmas.NumText
import Verif.Props.AddressText
import Verif.Props.Archive
import Verif.Props.EndToEnd
import Verif.Model.EventClient
import Verif.Spec.EventClient
import Verif.Lemmas.EventClient
import Verif.Lemmas.Length
import Verif.Props.EventClient
import Verif.Props.SaverState
import Verif.Model.Wiring
import Verif.Spec.Subscriber
import Verif.Lemmas.SaverNotes
import Verif.Lemmas.Ranges
import Verif.Props.Subscriber
import Verif.Props.Whole
import Verif.Model.Main
import Verif.Spec.Main
import Verif.Props.Main
import Verif.Model.Counters
import Verif.Props.Counters
import Verif.Model.ZstdReader
import Verif.Lemmas.ZstdReader
import Verif.Props.ZstdReader
import Verif.Model.ExampleClient
import Verif.Props.ExampleClient
import Verif.Model.Process
import Verif.Lemmas.Process
import Verif.Lemmas.LineLength
import Verif.Spec.ShortInput
import Verif.Props.Process
import Verif.Model.Csv
import Verif.Spec.Csv
import Verif.Lemmas.Csv
import Verif.Props.Csv
import Verif.Model.Metrics
import Verif.Spec.Metrics
import Verif.Lemmas.Metrics
import Verif.Props.Metrics
import Verif.Spec.Recover
import Verif.Props.Recover
import Verif.Props.RecoverArchive
import Verif.Model.Memory
import Verif.Spec.Memory
import Verif.Lemmas.Memory
import Verif.Props.Memory
import Verif.Model.Path
import Verif.Spec.Path
import Verif.Lemmas.Path
import Verif.Props.Path
import Verif.Model.CsvMain
import Verif.Props.CsvMain
import Verif.Model.Ticker
import Verif.Props.Ticker
import Verif.Model.SocketFile
import Verif.Spec.SocketFile
import Verif.Props.SocketFile
import Verif.Model.ExampleMain
import Verif.Props.ExampleMain
import Verif.Spec.Crash
import Verif.Lemmas.SaverCrash
import Verif.Props.Crash
import Verif.Model.SetBytes
import Verif.Props.SetBytes
import Verif.Model.Startup
import Verif.Props.Startup
import Verif.Model.Histogram
import Verif.Props.Histogram
import Verif.Props.Events
import Verif.Props.Disk
import Verif.Props.Killed
import Verif.Model.Accesses
import Verif.Spec.HappensBefore
import Verif.Lemmas.Accesses
import Verif.Props.Race
import Verif.Props.Rates
import Verif.Spec.Clock
import Verif.Lemmas.Clock
import Verif.Lemmas.Indexing
import Verif.Props.Clock
import Verif.Props.PollTimes
import Verif.Model.ByteReads
import Verif.Lemmas.ByteReads
import Verif.Props.ByteReads
import Verif.Spec.Exported
import Verif.Lemmas.Exported
import Verif.Props.Exported
import Verif.Model.FileSystem
import Verif.Lemmas.FileSystem
import Verif.Props.FileSystem
import Verif.Model.SnapshotMemory
import Verif.Spec.SnapshotMemory
import Verif.Lemmas.SnapshotMemory
import Verif.Props.SnapshotMemory
import Verif.Model.Flags
import Verif.Spec.Flags
import Verif.Lemmas.Flags
import Verif.Props.Flags
import Verif.Props.Duration
import Verif.Props.Resources
import Verif.Props.EventFiles
import Verif.Props.Independence
import Verif.Props.Novelty
import Verif.Props.Privacy
import Verif.Props.Creations
import Verif.Spec.Pace
import Verif.Lemmas.SaverGrow
import Verif.Lemmas.Pace
import Verif.Props.Pace
