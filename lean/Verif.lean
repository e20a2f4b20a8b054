import Verif.Props.Buffers
import Verif.Props.BufferInspect
import Verif.Props.Frames
import Verif.Props.Messages
import Verif.Props.Conn
import Verif.Props.DSN
import Verif.Props.Handshake
import Verif.Props.Event
import Verif.Props.Session
import Verif.Props.FullSession
import Verif.Props.Admission
import Verif.Props.Distributor
import Verif.Props.Server
import Verif.Props.Cli
import Verif.Props.Inspector
import Verif.Props.System
import Verif.Props.Process
import Verif.Props.FileWatcher
import Verif.Props.Served
import Verif.Props.Listening
import Verif.Props.Closed
import Verif.Props.WaitGroup
import Verif.Props.Races
import Verif.Props.Logging
import Verif.Props.Startup
import Verif.Props.InspectorUse
import Verif.Props.Pieces
import Verif.Props.Whole
import Verif.Props.Sequential
import Verif.Props.Backpressure
import Verif.Props.URI
import Verif.Props.URIRefused
import Verif.Props.URIProgram
import Verif.Props.CliWatch
import Verif.Props.Program
import Verif.Props.ServerLock
import Verif.Props.DistributorLock
import Verif.Props.SessionLog
import Verif.Props.ServerLog
import Verif.Props.SystemLog
import Verif.Props.WatchLog
import Verif.Props.WatchLogProgram
import Verif.Props.DistributorLog
import Verif.Tests.Pg
import Verif.Tests.Server
import Verif.Tests.Cli
import Verif.Tests.Pgmeta
