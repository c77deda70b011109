import Verif.Check.Repo
import Verif.Go.Basic
import Verif.Go.Float
import Verif.Lemmas.Asked
import Verif.Lemmas.Conn
import Verif.Lemmas.ConnAck
import Verif.Lemmas.ConnChan
import Verif.Lemmas.ConnCrash
import Verif.Lemmas.ConnFair
import Verif.Lemmas.ConnFair2
import Verif.Lemmas.ConnHist
import Verif.Lemmas.ConnLive
import Verif.Lemmas.ConnOnce
import Verif.Lemmas.ConnOrder
import Verif.Lemmas.ConnRange
import Verif.Lemmas.ConnReader
import Verif.Lemmas.ConnReaderFair
import Verif.Lemmas.ConnReaderLive
import Verif.Lemmas.ConnRelease
import Verif.Lemmas.ConnRuns
import Verif.Lemmas.ConnScan
import Verif.Lemmas.ConnTable
import Verif.Lemmas.ConnWire
import Verif.Lemmas.Connect
import Verif.Lemmas.Ctl
import Verif.Lemmas.CtlDeliv
import Verif.Lemmas.CtlDisc
import Verif.Lemmas.CtlFair
import Verif.Lemmas.CtlHist
import Verif.Lemmas.CtlMore
import Verif.Lemmas.CtlRun
import Verif.Lemmas.CtlSave
import Verif.Lemmas.Decode
import Verif.Lemmas.DevGen
import Verif.Lemmas.EndToEnd
import Verif.Lemmas.Fair
import Verif.Lemmas.Json
import Verif.Lemmas.JsonFuel
import Verif.Lemmas.Lives
import Verif.Lemmas.Match
import Verif.Lemmas.NewMessage
import Verif.Lemmas.NodeAsk
import Verif.Lemmas.NodeAwake
import Verif.Lemmas.NodeFair
import Verif.Lemmas.NodeIdent
import Verif.Lemmas.NodeList
import Verif.Lemmas.NodeM
import Verif.Lemmas.NodeRace
import Verif.Lemmas.NodeState
import Verif.Lemmas.NodeTerm
import Verif.Lemmas.Panics
import Verif.Lemmas.Persist
import Verif.Lemmas.PersistLoad
import Verif.Lemmas.PersistNum
import Verif.Lemmas.PersistReach
import Verif.Lemmas.PersistSave
import Verif.Lemmas.PersistSort
import Verif.Lemmas.Print
import Verif.Lemmas.PrintRead
import Verif.Lemmas.Process
import Verif.Lemmas.ProcessFair
import Verif.Lemmas.ProcessInv
import Verif.Lemmas.ProcessNode
import Verif.Lemmas.ProcessRuns
import Verif.Lemmas.Reader
import Verif.Lemmas.Recorder
import Verif.Lemmas.Reports
import Verif.Lemmas.Serial
import Verif.Lemmas.Shown
import Verif.Lemmas.Stream
import Verif.Lemmas.System
import Verif.Lemmas.Tables
import Verif.Lemmas.Tools
import Verif.Lemmas.Users
import Verif.Lemmas.Web
import Verif.Model.Commands
import Verif.Model.Conn
import Verif.Model.Connect
import Verif.Model.Controller
import Verif.Model.Database
import Verif.Model.DevGen
import Verif.Model.DeviceClass
import Verif.Model.Example
import Verif.Model.Json
import Verif.Model.Match
import Verif.Model.Node
import Verif.Model.NodeList
import Verif.Model.NodeM
import Verif.Model.Persist
import Verif.Model.Print
import Verif.Model.Process
import Verif.Model.Reader
import Verif.Model.Recorder
import Verif.Model.Reports
import Verif.Model.Save
import Verif.Model.Serial
import Verif.Model.System
import Verif.Model.Tables.Devices
import Verif.Model.Tables.Devices1
import Verif.Model.Tables.Devices2
import Verif.Model.Tables.Devices3
import Verif.Model.Tables.FileRow
import Verif.Model.Tables.Files
import Verif.Model.Tables.Files1
import Verif.Model.Tables.Files2
import Verif.Model.Tables.Files3
import Verif.Model.Tables.Mandatory
import Verif.Model.Tables.Names
import Verif.Model.Tables.Row
import Verif.Model.Tools
import Verif.Model.Users
import Verif.Props.AlarmFair
import Verif.Props.AlarmWire
import Verif.Props.Asked
import Verif.Props.CommandFair
import Verif.Props.CommandPath
import Verif.Props.Commands
import Verif.Props.ConnChan
import Verif.Props.ConnCrash
import Verif.Props.ConnCtl
import Verif.Props.ConnFair
import Verif.Props.ConnLive
import Verif.Props.ConnReader
import Verif.Props.ConnReaderFair
import Verif.Props.ConnWire
import Verif.Props.Connect
import Verif.Props.Control
import Verif.Props.Ctl
import Verif.Props.CtlEvents
import Verif.Props.CtlFair
import Verif.Props.DevGen
import Verif.Props.EndToEnd
import Verif.Props.Framing
import Verif.Props.Known
import Verif.Props.Lives
import Verif.Props.Match
import Verif.Props.Node
import Verif.Props.NodeAsk
import Verif.Props.NodeFair
import Verif.Props.NodeList
import Verif.Props.NodeRace
import Verif.Props.Persist
import Verif.Props.Postponed
import Verif.Props.Print
import Verif.Props.Process
import Verif.Props.ProcessFair
import Verif.Props.Race
import Verif.Props.Reader
import Verif.Props.RealDB
import Verif.Props.Recorder
import Verif.Props.Reported
import Verif.Props.Reports
import Verif.Props.SameNetwork
import Verif.Props.SameNetworkAlarm
import Verif.Props.SameNetworkEvents
import Verif.Props.SameNetworkFile
import Verif.Props.SameNetworkWire
import Verif.Props.Save
import Verif.Props.SaveEnd
import Verif.Props.SavePending
import Verif.Props.SecondStart
import Verif.Props.SensorFloat
import Verif.Props.Shown
import Verif.Props.Sleep
import Verif.Props.System
import Verif.Props.Tables
import Verif.Props.Tools
import Verif.Props.Users
import Verif.Props.Web
import Verif.Props.WireFile
import Verif.Props.WireSleep
import Verif.Spec.Asked
import Verif.Spec.Commands
import Verif.Spec.ConnFair
import Verif.Spec.ConnReader
import Verif.Spec.ConnReaderFair
import Verif.Spec.Connect
import Verif.Spec.Crash
import Verif.Spec.Ctl
import Verif.Spec.CtlFair
import Verif.Spec.EndToEnd
import Verif.Spec.Fair
import Verif.Spec.Float
import Verif.Spec.Frame
import Verif.Spec.Lives
import Verif.Spec.Match
import Verif.Spec.Network
import Verif.Spec.Node
import Verif.Spec.NodeAsk
import Verif.Spec.NodeFair
import Verif.Spec.NodeList
import Verif.Spec.NodeRace
import Verif.Spec.Persist
import Verif.Spec.PersistRun
import Verif.Spec.Print
import Verif.Spec.Process
import Verif.Spec.Race
import Verif.Spec.Recorder
import Verif.Spec.Reported
import Verif.Spec.Reports
import Verif.Spec.SaveEnd
import Verif.Spec.Shown
import Verif.Spec.Sleep
import Verif.Spec.Stream
import Verif.Spec.System
import Verif.Spec.Tools
import Verif.Spec.Users
import Verif.Spec.Web
