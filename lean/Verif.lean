import Verif.Basic
import Verif.Props.Casemap
import Verif.Props.Modes
import Verif.Props.ModeFormat
import Verif.Props.Backoff
import Verif.Props.GenMsg
import Verif.Props.Whox
import Verif.Props.MsgId
import Verif.Props.MemStore
import Verif.Props.FsStore
import Verif.Props.LogPath
import Verif.Props.ZncLog
import Verif.Props.ReadMarker
import Verif.Props.PendingCmds
import Verif.Props.Labels
import Verif.Props.Delivery
import Verif.Props.Backlog
import Verif.Props.Detach
import Verif.Props.Away
import Verif.Props.Monitor
import Verif.Props.Caps
import Verif.Props.Filter
import Verif.Props.Register
import Verif.Props.Network
import Verif.Props.Conn
import Verif.Props.SqlTime
import Verif.Props.MsgDb
import Verif.Props.Db
import Verif.Props.DbRows
import Verif.Props.Words
import Verif.Props.Service
import Verif.Props.SearchText
import Verif.Props.AccountUpdate
import Verif.Props.Upload
import Verif.Props.Identd
import Verif.Props.UserIp
import Verif.Props.Config
import Verif.Props.Highlight
import Verif.Props.Creds
import Verif.Props.NetAttrs
import Verif.Props.History
import Verif.Props.Isupport
import Verif.Props.UserCache
import Verif.Props.WebPush
import Verif.Props.SavedChans
import Verif.Props.Inactive
import Verif.Props.UserLoop
import Verif.Props.Registry
import Verif.Model.Loops
import Verif.Spec.Loops
import Verif.Proof.Loops
import Verif.Props.Loops
import Verif.Model.Settings
import Verif.Props.Settings
import Verif.Model.UpReg
import Verif.Props.UpReg
import Verif.Props.UpCapSys
import Verif.Props.Binding
import Verif.Spec.Glob
import Verif.Proof.Glob
import Verif.Proof.GlobMatch
import Verif.Model.HttpFront
import Verif.Props.HttpFront
import Verif.Model.ChanView
import Verif.Spec.ChanView
import Verif.Proof.ChanView
import Verif.Proof.ChanView2
import Verif.Proof.ChanView3
import Verif.Props.ChanView
import Verif.Model.NetView
import Verif.Spec.NetView
import Verif.Proof.NetView
import Verif.Props.NetView
import Verif.Model.DbUpgrade
import Verif.Spec.DbUpgrade
import Verif.Proof.DbUpgrade
import Verif.Props.DbUpgrade
import Verif.Model.Dial
import Verif.Spec.Dial
import Verif.Props.Dial
import Verif.Spec.Present
import Verif.Props.Present
import Verif.Model.AuthDriver
import Verif.Spec.AuthDriver
import Verif.Props.AuthDriver
import Verif.Model.Regain
import Verif.Spec.Regain
import Verif.Props.Regain
import Verif.Model.PgMsg
import Verif.Spec.PgMsg
import Verif.Proof.PgMsg
import Verif.Props.PgMsg
import Verif.Model.PgDb
import Verif.Spec.PgDb
import Verif.Proof.PgDb
import Verif.Props.PgDb
import Verif.Model.MigrateDb
import Verif.Proof.MigrateDb
import Verif.Proof.MigrateSq
import Verif.Props.MigrateDb
import Verif.Props.MigrateSq
import Verif.Model.SqDb
import Verif.Spec.SqDb
import Verif.Proof.SqDb
import Verif.Props.SqDb
import Verif.Model.FsLog
import Verif.Spec.FsLog
import Verif.Proof.FsLog
import Verif.Props.FsLog
import Verif.Model.Ident
import Verif.Spec.Ident
import Verif.Proof.Ident
import Verif.Props.Ident
import Verif.Model.Listen
import Verif.Spec.Listen
import Verif.Props.Listen
import Verif.Model.Admin
import Verif.Spec.Admin
import Verif.Props.Admin
import Verif.Model.ZncConf
import Verif.Spec.ZncConf
import Verif.Proof.ZncConf
import Verif.Props.ZncConf
import Verif.Model.ZncImport
import Verif.Spec.ZncImport
import Verif.Proof.ZncImport
import Verif.Proof.ZncLoops
import Verif.Props.ZncImport
import Verif.Model.MigrateLogs
import Verif.Props.MigrateLogs
import Verif.Model.Folding
import Verif.Props.Folding
import Verif.Model.Reports
import Verif.Props.Reports
import Verif.Model.Shutdown
import Verif.Props.Shutdown
import Verif.Model.UploadHttp
import Verif.Props.UploadHttp
import Verif.Model.Say
import Verif.Props.Say
import Verif.Model.Batches
import Verif.Props.Batches
import Verif.Props.MonTell
import Verif.Model.Pushes
import Verif.Props.Pushes
import Verif.Model.Reconnect
import Verif.Props.Reconnect
import Verif.Props.UserAlive
import Verif.Props.NetSettings
import Verif.Spec.Flags
import Verif.Proof.Flags
import Verif.Props.SvcEffects
import Verif.Model.Help
import Verif.Props.Help
import Verif.Model.Sojudb
import Verif.Props.Sojudb
import Verif.Model.UserModes
import Verif.Props.UserModes
import Verif.Model.Greeting
import Verif.Props.Greeting
import Verif.Model.Accept
import Verif.Props.Accept
import Verif.Model.WebSocket
import Verif.Props.WebSocket
import Verif.Model.ChanModes
import Verif.Props.ChanModes
import Verif.Props.Login
import Verif.Props.AccountCreate
import Verif.Model.Topics
import Verif.Props.Topics
import Verif.Model.Pump
import Verif.Props.Pump
import Verif.Model.Names
import Verif.Props.Names
import Verif.Model.MsgTime
import Verif.Props.MsgTime
import Verif.Model.Rate
import Verif.Props.Rate
import Verif.Model.Stats
import Verif.Props.Stats
import Verif.Model.SaslBridge
import Verif.Props.SaslBridge
import Verif.Model.Route
import Verif.Spec.Route
import Verif.Proof.Route
import Verif.Props.Route
import Verif.Model.Replies
import Verif.Spec.Replies
import Verif.Proof.Replies
import Verif.Props.Replies
import Verif.Spec.UploadNames
import Verif.Props.UploadNames
import Verif.Model.Passing
import Verif.Spec.Passing
import Verif.Proof.Passing
import Verif.Props.Passing
import Verif.Model.Patience
import Verif.Props.Patience
import Verif.Model.DebugLog
import Verif.Props.DebugLog
import Verif.Model.TopNets
import Verif.Props.TopNets
import Verif.Model.StoreChoice
import Verif.Props.StoreChoice
import Verif.Model.StoreSwitch
import Verif.Props.StoreSwitch
