import Verif.Go.Bytes
import Verif.Go.Reader
import Verif.Go.Text
import Verif.Go.Writer
import Verif.Lemmas.Cmpp
import Verif.Lemmas.Codec
import Verif.Lemmas.Sgip
import Verif.Lemmas.Smgp
import Verif.Lemmas.Utils
import Verif.Lemmas.WriterTotal
import Verif.Model.Accept
import Verif.Model.Auth
import Verif.Model.AuthLock
import Verif.Model.Buffers
import Verif.Model.Client
import Verif.Model.ClientConc
import Verif.Model.ClientConns
import Verif.Model.ClientHeartbeat
import Verif.Model.ClientLogin
import Verif.Model.ClientPool
import Verif.Model.ClientPoolFill
import Verif.Model.ClientRaces
import Verif.Model.ClientReceive
import Verif.Model.ClientSelect
import Verif.Model.ClientStop
import Verif.Model.ClientStream
import Verif.Model.ClientTraffic
import Verif.Model.Cmpp
import Verif.Model.Codec
import Verif.Model.Command
import Verif.Model.Counter
import Verif.Model.EventCalls
import Verif.Model.Events
import Verif.Model.Farm
import Verif.Model.Handlers
import Verif.Model.Heartbeat
import Verif.Model.IdLock
import Verif.Model.Intervals
import Verif.Model.Journal
import Verif.Model.Limiter
import Verif.Model.Link
import Verif.Model.LiveConfig
import Verif.Model.Logging
import Verif.Model.Names
import Verif.Model.Parts
import Verif.Model.Pools
import Verif.Model.Printing
import Verif.Model.Process
import Verif.Model.Random
import Verif.Model.Reload
import Verif.Model.Restart
import Verif.Model.Reuse
import Verif.Model.Segments
import Verif.Model.Sequences
import Verif.Model.ServerLife
import Verif.Model.ServerStop
import Verif.Model.ServerStream
import Verif.Model.ServerTicks
import Verif.Model.ServerTraffic
import Verif.Model.Sessions
import Verif.Model.Sgip
import Verif.Model.Shipped
import Verif.Model.Shutdown
import Verif.Model.Smgp
import Verif.Model.Startup
import Verif.Model.Ticker
import Verif.Model.Times
import Verif.Model.Tlv
import Verif.Model.Traffic
import Verif.Model.Utils
import Verif.Model.Window
import Verif.Props.Accept
import Verif.Props.AsciiParts
import Verif.Props.Auth
import Verif.Props.AuthLock
import Verif.Props.Backlog
import Verif.Props.Bcd
import Verif.Props.Bodies
import Verif.Props.Buffers
import Verif.Props.ClientCache
import Verif.Props.ClientConc
import Verif.Props.ClientConns
import Verif.Props.ClientHeartbeat
import Verif.Props.ClientLogin
import Verif.Props.ClientMemory
import Verif.Props.ClientPool
import Verif.Props.ClientPoolFill
import Verif.Props.ClientRaces
import Verif.Props.ClientReceive
import Verif.Props.ClientResults
import Verif.Props.ClientSelect
import Verif.Props.ClientStop
import Verif.Props.ClientStream
import Verif.Props.ClientTraffic
import Verif.Props.CmppDeliver
import Verif.Props.CmppLengths
import Verif.Props.CmppLogin
import Verif.Props.CmppResponses
import Verif.Props.CmppSubmit
import Verif.Props.Command
import Verif.Props.Counter
import Verif.Props.CycleSeq
import Verif.Props.EventCalls
import Verif.Props.Events
import Verif.Props.Farm
import Verif.Props.Header
import Verif.Props.Heartbeat
import Verif.Props.IdLock
import Verif.Props.IdLockGens
import Verif.Props.IdLockIds
import Verif.Props.Intervals
import Verif.Props.Journal
import Verif.Props.LateCallbacks
import Verif.Props.Limiter
import Verif.Props.Link
import Verif.Props.LinkAnswers
import Verif.Props.LinkEnd
import Verif.Props.LiveConfig
import Verif.Props.LogJoin
import Verif.Props.Logging
import Verif.Props.LoginExchange
import Verif.Props.ManyRecipients
import Verif.Props.MoText
import Verif.Props.Names
import Verif.Props.Options
import Verif.Props.Parts
import Verif.Props.Pools
import Verif.Props.Printing
import Verif.Props.Process
import Verif.Props.Random
import Verif.Props.Rates
import Verif.Props.Recipients
import Verif.Props.Reload
import Verif.Props.Restart
import Verif.Props.Reuse
import Verif.Props.Segments
import Verif.Props.ServerAccepted
import Verif.Props.ServerAlone
import Verif.Props.ServerAnswers
import Verif.Props.ServerClosing
import Verif.Props.ServerCounts
import Verif.Props.ServerFrames
import Verif.Props.ServerHistory
import Verif.Props.ServerIdle
import Verif.Props.ServerLife
import Verif.Props.ServerLogins
import Verif.Props.ServerOwn
import Verif.Props.ServerReported
import Verif.Props.ServerReports
import Verif.Props.ServerRest
import Verif.Props.ServerStop
import Verif.Props.ServerStream
import Verif.Props.ServerTicks
import Verif.Props.ServerTraffic
import Verif.Props.ServerWork
import Verif.Props.SessionLimits
import Verif.Props.SessionLogins
import Verif.Props.Sessions
import Verif.Props.Sgip
import Verif.Props.SgipOverlong
import Verif.Props.SgipSeq
import Verif.Props.Shipped
import Verif.Props.Shutdown
import Verif.Props.Slices
import Verif.Props.SmgpDeliver
import Verif.Props.SmgpLogin
import Verif.Props.SmgpSubmit
import Verif.Props.Snowflake
import Verif.Props.Snowflake32
import Verif.Props.Startup
import Verif.Props.SubmitContent
import Verif.Props.SubmitExchange
import Verif.Props.SyncMap
import Verif.Props.Terms
import Verif.Props.TextArrives
import Verif.Props.TextOverNetwork
import Verif.Props.TickExchange
import Verif.Props.Ticker
import Verif.Props.Times
import Verif.Props.TimesIds
import Verif.Props.Tlv
import Verif.Props.Traffic
import Verif.Props.Utils
import Verif.Props.Window
import Verif.Props.WindowClose
import Verif.Spec.Auth
import Verif.Spec.Backlog
import Verif.Spec.Bodies
import Verif.Spec.Buffers
import Verif.Spec.Client
import Verif.Spec.ClientPool
import Verif.Spec.ClientStream
import Verif.Spec.ClientTraffic
import Verif.Spec.Cmpp
import Verif.Spec.Events
import Verif.Spec.Farm
import Verif.Spec.Heartbeat
import Verif.Spec.IdLock
import Verif.Spec.Link
import Verif.Spec.LinkAnswers
import Verif.Spec.LinkEnd
import Verif.Spec.LogJoin
import Verif.Spec.ManyRecipients
import Verif.Spec.MoText
import Verif.Spec.Names
import Verif.Spec.Options
import Verif.Spec.Parts
import Verif.Spec.ServerAlone
import Verif.Spec.ServerIdle
import Verif.Spec.ServerLife
import Verif.Spec.ServerStream
import Verif.Spec.ServerTicks
import Verif.Spec.ServerTraffic
import Verif.Spec.Sessions
import Verif.Spec.Sgip
import Verif.Spec.Smgp
import Verif.Spec.Terms
import Verif.Spec.TextOverNetwork
import Verif.Spec.Times
import Verif.Spec.Tlv
import Verif.Spec.Traffic
import Verif.Spec.Utils
import Verif.Spec.Wire
