import Verif.Model.ServerTraffic
import Verif.Model.ClientTraffic

/-!
# What is written to the log

The `Log` methods of the packets and the log records of the server's handlers. A field has a key and a value: a
string, or a number, which the log library prints in decimal. A status is printed as its number and a fixed text
(`Status.String`, e.g. codec/smgp/variables.go:113-115: a map lookup, which cannot fail); the text is left out, the
number kept. `none` is a panic. Arguments of a log call are computed whatever the level. Left out: the log library
(levels below the configured one are not written), the time and caller it adds, and the free text of a record.
-/

namespace Gosms.Logging

/-- The values of log fields, as made at codec/cmpp/header.go:35-41. -/
inductive Val where
  | str (s : Bytes)
  | num (n : Int)
  | status (n : Nat)
deriving DecidableEq, Repr

/-- `log.Field` of github.com/hrygo/log. As made at codec/cmpp/header.go:35-41. -/
structure Field where
  key : String
  val : Val
deriving DecidableEq, Repr

/-- `log.String` of github.com/hrygo/log, as used at codec/cmpp/header.go:35-41. -/
def fstr (k : String) (s : Bytes) : Field := ⟨k, .str s⟩
/-- `log.Uint32` and the others for numbers, as used at codec/cmpp/header.go:35-41. -/
def fnum (k : String) (n : Nat) : Field := ⟨k, .num n⟩

/-- `hex.EncodeToString(b)` (standard library). Used at codec/cmpp/connect.go:85. -/
def hex (b : Bytes) : Bytes := Smgp.hexBytes b

/-- The start of a message text, e.g. codec/cmpp/submit.go:324-328: `hex.EncodeToString(s.msgContent[:l]) + "..."`
with `l` the length, at most 6. -/
def excerpt (content : Bytes) : Bytes :=
  let l := if content.length > 6 then 6 else content.length
  hex (content.take l) ++ ascii "..."

/-- `fmt`'s `%-ns` for ASCII strings (standard library). Used at codec/cmpp/report.go:21. -/
def padRight (n : Nat) (s : Bytes) : Bytes := s ++ List.replicate (n - s.length) 0x20

/-- `fmt`'s `%x` of a number, without leading zeros (standard library). Used at codec/cmpp/report.go:21. -/
def hexNum (digits : Bytes) : Bytes :=
  match digits.dropWhile (· == 0x30) with
  | [] => [0x30]
  | ds => ds

/-- `strings.Join` (standard library). Used at codec/cmpp/submit.go:339. -/
def join (sep : Bytes) : List Bytes → Bytes
  | [] => []
  | [a] => a
  | a :: rest => a ++ sep ++ join sep rest

/-- `fmt`'s `%#x` of a byte string: nothing for the empty one (standard library). Used at utils/tlv.go:41. -/
def hexSharp (b : Bytes) : Bytes := if b = [] then [] else ascii "0x" ++ hex b

/-- utils/tlv.go:40-42 `object.String` -/
def tlvString (t : Tlv) : Bytes :=
  ascii "{tag: " ++ hexNum (hexLoop t.typ.toNat 3) ++ ascii ", len: " ++ dec t.len.toNat ++ ascii ", val: " ++
  hexSharp t.val ++ ascii "}"

/-- utils/tlv.go:254-268 `TlvList.String`; nil is "[]". -/
def tlvListString : Option TlvList → Bytes
  | none => ascii "[]"
  | some tl => ascii "[" ++ (tl.flatMap fun t => tlvString t ++ ascii ",") ++ ascii "]"

/-! ## codec/cmpp, codec/smgp -/

/-- codec/cmpp/header.go:35-41, codec/smgp/header.go:36-42 `MessageHeader.Log`; `name` is `CommandId.String`. -/
def header (name : UInt32 → Option Bytes) (h : Header) : Option (List Field) :=
  (name h.commandId).map fun n => [fnum "pkl" h.totalLength.toNat, fstr "op" n, fnum "seq" h.sequenceId.toNat]

/-- codec/cmpp/active.go:36-38, 53-55, terminate.go:36-38, 51-53: packets without a body. -/
def cmppHeader (h : Header) : Option (List Field) := header Cmpp.commandName h

/-- codec/smgp/active.go:36-38, 54-56, exit.go:36-38, 54-56: packets without a body. -/
def smgpHeader (h : Header) : Option (List Field) := header Smgp.commandName h

/-- codec/cmpp/connect.go:81-89 `Connect.Log` -/
def cmppConnect (c : Cmpp.Connect) : Option (List Field) :=
  (cmppHeader c.hdr).map (· ++ [fstr "clientID" c.sourceAddr, fstr "authenticatorSource" (hex c.authenticatorSource),
    fstr "version" (hex [c.version]), fstr "timestamp" (timeStamp2Str c.timestamp)])

/-- codec/cmpp/connect.go:190-197 `ConnectResp.Log` -/
def cmppConnectResp (r : Cmpp.ConnectResp) : Option (List Field) :=
  (cmppHeader r.hdr).map (· ++ [⟨"status", .status r.status.toNat⟩, fstr "authenticatorISMG" (hex r.authenticatorISMG),
    fstr "version" (hex [r.version])])

/-- codec/cmpp/report.go:20-22 `Report.String` -/
def cmppReportString (r : Cmpp.Report) : Bytes :=
  hexNum (uint64HexString r.msgId) ++ ascii " " ++ padRight 7 r.stat ++ ascii " " ++ padRight 10 r.submitTime ++
  ascii " " ++ padRight 10 r.doneTime ++ ascii " " ++ padRight 21 r.destTerminalId ++ ascii " " ++
  dec r.smscSequence.toNat

/-- codec/cmpp/delivery.go:201-211: the report, or the start of the text; `d.report.String()` of a nil report is a
panic. -/
def cmppContent (d : Cmpp.Delivery) : Option Bytes :=
  if d.registeredDelivery = 1 then d.report.map cmppReportString else some (excerpt d.msgContent)

/-- codec/cmpp/delivery.go:185-213 `Delivery.Log` -/
def cmppDelivery (d : Cmpp.Delivery) : Option (List Field) := do
  let ls ← cmppHeader d.hdr
  let content ← cmppContent d
  pure (ls ++ [fstr "version" (hex [d.version]), fstr "msgId" (uint64HexString d.msgId),
    fnum "isReport" d.registeredDelivery.toNat, fnum "msgFmt" d.msgFmt.toNat, fnum "msgLength" d.msgLength.toNat,
    fstr "destId" d.destId, fstr "serviceId" d.serviceId, fnum "srcTerminalType" d.srcTerminalType.toNat,
    fstr "srcTerminalId" d.srcTerminalId, fnum "tpPid" d.tpPid.toNat, fnum "tpUdhi" d.tpUdhi.toNat,
    fstr "linkID" d.linkID, fstr "msgContent" content])

/-- codec/cmpp/delivery.go:297-305 `DeliveryRsp.Log`, codec/cmpp/submit.go:308-317 `SubmitRsp.Log` -/
def cmppRsp (r : Cmpp.Rsp) : Option (List Field) :=
  (cmppHeader r.hdr).map (· ++ [fstr "version" (hex [r.version]), fstr "msgId" (uint64HexString r.msgId),
    ⟨"status", .status r.result.toNat⟩])

/-- codec/cmpp/submit.go:319-355 `Submit.Log` -/
def cmppSubmit (s : Cmpp.Submit) : Option (List Field) := do
  let ls ← cmppHeader s.hdr
  let users ← bytes2StringSlice s.termIds (if Cmpp.v3 s.version then 32 else 21)
  pure (ls ++ [fstr "spNumber" s.srcId, fstr "clientId" s.msgSrc, fnum "priority" s.msgLevel.toNat,
    fstr "serviceId" s.serviceId, fnum "needReport" s.registeredDel.toNat, fstr "validTime" s.validTime,
    fstr "atTime" s.atTime, fnum "userCount" s.destUsrTl.toNat, fstr "userNumber" (join (ascii ",") users),
    fnum "msgFormat" s.msgFmt.toNat, fnum "msgLength" s.msgLength.toNat, fstr "msgContent" (excerpt s.msgContent),
    fnum "feeUsertype" s.feeUsertype.toNat, fstr "feeTerminalId" s.feeTerminalId,
    fnum "feeTerminalType" s.feeTerminalType.toNat, fstr "feeType" s.feeType, fstr "feeCode" s.feeCode,
    fnum "tpPid" s.tpPid.toNat, fnum "tpUdhi" s.tpUdhi.toNat, fnum "pkTotal" s.pkTotal.toNat,
    fnum "pkNumber" s.pkNumber.toNat, fstr "linkID" s.linkID, fstr "version" (hex [s.version])])

/-- codec/smgp/login.go:141-150 `Login.Log`; `int8(l.loginMode)`. -/
def smgpLogin (l : Smgp.Login) : Option (List Field) :=
  (smgpHeader l.hdr).map (· ++ [fstr "clientID" l.clientID, fstr "authenticatorSource" (hex l.authenticatorClient),
    ⟨"loginMode", .num l.loginMode.toInt8.toInt⟩, fstr "timestamp" (timeStamp2Str l.timestamp),
    fstr "version" (hex [l.version])])

/-- codec/smgp/login.go:184-191 `LoginRsp.Log` -/
def smgpLoginRsp (r : Smgp.LoginRsp) : Option (List Field) :=
  (smgpHeader r.hdr).map (· ++ [⟨"status", .status r.status.toNat⟩,
    fstr "authenticatorISMG" (hex r.authenticatorServer), fstr "version" (hex [r.version])])

/-- codec/smgp/deliver.go:188-198: the report, or the start of the text. -/
def smgpContent (d : Smgp.Delivery) : Option Bytes :=
  if d.isReport = 1 then d.report.map Smgp.Report.string else some (excerpt d.msgContent)

/-- codec/smgp/deliver.go:173-200 `Delivery.Log` (the list of optional fields is never set: "[]"). -/
def smgpDelivery (d : Smgp.Delivery) : Option (List Field) := do
  let ls ← smgpHeader d.hdr
  let content ← smgpContent d
  pure (ls ++ [fstr "version" (hex [d.version]), fstr "msgId" (hex d.msgId), fnum "isReport" d.isReport.toNat,
    fnum "msgFmt" d.msgFormat.toNat, fstr "recvTime" d.recvTime, fstr "srcTermID" d.srcTermID,
    fstr "destTermID" d.destTermID, fnum "msgLength" d.msgLength.toNat, fstr "reserve" d.reserve,
    fstr "tlv" (tlvListString none), fstr "msgContent" content])

/-- codec/smgp/deliver.go:228-236 `DeliverRsp.Log`, codec/smgp/submit.go:277-285 `SubmitRsp.Log` -/
def smgpRsp (r : Smgp.Rsp) : Option (List Field) :=
  (smgpHeader r.hdr).map (· ++ [fstr "version" (hex [r.version]), fstr "msgId" (hex r.msgId),
    ⟨"status", .status r.status.toNat⟩])

/-- codec/smgp/submit.go:248-275 `Submit.Log` -/
def smgpSubmit (s : Smgp.Submit) : Option (List Field) :=
  (smgpHeader s.hdr).map (· ++ [fstr "spNumber" s.srcTermID, fnum "priority" s.priority.toNat,
    fstr "serviceId" s.serviceID, fnum "needReport" s.needReport.toNat, fstr "validTime" s.validTime,
    fstr "atTime" s.atTime, fnum "userCount" s.destTermIDCount.toNat, fstr "userNumber" (join (ascii ",") s.destTermID),
    fnum "msgType" s.msgType.toNat, fnum "msgFormat" s.msgFormat.toNat, fnum "msgLength" s.msgLength.toNat,
    fstr "msgContent" (excerpt s.msgContent), fstr "feeType" s.feeType, fstr "feeCode" s.feeCode,
    fstr "fixedFee" s.fixedFee, fstr "chargeTermID" s.chargeTermID, fstr "version" (hex [s.version]),
    fstr "tlv" (tlvListString s.tlvList)])

/-! ## codec/sgip -/

/-- `fmt.Sprintf("%010d%010d%08x", s[0], s[1], s[2])`. codec/sgip/header.go:47, codec/sgip/report.go:87 -/
def seq12 (a b c : UInt32) : Bytes := timeStamp2Str a ++ timeStamp2Str b ++ uint32HexString c

/-- codec/sgip/header.go:42-49 `MessageHeader.Log`, 58-60 `Sequence2Uint64` -/
def sgipHeader (h : SHeader) : Option (List Field) :=
  (Sgip.commandName h.commandId).map fun n => [fnum "pkl" h.packetLength.toNat, fstr "op" n,
    fnum "seq" (h.seq1.toNat * 2 ^ 32 + h.seq2.toNat), fstr "seq_12" (seq12 h.seq0 h.seq1 h.seq2)]

/-- codec/sgip/bind.go:84-91 `Bind.Log` -/
def sgipBind (b : Sgip.Bind) : Option (List Field) :=
  (sgipHeader b.hdr).map (· ++ [⟨"loginType", .num b.loginType.toInt8.toInt⟩, fstr "loginName" b.loginName,
    fstr "loginPassword" (ascii "******")])

/-- codec/sgip/bind.go:120-123, submit.go:320-323, deliver.go:161-164, report.go:127-130: `Log` of the responses -/
def sgipRsp (r : Sgip.Rsp) : Option (List Field) :=
  (sgipHeader r.hdr).map (· ++ [⟨"status", .status r.status.toNat⟩])

/-- codec/sgip/report.go:83-93 `Report.Log`; indexing the sequence of the message is a panic if it is too short. -/
def sgipReport (r : Sgip.Report) : Option (List Field) := do
  let ls ← sgipHeader r.hdr
  let m1 ← r.mtSequence[1]?
  let m2 ← r.mtSequence[2]?
  let m0 ← r.mtSequence[0]?
  pure (ls ++ [fnum "mt_seq" (m1.toNat * 2 ^ 32 + m2.toNat), fstr "mt_seq_12" (seq12 m0 m1 m2),
    fnum "reportType" r.reportType.toNat, fstr "userNumber" r.userNumber, ⟨"status", .status r.state.toNat⟩,
    fnum "errorCode" r.errorCode.toNat])

/-- codec/sgip/deliver.go:109-124 `Deliver.Log` -/
def sgipDeliver (d : Sgip.Deliver) : Option (List Field) :=
  (sgipHeader d.hdr).map (· ++ [fstr "userNumber" d.userNumber, fstr "spNumber" d.spNumber,
    fnum "msgFormat" d.messageCoding.toNat, fnum "msgLength" d.messageLength.toNat,
    fstr "msgContent" (excerpt d.messageContent), fnum "tpPid" d.tpPid.toNat, fnum "tpUdhi" d.tpUdhi.toNat])

/-- codec/sgip/submit.go:254-284 `Submit.Log` -/
def sgipSubmit (s : Sgip.Submit) : Option (List Field) :=
  (sgipHeader s.hdr).map (· ++ [fstr "spNumber" s.spNumber, fstr "clientId" s.corpId, fnum "priority" s.priority.toNat,
    fnum "needReport" s.reportFlag.toNat, fstr "serviceId" s.serviceType, fstr "validTime" s.expireTime,
    fstr "atTime" s.scheduleTime, fnum "userCount" s.userCount.toNat, fstr "userNumber" (join (ascii ",") s.userNumber),
    fnum "msgType" s.messageType.toNat, fnum "msgFormat" s.messageCoding.toNat, fnum "msgLength" s.messageLength.toNat,
    fstr "msgContent" (excerpt s.messageContent), fnum "tpPid" s.tpPid.toNat, fnum "tpUdhi" s.tpUdhi.toNat,
    fstr "chargeNumber" s.chargeNumber, fnum "feeType" s.feeType.toNat, fstr "feeValue" s.feeValue,
    fstr "givenValue" s.givenValue, fnum "agentFlag" s.agentFlag.toNat,
    fnum "morelatetoMTFlag" s.morelatetoMTFlag.toNat])

/-! ## What the client logs for a received packet -/

/-- msc_client/session/on_traffic_cmpp.go:41-127: the packet received (lines 45, 54, 65, 69, 78, 83, 99), then the
response sent (57, 72, 107). Packets of other kinds are not logged. -/
def clientCmpp (ver : UInt8) (cmd seq : UInt32) (buff : Bytes) : Option (List (List Field)) :=
  let f := Buf.exact buff
  if cmd = Cmpp.CONNECT_RESP then do return [← cmppConnectResp (← Cmpp.ConnectResp.decode ver seq f)]
  else if cmd = Cmpp.ACTIVE_TEST then do
    let a ← Cmpp.activeTestDecode seq f
    return [← cmppHeader a, ← cmppHeader (Cmpp.activeTestToResponse a 0)]
  else if cmd = Cmpp.ACTIVE_TEST_RESP then do return [← cmppHeader (← Cmpp.activeTestRspDecode seq f)]
  else if cmd = Cmpp.TERMINATE then do
    let t ← Cmpp.terminateDecode seq f
    return [← cmppHeader t, ← cmppHeader (Cmpp.terminateToResponse t 0)]
  else if cmd = Cmpp.TERMINATE_RESP then do return [← cmppHeader (← Cmpp.terminateRspDecode seq f)]
  else if cmd = Cmpp.SUBMIT_RESP then do return [← cmppRsp (← Cmpp.Rsp.decode Cmpp.SUBMIT_RESP ver seq f)]
  else if cmd = Cmpp.DELIVER then do
    let d ← Cmpp.Delivery.decode ver seq f
    return [← cmppDelivery d, ← cmppRsp (d.toResponse 0)]
  else some []

/-- msc_client/session/on_traffic_smgp.go:42-126. A text that is no GB18030 leaves the delivery logged (line 99)
without a text and unanswered (100-104): the decoder stops there (deliver.go:136-139). -/
def clientSmgp (gbDec : Bytes → Option Bytes) (ver : UInt8) (cmd seq : UInt32) (buff : Bytes) (nextId : Bytes) :
    Option (List (List Field)) :=
  let f := Buf.exact buff
  if cmd = Smgp.LOGIN_RESP then do return [← smgpLoginRsp (← Smgp.LoginRsp.decode seq f)]
  else if cmd = Smgp.ACTIVE_TEST then do
    let a ← Smgp.activeTestDecode seq f
    return [← smgpHeader a, ← smgpHeader (Smgp.activeTestToResponse a 0)]
  else if cmd = Smgp.ACTIVE_TEST_RESP then do return [← smgpHeader (← Smgp.activeTestRspDecode seq f)]
  else if cmd = Smgp.EXIT then do
    let t ← Smgp.exitDecode seq f
    return [← smgpHeader t, ← smgpHeader (Smgp.exitToResponse t 0)]
  else if cmd = Smgp.EXIT_RESP then do return [← smgpHeader (← Smgp.exitRspDecode seq f)]
  else if cmd = Smgp.SUBMIT_RESP then do return [← smgpRsp (← Smgp.Rsp.decode Smgp.SUBMIT_RESP ver seq f)]
  else if cmd = Smgp.DELIVER then do
    match ← Smgp.Delivery.decode gbDec ver seq f with
    | some d => return [← smgpDelivery d, ← smgpRsp (d.toResponse 0 nextId)]
    | none =>
      match ← Smgp.Delivery.decode (fun _ => some []) ver seq f with
      | some d => return [← smgpDelivery d]
      | none => none
  else some []

/-- msc_client/session/on_traffic_sgip.go:41-81 -/
def clientSgip (cmd seq : UInt32) (buff : Bytes) : Option (List (List Field)) :=
  let f := Buf.exact buff
  if cmd = Sgip.BIND_RESP then do return [← sgipRsp (← Sgip.bindRspDecode seq f)]
  else if cmd = Sgip.UNBIND then do
    let u ← Sgip.unbindDecode Sgip.UNBIND seq f
    return [← sgipHeader u, ← sgipHeader (Sgip.unbindToResponse u 0)]
  else if cmd = Sgip.UNBIND_RESP then do return [← sgipHeader (← Sgip.unbindDecode Sgip.UNBIND_RESP seq f)]
  else if cmd = Sgip.SUBMIT_RESP then do return [← sgipRsp (← Sgip.Rsp.decode Sgip.SUBMIT_RESP seq f)]
  else some []

/-- What the client logs while it handles a packet; `none` is a panic. msc_client/session/on_traffic_cmpp.go:36-126,
on_traffic_sgip.go:35-81, on_traffic_smgp.go:36-126 -/
def client (p : Proto) (e : ClientTraffic.Env) (cmd seq : UInt32) (buff : Bytes) : Option (List (List Field)) :=
  match p with
  | .cmpp => clientCmpp e.ver cmd seq buff
  | .smgp => clientSmgp e.gbDec e.ver cmd seq buff e.nextId
  | .sgip => clientSgip cmd seq buff

/-! ## What the server logs for a received packet -/

/-- The levels of github.com/hrygo/log, as configured at msc_server/bootstrap.go:75-110. -/
inductive Level where
  | debug | info | warn | error
deriving DecidableEq, Repr

/-- The configured number of a level (config.yaml:61). -/
def Level.num : Level → Int
  | .debug => -1
  | .info => 0
  | .warn => 1
  | .error => 2

/-- A record: its level and fields. As at msc_server/server/on_traffic.go:103. -/
structure Rec where
  level : Level
  fields : List Field
deriving DecidableEq, Repr

/-- What `LogSession` tells of a connection. msc_server/server/session.go:161-184 -/
structure Conn where
  server : Bytes
  clientId : Bytes := []
  sid : UInt64 := 0
  remote : Bytes := []

/-- msc_server/server/session.go:161-184 `LogSession` of an open connection -/
def session (c : Conn) : List Field :=
  [fstr "server" c.server, fstr "auth" (if c.clientId = [] then ascii "not login" else c.clientId),
   fnum "sid" c.sid.toNat, fstr "remote" c.remote]

/-- msc_server/server/log_utils.go:47-49 `Packet2HexLogStr` -/
def packetHex (b : Bytes) : Field := fstr "packet" (hex b)

/-- msc_server/server/log_utils.go:60-66 `Operation.String`: indexing with `op - 1` of a byte. -/
def opString (op : UInt8) : Option Bytes :=
  [ascii "flow_control", ascii "connection_close", ascii "drop_message"][(op - 1).toNat]?

/-- msc_server/server/log_utils.go:53-58: `iota` is 1 at the second constant. -/
def opFlowControl : UInt8 := 1
/-- msc_server/server/log_utils.go:54-59 -/
def opConnectionClose : UInt8 := 2
/-- msc_server/server/log_utils.go:54-59 -/
def opDropMessage : UInt8 := 3

/-- log_utils.go:68-70 `Operation.Field` -/
def opField (op : UInt8) : Option Field := (opString op).map (fstr "op")

/-- msc_server/server/on_traffic.go:103: every complete packet, body in hex. -/
def received (p : Proto) (c : Conn) (cmd : UInt32) (body : Bytes) : Option Rec :=
  (commandName p cmd).map fun n => ⟨.debug, session c ++ [fstr "op" n, packetHex body]⟩

/-- A handler whose task the goroutine pool did not take: e.g. cmpp_connect.go:30-33 (`op` connection_close),
cmpp_submit.go:45-48 (drop_message). `err` is the pool's error. -/
def dropped (c : Conn) (op : UInt8) (err body : Bytes) : Option Rec :=
  (opField op).map fun o => ⟨.error, session c ++ [o, fstr "error" err, packetHex body]⟩

/-- codec/cmpp/connect.go:99-107, codec/smgp/login.go:99-107: the digest expected, computed and logged before the
comparison, if the account is known and its version matches. -/
def authCheck (input compute : Bytes) : List Rec :=
  [⟨.debug, [fstr "[AuthCheck] input" (hex input)]⟩, ⟨.debug, [fstr "[AuthCheck] compute" (hex compute)]⟩]

/-- The connection after the login response: session.go:78 `completeLogin` sets the client. -/
def afterLogin (c : Conn) (adm : Option AuthConf) : Conn :=
  match adm with
  | some a => { c with clientId := a.clientId }
  | none => c

/-- The records of `Connect.Check`. codec/cmpp/connect.go:91-112 -/
def cmppAuthCheck (md5 : Bytes → Bytes) (l : Cmpp.Connect) : Option AuthConf → List Rec
  | none => []
  | some ac =>
    if ¬ Cmpp.majorMatch l.version ac.version then []
    else authCheck l.authenticatorSource
      (md5 (ac.clientId ++ zeros 9 ++ ac.sharedSecret ++ timeStamp2Str l.timestamp))

/-- msc_server/server/cmpp_connect.go:40-79 `handleCmppConnect`: the login, the check, the response. -/
def cmppLoginTask (md5 : Bytes → Bytes) (c : Conn) (d : ServerTraffic.Draw) (l : Cmpp.Connect) : Option (List Rec) := do
  let ac := d.find l.sourceAddr
  let k := l.check md5 ac
  let adm := ServerTraffic.admitted ac (k.1 = 0) d.sessions
  let code := if k.1 = 0 ∧ adm = none then 5 else k.1
  let a ← cmppConnect l
  let b ← cmppConnectResp (k.2.toResponse md5 code.toUInt32)
  pure ([⟨.info, session c ++ a⟩] ++ cmppAuthCheck md5 l ac ++ [⟨.info, session (afterLogin c adm) ++ b⟩])

/-- The records of `Login.Check`. codec/smgp/login.go:89-112 -/
def smgpAuthCheck (md5 : Bytes → Bytes) (l : Smgp.Login) : Option AuthConf → List Rec
  | none => []
  | some ac =>
    if ¬ Smgp.majorMatch l.version ac.version then []
    else authCheck l.authenticatorClient
      (md5 (ac.clientId ++ zeros 7 ++ ac.sharedSecret ++ timeStamp2Str l.timestamp))

/-- msc_server/server/smgp_login.go:40-79 `handleSmgpLogin` -/
def smgpLoginTask (md5 : Bytes → Bytes) (c : Conn) (d : ServerTraffic.Draw) (l : Smgp.Login) : Option (List Rec) := do
  let ac := d.find l.clientID
  let k := l.check md5 ac
  let adm := ServerTraffic.admitted ac (k.1 = 0) d.sessions
  let code := if k.1 = 0 ∧ adm = none then 2 else k.1
  let a ← smgpLogin l
  let b ← smgpLoginRsp (k.2.toResponse md5 code)
  pure ([⟨.info, session c ++ a⟩] ++ smgpAuthCheck md5 l ac ++ [⟨.info, session (afterLogin c adm) ++ b⟩])

/-- msc_server/server/sgip_bind.go:40-79 `handleSgipBind` -/
def sgipLoginTask (c : Conn) (d : ServerTraffic.Draw) (l : Sgip.Bind) : Option (List Rec) := do
  let ac := d.find l.loginName
  let k := l.check ac
  let adm := ServerTraffic.admitted ac (k = 0) d.sessions
  let code := if k = 0 ∧ adm = none then 3 else k
  let a ← sgipBind l
  let b ← sgipRsp (l.toResponse code.toUInt32)
  pure ([⟨.info, session c ++ a⟩] ++ [⟨.info, session (afterLogin c adm) ++ b⟩])

/-- What the server logs for a login packet whose body decodes: the packet as received, then the task's records, or, if the
goroutine pool does not take the task, why (`full` is the pool's error). The write of the response succeeds.
msc_server/server/on_traffic.go:103, cmpp_connect.go:13-79, smgp_login.go:13-79, sgip_bind.go:13-79 -/
def login (p : Proto) (md5 : Bytes → Bytes) (c : Conn) (full : Option Bytes) (d : ServerTraffic.Draw) (cmd seq : UInt32)
    (body : Bytes) : Option (List Rec) := do
  let r ← received p c cmd body
  match full with
  | some err => return [r, ← dropped c opConnectionClose err body]
  | none =>
    let f := Buf.exact body
    let rs ← match p with
      | .cmpp => (Cmpp.Connect.decode seq f).bind (cmppLoginTask md5 c d)
      | .smgp => (Smgp.Login.decode seq f).bind (smgpLoginTask md5 c d)
      | .sgip => (Sgip.Bind.decode seq f).bind (sgipLoginTask c d)
    return r :: rs

/-- msc_server/server/on_traffic.go:118: a submit over the rate. -/
def flowControlled (c : Conn) : Rec :=
  ⟨.warn, session c ++ [fstr "error" (ascii "Submit message flow control")]⟩

/-- The records of a submit's task before its answer: cmpp_submit.go:62, smgp_submit.go:63, sgip_submit.go:61; of the
answer: on_traffic.go:134. -/
def submitTask (c : Conn) (mt rsp : Option (List Field)) : Option (List Rec) := do
  return [⟨.debug, session c ++ (← mt)⟩, ⟨.debug, session c ++ (← rsp)⟩]

/-- What the server logs for a submit of a session of version `ver` whose body decodes, but for the report it may send: the
packet as received; then the warning and the refusal, the pool's error, or the packet and its answer with status `result` and
id. msc_server/server/on_traffic.go:103-138, cmpp_submit.go:17-102, smgp_submit.go:18-103, sgip_submit.go:16-98 -/
def submit (p : Proto) (gbDec : Bytes → Option Bytes) (c : Conn) (ver : UInt8) (full : Option Bytes) (allow : Bool)
    (result : UInt32) (id : UInt64) (bcd : Bytes) (cmd seq : UInt32) (body : Bytes) : Option (List Rec) := do
  let r ← received p c cmd body
  let f := Buf.exact body
  let (mt, rsp) ← match p with
    | .cmpp => (Cmpp.Submit.decode ver seq f).map fun s => (cmppSubmit s, cmppRsp (s.toResponse result id))
    | .smgp => (Smgp.Submit.decode gbDec ver seq f).map fun s => (smgpSubmit s, smgpRsp (s.toResponse result bcd))
    | .sgip => (Sgip.Submit.decode seq f).map fun s => (sgipSubmit s, sgipRsp (s.toResponse result))
  if allow = false then return [r, flowControlled c, ⟨.debug, session c ++ (← rsp)⟩]
  else match full with
    | some err => return [r, ← dropped c opDropMessage err body]
    | none => return r :: (← submitTask c mt rsp)

/-- What the server logs for the other packets it handles, if the session's pool takes the task: the packet, then the
response. cmpp_active.go:51, 60, cmpp_active_resp.go:51, cmpp_delivery_resp.go:51, cmpp_terminate.go:50, 59,
cmpp_terminate_resp.go:50, and the SMGP and SGIP counterparts. Delivery responses are decoded with version 0. -/
def other (seq : UInt32) (body : Bytes) : Proto → Handlers.Kind →
    Option (List (List Field))
  | .cmpp, .active => do
    let a ← Cmpp.activeTestDecode seq (Buf.exact body)
    return [← cmppHeader a, ← cmppHeader (Cmpp.activeTestToResponse a 0)]
  | .cmpp, .activeResp => do return [← cmppHeader (← Cmpp.activeTestRspDecode seq (Buf.exact body))]
  | .cmpp, .deliverResp => do return [← cmppRsp (← Cmpp.Rsp.decode Cmpp.DELIVER_RESP 0 seq (Buf.exact body))]
  | .cmpp, .terminate => do
    let t ← Cmpp.terminateDecode seq (Buf.exact body)
    return [← cmppHeader t, ← cmppHeader (Cmpp.terminateToResponse t 0)]
  | .cmpp, .terminateResp => do return [← cmppHeader (← Cmpp.terminateRspDecode seq (Buf.exact body))]
  | .smgp, .active => do
    let a ← Smgp.activeTestDecode seq (Buf.exact body)
    return [← smgpHeader a, ← smgpHeader (Smgp.activeTestToResponse a 0)]
  | .smgp, .activeResp => do return [← smgpHeader (← Smgp.activeTestRspDecode seq (Buf.exact body))]
  | .smgp, .deliverResp => do return [← smgpRsp (← Smgp.Rsp.decode Smgp.DELIVER_RESP 0 seq (Buf.exact body))]
  | .smgp, .terminate => do
    let t ← Smgp.exitDecode seq (Buf.exact body)
    return [← smgpHeader t, ← smgpHeader (Smgp.exitToResponse t 0)]
  | .smgp, .terminateResp => do return [← smgpHeader (← Smgp.exitRspDecode seq (Buf.exact body))]
  | .sgip, .terminate => do
    let t ← Sgip.unbindDecode Sgip.UNBIND seq (Buf.exact body)
    return [← sgipHeader t, ← sgipHeader (Sgip.unbindToResponse t 0)]
  | .sgip, .terminateResp => do
    return [← sgipHeader (← Sgip.unbindDecode Sgip.UNBIND_RESP seq (Buf.exact body))]
  | _, _ => some []

/-- What a log configured with a level shows. msc_server/bootstrap.go:75-110 -/
def shown (level : Int) (rs : List Rec) : List Rec := rs.filter fun r => level ≤ r.level.num

end Gosms.Logging
