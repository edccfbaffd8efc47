import Verif.Go.Text
import Verif.Model.Logging
import Verif.Model.Sequences

/-!
# The `String` methods

What packets, statuses, versions and id generators print. `none` is a panic. `fmt`'s verbs are modelled for the
arguments used: `%d` and `%v` of an unsigned number (`dec`), `%x` of a number (`hexNum`), `%x` and `%#x` of bytes, `%s` and
`%v` of strings (as they are), `%v` of a list of strings (in brackets, separated by blanks). The texts of statuses are
written in UTF-8.
-/

namespace Gosms.Printing

open Gosms.Logging (hex hexNum join seq12 tlvListString hexSharp)

/-- The UTF-8 bytes of a text. A Go string literal, as at codec/cmpp/connect.go:236-247. -/
def textBytes (s : String) : Bytes := utf8 s.toList

/-! ## Headers -/

/-- codec/smgp/header.go:44-46 `MessageHeader.String`; also active.go:40-42, 58-60, exit.go:40-42, 58-60. -/
def smgpHeader (h : Header) : Option Bytes :=
  (Smgp.commandName h.commandId).map fun n =>
    ascii "{pkl: " ++ dec h.totalLength.toNat ++ ascii ", op: " ++ n ++ ascii ", seq: " ++ dec h.sequenceId.toNat ++ ascii "}"

/-- codec/sgip/header.go:51-56 `MessageHeader.String`; also unbind.go:45-47. -/
def sgipHeader (h : SHeader) : Option Bytes :=
  (Sgip.commandName h.commandId).map fun n =>
    ascii "{pkl: " ++ dec h.packetLength.toNat ++ ascii ", op: " ++ n ++ ascii ", seq: " ++ seq12 h.seq0 h.seq1 h.seq2 ++ ascii "}"

/-- `%v` of a `MessageHeader` that is not a pointer (smgp/deliver.go:168): the method above has a pointer receiver, so `fmt`
prints the fields, the command with its own method. -/
def smgpHeaderValue (h : Header) : Option Bytes :=
  (Smgp.commandName h.commandId).map fun n =>
    ascii "{" ++ dec h.totalLength.toNat ++ ascii " " ++ n ++ ascii " " ++ dec h.sequenceId.toNat ++ ascii "}"

/-! ## Statuses and versions -/

/-- The kinds of status, each with a table of its own: of a CMPP connect response, submit response, delivery response, of every
SMGP response, of every SGIP response. codec/cmpp/connect.go:236, codec/cmpp/submit.go:368, codec/cmpp/delivery.go:317,
codec/smgp/variables.go:117, codec/sgip/variables.go:80 -/
inductive Table where
  | cmppConnect | cmppSubmit | cmppDelivery | smgp | sgip
deriving DecidableEq, Repr

/-- codec/cmpp/connect.go:236-243 `ConnectStatusMap`, submit.go:368-383 `SubmitResultMap`, delivery.go:317-328
`DeliveryResultMap`, codec/smgp/variables.go:117-169 `StatMap`, codec/sgip/variables.go:80-106 `ResultMap`. -/
def table : Table → List (Nat × String)
  | .cmppConnect => [(0, "成功"), (1, "消息结构错"), (2, "非法源地址"), (3, "认证错"), (4, "版本太高"), (5, "其他错误")]
  | .cmppSubmit => [(0, "正确"), (1, "消息结构错"), (2, "命令字错"), (3, "消息序号重复"), (4, "消息长度错"), (5, "资费代码错"),
      (6, "超过最大信息长"), (7, "业务代码错"), (8, "流量控制错"), (9, "本网关不负责服务此计费号码"), (10, "Src_Id 错误"),
      (11, "Msg_src 错误"), (12, "Fee_terminal_Id 错误"), (13, "Dest_terminal_Id 错误")]
  | .cmppDelivery => [(0, "正确"), (1, "消息结构错"), (2, "命令字错"), (3, "消息序号重复"), (4, "消息长度错"), (5, "资费代码错"),
      (6, "超过最大信息长"), (7, "业务代码错"), (8, "流量控制错"), (9, "未知错误")]
  | .smgp => [(0, "成功"), (1, "系统忙"), (2, "超过最大连接数"), (10, "消息结构错"), (11, "命令字错"), (12, "序列号重复"),
      (20, "IP地址错"), (21, "认证错"), (22, "版本太高"), (30, "非法消息类型（MsgType）"), (31, "非法优先级（LruPriority）"),
      (32, "非法资费类型（FeeType）"), (33, "非法资费代码（FeeCode）"), (34, "非法短消息格式（MsgFormat）"), (35, "非法时间格式"),
      (36, "非法短消息长度（MsgLength）"), (37, "有效期已过"), (38, "非法查询类别（QueryType）"), (39, "路由错误"),
      (40, "非法包月费/封顶费（FixedFee）"), (41, "非法更新类型（UpdateType）"), (42, "非法路由编号（RouteId）"),
      (43, "非法服务代码（ServiceId）"), (44, "非法有效期（ValidTime）"), (45, "非法定时发送时间（AtTime）"),
      (46, "非法发送用户号码（SrcTermId）"), (47, "非法接收用户号码（DestTermId）"), (48, "非法计费用户号码（ChargeTermId）"),
      (49, "非法SP服务代码（SPCode）"), (56, "非法源网关代码（SrcGatewayID）"), (57, "非法查询号码（QueryTermID）"),
      (58, "没有匹配路由"), (59, "非法SP类型（SPType）"), (60, "非法上一条路由编号（LastRouteID）"), (61, "非法路由类型（RouteType）"),
      (62, "非法目标网关代码（DestGatewayID）"), (63, "非法目标网关IP（DestGatewayIP）"), (64, "非法目标网关端口（DestGatewayPort）"),
      (65, "非法路由号码段（TermRangeID）"), (66, "非法终端所属省代码（ProvinceCode）"), (67, "非法用户类型（UserType）"),
      (68, "本节点不支持路由更新"), (69, "非法SP企业代码（SPID）"), (70, "非法SP接入类型（SPAccessType）"), (71, "路由信息更新失败"),
      (72, "非法时间戳（Time）"), (73, "非法业务代码（MServiceID）"), (74, "SP禁止下发时段"), (75, "SP发送超过日流量"),
      (76, "SP帐号过有效期")]
  | .sgip => [(0, "成功"), (1, "非法登录, 如登录名、口令出错、登录名与口令不符等。"),
      (2, "重复登录, 如在同一TCP/IP连接中连续两次以上请求登录。"), (3, "连接过多, 指单个节点要求同时建立的连接数过多。"),
      (4, "登录类型错, 指bind命令中的logintype字段出错。"), (5, "参数格式错, 指命令中参数值与参数类型不符或与协议规定的范围不符。"),
      (6, "非法手机号码, 协议中所有手机号码字段出现非86130号码或手机号码前未加“86”时都应报错。"), (7, "消息ID错"), (8, "信息长度错"),
      (9, "非法序列号, 包括序列号重复、序列号格式错误等"), (10, "非法操作GNS"),
      (11, "节点忙, 指本节点存储队列满或其他原因, 暂时不能提供服务的情况"),
      (21, "目的地址不可达, 指路由表存在路由且消息路由正确但被路由的节点暂时不能提供服务的情况"),
      (22, "路由错, 指路由表存在路由但消息路由出错的情况, 如转错SMG等"), (23, "路由不存在, 指消息路由的节点在路由表中不存在"),
      (24, "计费号码无效, 鉴权不成功时反馈的错误信息"), (25, "用户不能通信（如不在服务区、未开机等情况）"), (26, "手机内存不足"),
      (27, "手机不支持短消息"), (28, "手机接收短消息出现错误"), (29, "不知道的用户"), (30, "不提供此功能"), (31, "非法设备"),
      (32, "系统失败"), (33, "短信中心队列满")]

/-- codec/cmpp/connect.go:232-234, submit.go:364-366, delivery.go:313-315, codec/smgp/variables.go:113-115,
codec/sgip/variables.go:76-78: `fmt.Sprintf("%d: %s", s, map[s])`; the lookup of a missing key is the empty text. -/
def status (t : Table) (n : Nat) : Bytes := dec n ++ ascii ": " ++ textBytes (((table t).lookup n).getD "")

/-- codec/cmpp/variables.go:15-26 `Version.String` -/
def cmppVersion (v : UInt8) : Bytes :=
  if v = 0x30 then ascii "cmpp30" else if v = 0x21 then ascii "cmpp21" else if v = 0x20 then ascii "cmpp20"
  else ascii "unknown"

/-- codec/smgp/variables.go:42-53 `Version.String` (`V30`, `V20`, `V13`: lines 13-15) -/
def smgpVersion (v : UInt8) : Bytes :=
  if v = 0x30 then ascii "smgp30" else if v = 0x20 then ascii "smgp20" else if v = 0x13 then ascii "smgp13"
  else ascii "unknown"

/-- codec/sgip/variables.go:13-20 `Version.String` -/
def sgipVersion (v : UInt8) : Bytes := if v = 0x12 then ascii "sgip12" else ascii "unknown"

/-! ## SMGP packets -/

/-- codec/smgp/login.go:84-87 `Login.String` -/
def smgpLogin (l : Smgp.Login) : Option Bytes :=
  (smgpHeader l.hdr).map fun h =>
    ascii "{Header: " ++ h ++ ascii ", clientID: " ++ l.clientID ++ ascii ", authenticatorClient: " ++
    hex l.authenticatorClient ++ ascii ", logoinMode: " ++ hexNum (hexLoop l.loginMode.toNat 1) ++ ascii ", timestamp: " ++
    timeStamp2Str l.timestamp ++ ascii ", version: " ++ smgpVersion l.version ++ ascii "}"

/-- codec/smgp/login.go:179-182 `LoginRsp.String` -/
def smgpLoginRsp (r : Smgp.LoginRsp) : Option Bytes :=
  (smgpHeader r.hdr).map fun h =>
    ascii "{ Header: " ++ h ++ ascii ", status: \"" ++ status .smgp r.status.toNat ++ ascii "\", authenticatorISMG: " ++
    hex r.authenticatorServer ++ ascii ", version: " ++ smgpVersion r.version ++ ascii " }"

/-- codec/smgp/submit.go:244-246 `SubmitRsp.String`, deliver.go:224-226 `DeliverRsp.String` -/
def smgpRsp (r : Smgp.Rsp) : Option Bytes :=
  (smgpHeader r.hdr).map fun h =>
    ascii "{ header: " ++ h ++ ascii ", msgId: " ++ hex r.msgId ++ ascii ", status: \"" ++ status .smgp r.status.toNat ++
    ascii "\" }"

/-- codec/smgp/submit.go:211-214: the start of the text, `s.msgContent[:6]` if the length declared is above 6. Slicing is
bounded by the capacity: `extra` are the bytes of the array behind the text. A panic if there are fewer than six in all. -/
def shown (s : Smgp.Submit) (extra : Bytes) : Option Bytes :=
  if s.msgLength > 6 then
    if 6 ≤ s.msgContent.length + extra.length then some ((s.msgContent ++ extra).take 6) else none
  else some s.msgContent

/-- `%v` of a `[]string`. Used at codec/smgp/submit.go:217. -/
def strings (l : List Bytes) : Bytes := ascii "[" ++ join (ascii " ") l ++ ascii "]"

/-- codec/smgp/submit.go:210-224 `Submit.String` -/
def smgpSubmit (s : Smgp.Submit) (extra : Bytes) : Option Bytes := do
  let h ← smgpHeader s.hdr
  let bts ← shown s extra
  pure (ascii "{ header: " ++ h ++ ascii ", msgType: " ++ dec s.msgType.toNat ++ ascii ", NeedReport: " ++
    dec s.needReport.toNat ++ ascii ", LruPriority: " ++ dec s.priority.toNat ++ ascii ", ServiceID: " ++ s.serviceID ++
    ascii ", feeType: " ++ s.feeType ++ ascii ", feeCode: " ++ s.feeCode ++ ascii ", fixedFee: " ++ s.fixedFee ++
    ascii ", msgFormat: " ++ dec s.msgFormat.toNat ++ ascii ", validTime: " ++ s.validTime ++ ascii ", AtTime: " ++ s.atTime ++
    ascii ", SrcTermID: " ++ s.srcTermID ++ ascii ", chargeTermID: " ++ s.chargeTermID ++ ascii ", destTermIDCount: " ++
    dec s.destTermIDCount.toNat ++ ascii ", destTermID: " ++ strings s.destTermID ++ ascii ", msgLength: " ++
    dec s.msgLength.toNat ++ ascii ", msgContent: " ++ hexSharp bts ++ ascii "..., reserve: " ++ s.reserve ++
    ascii ", tlvList: " ++ tlvListString s.tlvList ++ ascii " }")

/-- codec/smgp/deliver.go:158-163: the report, or the whole text with its line ends replaced; a nil report is a panic. -/
def smgpContent (d : Smgp.Delivery) : Option Bytes :=
  if d.isReport = 1 then d.report.map Smgp.Report.string
  else some (d.msgContent.map fun (b : UInt8) => if b = 0x0A then 0x20 else b)

/-- codec/smgp/deliver.go:157-171 `Delivery.String` (the list of optional fields is never set: "[]"). -/
def smgpDelivery (d : Smgp.Delivery) : Option Bytes := do
  let content ← smgpContent d
  let h ← smgpHeaderValue d.hdr
  pure (ascii "{ header: " ++ h ++ ascii ", msgId: " ++ hex d.msgId ++ ascii ", isReport: " ++ dec d.isReport.toNat ++
    ascii ", msgFormat: " ++ dec d.msgFormat.toNat ++ ascii ", recvTime: " ++ d.recvTime ++ ascii ", SrcTermID: " ++
    d.srcTermID ++ ascii ", destTermID: " ++ d.destTermID ++ ascii ", msgLength: " ++ dec d.msgLength.toNat ++
    ascii ", msgContent: \"" ++ content ++ ascii "\", reserve: " ++ d.reserve ++ ascii ", tlv: " ++ tlvListString none ++
    ascii " }")

/-! ## Id generators -/

/-- `%d` of a signed number. Used at utils/cycle_sequence.go:39-41. -/
def decInt (i : Int) : Bytes := if i < 0 then ascii "-" ++ dec i.natAbs else dec i.natAbs

/-- utils/cycle_sequence.go:39-41 `CycleSequence.String` -/
def cycleSeq (s : CycleSeq) : Bytes :=
  decInt s.datacenter.toInt ++ ascii ":" ++ decInt s.worker.toInt ++ ascii ":" ++ decInt s.sequence.toInt

/-- `%0nx` of a signed number of at most `n` hexadecimal digits: `n` characters at least, a minus sign is one of them. Used at
utils/snowflake/snowflake.go:64-66, utils/snowflake32/snowflake32.go:69-71. -/
def hexInt (n : Nat) (i : Int) : Bytes :=
  let ds := hexNum (hexLoop i.natAbs (n - 1))
  if i < 0 then ascii "-" ++ List.replicate (n - 1 - ds.length) 0x30 ++ ds
  else List.replicate (n - ds.length) 0x30 ++ ds

/-- utils/snowflake/snowflake.go:64-66 `Snowflake.String`, an `int64` expression -/
def snowflake (s : Snowflake) : Bytes :=
  hexInt 16 ((BitVec.ofInt 64 (s.timestamp - sfEpoch) <<< 22) ||| (s.datacenterId <<< 19) ||| (s.workerId <<< 12) |||
    s.sequence).toInt

/-- utils/snowflake32/snowflake32.go:69-71 `Snowflake.String`, an `int32` expression -/
def snowflake32 (s : Snowflake32) : Bytes :=
  hexInt 8 ((BitVec.ofInt 32 s.seconds <<< 14) ||| (s.datacenter <<< 12) ||| (s.worker <<< 9) ||| s.sequence).toInt

end Gosms.Printing
