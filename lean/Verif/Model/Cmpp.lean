import Verif.Model.Codec

/-!
# Model of codec/cmpp (CMPP 2.x and 3.0)

`md5` is a parameter of the functions that compute a digest. Values drawn from the global generators
`codec.B32Seq` and `codec.B64Seq` and clock readings are parameters too.
-/

namespace Gosms.Cmpp

/-- codec/cmpp/variables.go:29-31 `Version.MajorMatch` and 34-36 `MajorMatchV` -/
def majorMatch (t v : UInt8) : Bool := t &&& 0xf0 == v &&& 0xf0

/-- `V30.MajorMatchV(v)`, with codec/cmpp/variables.go:10 `V30 = 0x30` -/
def v3 (v : UInt8) : Bool := majorMatch 0x30 v

/-- codec/cmpp/variables.go:41-53: the command ids. -/
def CONNECT : UInt32 := 1
/-- codec/cmpp/variables.go:41-53 -/
def CONNECT_RESP : UInt32 := 0x80000001
/-- codec/cmpp/variables.go:41-53 -/
def TERMINATE : UInt32 := 2
/-- codec/cmpp/variables.go:41-53 -/
def TERMINATE_RESP : UInt32 := 0x80000002
/-- codec/cmpp/variables.go:41-53 -/
def SUBMIT : UInt32 := 4
/-- codec/cmpp/variables.go:41-53 -/
def SUBMIT_RESP : UInt32 := 0x80000004
/-- codec/cmpp/variables.go:41-53 -/
def DELIVER : UInt32 := 5
/-- codec/cmpp/variables.go:41-53 -/
def DELIVER_RESP : UInt32 := 0x80000005
/-- codec/cmpp/variables.go:41-53 -/
def ACTIVE_TEST : UInt32 := 8
/-- codec/cmpp/variables.go:41-53 -/
def ACTIVE_TEST_RESP : UInt32 := 0x80000008

/-! ## active.go, terminate.go -/

/-- codec/cmpp/active.go:13-15 `NewActiveTest` -/
def newActiveTest (seq : UInt32) : Header := ⟨12, ACTIVE_TEST, seq⟩

/-- codec/cmpp/active.go:17-19 -/
def activeTestEncode (h : Header) : Option Bytes := h.encode

/-- codec/cmpp/active.go:21-26 (the frame is not looked at) -/
def activeTestDecode (seq : UInt32) (_ : Buf) : Option Header := some ⟨12, ACTIVE_TEST, seq⟩

/-- codec/cmpp/active.go:28-34 -/
def activeTestToResponse (h : Header) (_code : UInt32) : Header := ⟨12 + 1, ACTIVE_TEST_RESP, h.sequenceId⟩

/-- codec/cmpp/active.go:40-44: `ls[12] = 0` -/
def activeTestRspEncode (h : Header) : Option Bytes := encodeWith h [.seek 12, .byte 0]

/-- codec/cmpp/active.go:46-51 -/
def activeTestRspDecode (seq : UInt32) (_ : Buf) : Option Header := some ⟨12 + 1, ACTIVE_TEST_RESP, seq⟩

/-- codec/cmpp/terminate.go:13-15 `NewTerminate` -/
def newTerminate (seq : UInt32) : Header := ⟨12, TERMINATE, seq⟩

/-- codec/cmpp/terminate.go:17-19 -/
def terminateEncode (h : Header) : Option Bytes := h.encode

/-- codec/cmpp/terminate.go:21-26 -/
def terminateDecode (seq : UInt32) (_ : Buf) : Option Header := some ⟨12, TERMINATE, seq⟩

/-- codec/cmpp/terminate.go:28-34 -/
def terminateToResponse (h : Header) (_code : UInt32) : Header := ⟨12, TERMINATE_RESP, h.sequenceId⟩

/-- codec/cmpp/terminate.go:40-42 -/
def terminateRspEncode (h : Header) : Option Bytes := h.encode

/-- codec/cmpp/terminate.go:44-49 -/
def terminateRspDecode (seq : UInt32) (_ : Buf) : Option Header := some ⟨12, TERMINATE_RESP, seq⟩

/-! ## connect.go -/

/-- codec/cmpp/connect.go:18-27 `Connect` -/
structure Connect where
  hdr : Header := {}
  sourceAddr : Bytes := []
  authenticatorSource : Bytes := []
  version : UInt8 := 0
  timestamp : UInt32 := 0
  secret : Bytes := []
deriving Repr, DecidableEq

/-- codec/cmpp/connect.go:32-37 `ConnectResp` -/
structure ConnectResp where
  hdr : Header := {}
  status : UInt8 := 0
  authenticatorISMG : Bytes := []
  version : UInt8 := 0
deriving Repr, DecidableEq

/-- codec/cmpp/connect.go:39-56 `NewConnect`; the clock reading is a parameter. -/
def newConnect (md5 : Bytes → Bytes) (ac : AuthConf) (seq : UInt32) (clock : Clock) : Connect :=
  let (ts, timestamp) := now clock
  { hdr := ⟨39, CONNECT, seq⟩
    version := ac.version
    sourceAddr := ac.clientId
    timestamp := timestamp
    authenticatorSource := md5 (ac.clientId ++ zeros 9 ++ ac.sharedSecret ++ ts) }

/-- codec/cmpp/connect.go:58-68 `Connect.Encode`; the nil slice is `[]`. -/
def Connect.encode (c : Connect) : Option Bytes :=
  c.hdr.encode.bind fun frame =>
    if frame.length = 39 ∧ c.hdr.clamp.totalLength = 39 then
      (runW [.seek 12, .str 6 c.sourceAddr, .seek 18, .str 16 c.authenticatorSource,
        .seek 34, .byte c.version, .seek 35, .str 4 (be32 c.timestamp)] frame 12).map (·.1)
    else some []

/-- codec/cmpp/connect.go:70-79 `Connect.Decode` on a fresh `Connect`. -/
def Connect.decode (seq : UInt32) (f : Buf) : Option Connect :=
  Rd.run (do
    Rd.seek 0; let sourceAddr ← Rd.str 6
    Rd.seek 6; let authenticatorSource ← Rd.slice 16
    Rd.seek 22; let version ← Rd.byte
    Rd.seek 23; let timestamp ← Rd.u32
    pure { hdr := ⟨39, CONNECT, seq⟩, sourceAddr, authenticatorSource, version, timestamp }) f

/-- codec/cmpp/connect.go:91-114 `Connect.Check`; returns the status and the packet with its
`secret` set (line 110) when accepted. -/
def Connect.check (md5 : Bytes → Bytes) (c : Connect) (ac : Option AuthConf) : UInt8 × Connect :=
  match ac with
  | none => (2, c)
  | some ac =>
    if ¬ majorMatch c.version ac.version then (4, c)
    else if c.authenticatorSource =
        md5 (ac.clientId ++ zeros 9 ++ ac.sharedSecret ++ timeStamp2Str c.timestamp) then
      (0, { c with secret := ac.sharedSecret })
    else (3, c)

/-- codec/cmpp/connect.go:116-146 `Connect.ToResponse` -/
def Connect.toResponse (md5 : Bytes → Bytes) (c : Connect) (code : UInt32) : ConnectResp :=
  let status : UInt8 := code.toUInt8
  let bs : Bytes := if v3 c.version then [0, 0, 0, status] else [status]
  { hdr := ⟨if v3 c.version then 33 else 30, CONNECT_RESP, c.hdr.sequenceId⟩
    status := status
    authenticatorISMG := if status = 0 then md5 (bs ++ c.sourceAddr ++ c.secret) else zeros 16
    version := c.version }

/-- codec/cmpp/connect.go:150-167 `ConnectResp.Encode` -/
def ConnectResp.encode (r : ConnectResp) : Option Bytes :=
  encodeWith r.hdr (
    [.seek 12, if v3 r.version then .str 4 (be32 r.status.toUInt32) else .byte r.status,
     .str 16 r.authenticatorISMG, .byte r.version])

/-- codec/cmpp/connect.go:169-188 `ConnectResp.Decode`; the layout is chosen by the `Version` the
caller has set (parameter `v`). -/
def ConnectResp.decode (v : UInt8) (seq : UInt32) (f : Buf) : Option ConnectResp :=
  Rd.run (do
    if v3 v then Rd.skip 3 else pure ()
    let status ← Rd.byte
    let authenticatorISMG ← Rd.slice 16
    let version ← Rd.byte
    pure { hdr := ⟨if v3 v then 33 else 30, CONNECT_RESP, seq⟩, status, authenticatorISMG, version }) f

/-! ## report.go -/

/-- codec/cmpp/report.go:11-18 `Report` -/
structure Report where
  msgId : UInt64 := 0
  stat : Bytes := []
  submitTime : Bytes := []
  doneTime : Bytes := []
  destTerminalId : Bytes := []
  smscSequence : UInt32 := 0
deriving Repr, DecidableEq

/-- codec/cmpp/report.go:28-51: the simulated delivery state. -/
def reportStat (smscSequence : UInt32) : Bytes :=
  match (smscSequence % 100).toNat with
  | 99 => ascii "REJECTD"
  | 88 => ascii "UNKNOWN"
  | 77 => ascii "ACCEPTD"
  | 66 => ascii "UNDELIV"
  | 55 => ascii "DELETED"
  | 44 => ascii "EXPIRED"
  | 33 => ascii "MA:0000"
  | 22 => ascii "MB:0000"
  | 11 => ascii "CA:0000"
  | 10 => ascii "CB:0000"
  | _ => ascii "DELIVRD"

/-- codec/cmpp/report.go:24-53 `NewReport`; `smsc` is the value drawn from `B32Seq`. -/
def newReport (msgId : UInt64) (destTerminalId submitTime doneTime : Bytes) (smsc : UInt32) : Report :=
  { msgId, submitTime, doneTime, destTerminalId, smscSequence := smsc, stat := reportStat smsc }

/-- codec/cmpp/report.go:55-64 `Report.Encode` -/
def Report.encode (r : Report) : Option Bytes :=
  (runW [.seek 0, .str 8 (be64 r.msgId), .seek 8, .str 7 r.stat, .seek 15, .str 10 r.submitTime,
    .seek 25, .str 10 r.doneTime, .seek 35, .str 21 r.destTerminalId,
    .seek 56, .str 4 (be32 r.smscSequence)] (zeros 60) 0).map (·.1)

/-- codec/cmpp/report.go:66-74 `Report.Decode` -/
def reportDecode : Rd Report := do
  Rd.seek 0; let msgId ← Rd.u64
  Rd.seek 8; let stat ← Rd.str 7
  Rd.seek 15; let submitTime ← Rd.str 10
  Rd.seek 25; let doneTime ← Rd.str 10
  Rd.seek 35; let destTerminalId ← Rd.str 21
  Rd.seek 56; let smscSequence ← Rd.u32
  pure { msgId, stat, submitTime, doneTime, destTerminalId, smscSequence }

/-! ## delivery.go -/

/-- codec/cmpp/delivery.go:15-34 `Delivery` (a nil report is `none`) -/
structure Delivery where
  hdr : Header := {}
  msgId : UInt64 := 0
  destId : Bytes := []
  serviceId : Bytes := []
  tpPid : UInt8 := 0
  tpUdhi : UInt8 := 0
  msgFmt : UInt8 := 0
  srcTerminalId : Bytes := []
  srcTerminalType : UInt8 := 0
  registeredDelivery : UInt8 := 0
  msgLength : UInt8 := 0
  msgContent : Bytes := []
  report : Option Report := none
  linkID : Bytes := []
  version : UInt8 := 0
deriving Repr, DecidableEq

/-- codec/cmpp/delivery.go:158-179 `setMsgContent`: coding, length on the wire, stored text. -/
def moContent (msg : Bytes) : UInt8 × Nat × Bytes :=
  let fmt := Gosms.msgFmt msg
  if fmt = 8 then
    let rs := runes msg
    if 2 * rs.length > 140 then (fmt, 140, (rs.take 70).flatMap utf8Enc)
    else (fmt, 2 * rs.length, msg)
  else if msg.length > 160 then (fmt, 160, msg.take 160)
  else (fmt, msg.length, msg)

/-- codec/cmpp/delivery.go:36-57 `NewDelivery`; `msgId` is the value drawn from `B64Seq`. -/
def newDelivery (ac : AuthConf) (phone msg dest serviceId : Bytes) (seq : UInt32) (msgId : UInt64) :
    Delivery :=
  let (fmt, l, text) := moContent msg
  { hdr := ⟨(if v3 ac.version then 109 else 85) + (UInt8.ofNat l).toUInt32, DELIVER, seq⟩
    version := ac.version
    srcTerminalId := phone
    srcTerminalType := 0
    msgId := msgId
    msgFmt := fmt
    msgLength := UInt8.ofNat l
    msgContent := text
    destId := ac.smsDisplayNo ++ dest
    serviceId := if serviceId ≠ [] then serviceId else ac.serviceId }

/-- codec/cmpp/delivery.go:82-92: the bytes copied into the content slot. `groupId` is the
clock-derived reference of `MsgSlices`. `none` is a panic (nil report, line 85). -/
def Delivery.contentBytes (d : Delivery) (groupId : UInt8) : Option Bytes :=
  if d.registeredDelivery = 1 then d.report.bind Report.encode
  else (msgSlices groupId d.msgFmt d.msgContent).bind List.head?

/-- codec/cmpp/delivery.go:60-99 `Delivery.Encode` -/
def Delivery.encode (d : Delivery) (groupId : UInt8) : Option Bytes :=
  (d.contentBytes groupId).bind fun content =>
  encodeWith d.hdr (
    [.seek 12, .str 8 (be64 d.msgId), .seek 20, .str 21 d.destId, .seek 41, .str 10 d.serviceId,
     .seek 51, .byte d.tpPid, .seek 52, .byte d.tpUdhi, .seek 53, .byte d.msgFmt, .seek 54]
    ++ (if v3 d.version then [.str 32 d.srcTerminalId, .byte d.srcTerminalType]
        else [.str 21 d.srcTerminalId])
    ++ [.byte d.registeredDelivery, .byte d.msgLength, .str d.msgLength.toNat content]
    ++ (if v3 d.version then [.str 20 d.linkID] else []))

/-- codec/cmpp/delivery.go:126-132: the report, if the packet is one. -/
def deliverReport (registeredDelivery : UInt8) (sub : Buf) : Rd (Option Report) :=
  if registeredDelivery = 1 then Rd.lift ((Rd.run reportDecode sub).map some) else pure none

/-- codec/cmpp/delivery.go:101-141 `Delivery.Decode` on `&Delivery{Version: v}`. Line 107 assigns the
service-id slot to `destId`, so `serviceId` stays empty. -/
def Delivery.decode (v : UInt8) (seq : UInt32) (f : Buf) : Option Delivery :=
  Rd.run (do
    let len ← Rd.length
    Rd.seek 0; let msgId ← Rd.u64
    Rd.seek 8; let _destId ← Rd.str 21
    Rd.seek 29; let destId ← Rd.str 10
    Rd.seek 39; let tpPid ← Rd.byte
    Rd.seek 40; let tpUdhi ← Rd.byte
    Rd.seek 41; let msgFmt ← Rd.byte
    Rd.seek 42
    let srcTerminalId ← if v3 v then Rd.str 32 else Rd.str 21
    let srcTerminalType ← if v3 v then Rd.byte else pure 0
    let registeredDelivery ← Rd.byte
    let msgLength ← Rd.byte
    let sub ← Rd.sub msgLength.toNat
    let report ← deliverReport registeredDelivery sub
    let msgContent : Bytes := if registeredDelivery = 1 then [] else trimStr (sub.data.take msgLength.toNat)
    let linkID ← if v3 v then Rd.str 20 else pure []
    pure { hdr := ⟨12 + UInt32.ofNat len, DELIVER, seq⟩, msgId, destId, tpPid, tpUdhi, msgFmt,
           srcTerminalId, srcTerminalType, registeredDelivery, msgLength, msgContent, report, linkID,
           version := v }) f

/-- codec/cmpp/delivery.go:263-270 `DeliveryRsp` and codec/cmpp/submit.go:237-244 `SubmitRsp` (the
same fields; `result` is a `uint32` in both, delivery.go:311, submit.go:357) -/
structure Rsp where
  hdr : Header := {}
  msgId : UInt64 := 0
  result : UInt32 := 0
  version : UInt8 := 0
deriving Repr, DecidableEq

/-- codec/cmpp/delivery.go:143-156 `Delivery.ToResponse` -/
def Delivery.toResponse (d : Delivery) (code : UInt32) : Rsp :=
  { hdr := ⟨if v3 d.version then 12 + 12 else 12 + 9, DELIVER_RESP, d.hdr.sequenceId⟩
    msgId := d.msgId, result := code, version := d.version }

/-- codec/cmpp/delivery.go:272-281 `DeliveryRsp.Encode`, codec/cmpp/submit.go:286-295
`SubmitRsp.Encode` (the same text) -/
def Rsp.encode (r : Rsp) : Option Bytes :=
  encodeWith r.hdr [.seek 12, .str 8 (be64 r.msgId), .seek 20,
    if v3 r.version then .str 4 (be32 r.result) else .byte r.result.toUInt8]

/-- codec/cmpp/delivery.go:283-295 `DeliveryRsp.Decode` (`cmd` = DELIVER_RESP) and
codec/cmpp/submit.go:296-307 `SubmitRsp.Decode` (`cmd` = SUBMIT_RESP); the same text otherwise. -/
def Rsp.decode (cmd : UInt32) (v : UInt8) (seq : UInt32) (f : Buf) : Option Rsp :=
  Rd.run (do
    let len ← Rd.length
    Rd.seek 0; let msgId ← Rd.u64
    Rd.seek 8
    let result ← if v3 v then Rd.u32 else (do let b ← Rd.byte; pure b.toUInt32)
    pure { hdr := ⟨12 + UInt32.ofNat len, cmd, seq⟩, msgId, result, version := v }) f

/-! ## submit.go -/

/-- codec/cmpp/submit.go:20-50 `Submit` -/
structure Submit where
  hdr : Header := {}
  msgId : UInt64 := 0
  pkTotal : UInt8 := 0
  pkNumber : UInt8 := 0
  registeredDel : UInt8 := 0
  msgLevel : UInt8 := 0
  serviceId : Bytes := []
  feeUsertype : UInt8 := 0
  feeTerminalId : Bytes := []
  feeTerminalType : UInt8 := 0
  tpPid : UInt8 := 0
  tpUdhi : UInt8 := 0
  msgFmt : UInt8 := 0
  msgSrc : Bytes := []
  feeType : Bytes := []
  feeCode : Bytes := []
  validTime : Bytes := []
  atTime : Bytes := []
  srcId : Bytes := []
  destUsrTl : UInt8 := 0
  destTerminalId : Bytes := []
  termIds : Bytes := []
  destTerminalType : UInt8 := 0
  msgLength : UInt8 := 0
  msgContent : Bytes := []
  linkID : Bytes := []
  version : UInt8 := 0
deriving Repr, DecidableEq

/-- codec/cmpp/submit.go:494-565 `setOptions`; `expiry` is `time.Now().Add(ac.MtValidDuration)`. -/
def setOptions (ac : AuthConf) (sub : Submit) (o : MtOptions) (expiry : Clock) : Submit :=
  { sub with
    feeUsertype := if o.feeUsertype ≠ 0xf then o.feeUsertype else ac.feeUserType
    msgLevel := if o.msgLevel ≠ 0xf then o.msgLevel else ac.defaultMsgLevel
    registeredDel := if o.needReport ≠ 0xf then o.needReport else ac.needReport
    feeTerminalType := if o.feeTerminalType ≠ 0xf then o.feeTerminalType else ac.feeTerminalType
    feeType := if o.feeType ≠ [] then o.feeType else ac.feeType
    atTime := if o.atTime ≠ [] then o.atTime else sub.atTime
    validTime := if o.validTime ≠ [] then o.validTime else formatTime expiry
    feeCode := if o.feeCode ≠ [] then o.feeCode else ac.feeCode
    feeTerminalId := if o.feeTerminalId ≠ [] then o.feeTerminalId else ac.feeTerminalId
    srcId := if o.spSubNo ≠ [] then ac.smsDisplayNo ++ o.spSubNo else ac.smsDisplayNo
    serviceId := if o.serviceId ≠ [] then o.serviceId else ac.serviceId
    linkID := if o.linkID ≠ [] then o.linkID else ac.linkId }

/-- `strings.Join(phones, ",")` (standard library). Used at codec/cmpp/submit.go:65. -/
def joinComma : List Bytes → Bytes
  | [] => []
  | [p] => p
  | p :: ps => p ++ [0x2C] ++ joinComma ps

/-- codec/cmpp/submit.go:70-73: `make([]byte, idLen*int(destUsrTl))` and one copy per phone; `none`
is the slice-bounds panic (more than 255 phones). -/
def fillTermIds (idLen : Nat) (destUsrTl : UInt8) (phones : List Bytes) : Option Bytes :=
  (runW (phones.map fun p => .str idLen p) (zeros (idLen * destUsrTl.toNat)) 0).map (·.1)

/-- codec/cmpp/submit.go:52-107 `NewSubmit`. `groupId` is the clock-derived reference of the long
message, `expiry` the clock reading for the validity, `seqs i` the value drawn from `B32Seq` for
slice `i` (drawn for every slice but the first). -/
def newSubmit (ac : AuthConf) (phones : List Bytes) (content : Bytes) (seq : UInt32)
    (opts : List OptionFunc) (groupId : UInt8) (expiry : Clock) (seqs : Nat → UInt32) :
    Option (List Submit) :=
  let options := loadMtOptions opts
  let baseLen : Nat := if v3 ac.version then 163 else 138
  let idLen : Nat := if v3 ac.version then 32 else 21
  let mt : Submit := { hdr := ⟨UInt32.ofNat baseLen, SUBMIT, seq⟩, version := ac.version }
  let mt := setOptions ac mt options expiry
  let mt := { mt with
    msgFmt := Gosms.msgFmt content
    destUsrTl := UInt8.ofNat phones.length
    destTerminalId := joinComma phones }
  (fillTermIds idLen mt.destUsrTl phones).bind fun termIds =>
  let mt := { mt with termIds := termIds, msgSrc := ac.smsDisplayNo }
  (msgSlices groupId mt.msgFmt content).map fun slices =>
  match slices with
  | [s] =>
    [{ mt with
        pkTotal := 1, pkNumber := 1
        msgLength := UInt8.ofNat s.length, msgContent := s
        hdr := { mt.hdr with totalLength := UInt32.ofNat (baseLen + termIds.length + s.length) } }]
  | _ =>
    let mt := { mt with tpUdhi := 1, pkTotal := UInt8.ofNat slices.length }
    slices.mapIdx fun i s =>
      { mt with
        pkNumber := UInt8.ofNat (i + 1)
        msgLength := UInt8.ofNat s.length, msgContent := s
        hdr := { mt.hdr with
          totalLength := UInt32.ofNat (baseLen + termIds.length + s.length)
          sequenceId := if i ≠ 0 then seqs i else mt.hdr.sequenceId } }

/-- codec/cmpp/submit.go:109-161 `Submit.Encode` -/
def Submit.encode (s : Submit) : Option Bytes :=
  encodeWith s.hdr (
    [.seek 20, .byte s.pkTotal, .seek 21, .byte s.pkNumber, .seek 22, .byte s.registeredDel,
     .seek 23, .byte s.msgLevel, .seek 24, .str 10 s.serviceId, .seek 34, .byte s.feeUsertype, .seek 35]
    ++ (if v3 s.version then [.str 32 s.feeTerminalId, .byte s.feeTerminalType]
        else [.str 21 s.feeTerminalId])
    ++ [.byte s.tpPid, .byte s.tpUdhi, .byte s.msgFmt, .str 6 s.msgSrc, .str 2 s.feeType,
        .str 6 s.feeCode, .str 17 s.validTime, .str 17 s.atTime, .str 21 s.srcId, .byte s.destUsrTl,
        .str s.termIds.length s.termIds]
    ++ (if v3 s.version then [.byte s.destTerminalType] else [])
    ++ [.byte s.msgLength, .str s.msgContent.length s.msgContent]
    ++ (if v3 s.version then [.str 20 s.linkID] else []))

/-- codec/cmpp/submit.go:225-229: the content kept by `Decode`. Index expressions on a too short
content panic (`none`), and so does `content[6:]`. -/
def decodedContent (content : Bytes) : Option Bytes :=
  match content with
  | [] => none
  | a :: r1 =>
    if a ≠ 0x05 then some content
    else match r1 with
      | [] => none
      | b :: r2 =>
        if b ≠ 0x00 then some content
        else match r2 with
          | [] => none
          | c :: _ =>
            if c ≠ 0x03 then some content
            else if content.length < 6 then none
            else some (ucs2ToUtf8 (content.drop 6))

/-- codec/cmpp/submit.go:163-235 `Submit.Decode` on `&Submit{Version: v}`. Line 210 multiplies as
`uint8`. -/
def Submit.decode (v : UInt8) (seq : UInt32) (f : Buf) : Option Submit :=
  Rd.run (do
    let len ← Rd.length
    Rd.seek 8
    let pkTotal ← Rd.byte
    let pkNumber ← Rd.byte
    let registeredDel ← Rd.byte
    let msgLevel ← Rd.byte
    let serviceId ← Rd.str 10
    let feeUsertype ← Rd.byte
    let feeTerminalId ← if v3 v then Rd.str 32 else Rd.str 21
    let feeTerminalType ← if v3 v then Rd.byte else pure 0
    let tpPid ← Rd.byte
    let tpUdhi ← Rd.byte
    let msgFmt ← Rd.byte
    let msgSrc ← Rd.str 6
    let feeType ← Rd.str 2
    let feeCode ← Rd.str 6
    let validTime ← Rd.str 17
    let atTime ← Rd.str 17
    let srcId ← Rd.str 21
    let destUsrTl ← Rd.byte
    let l : Nat := if v3 v then destUsrTl.toNat <<< 5 else (destUsrTl * 21).toNat
    let termIds ← Rd.slice l
    let destTerminalType ← if v3 v then Rd.byte else pure 0
    let destTerminalId := trimStr termIds
    let msgLength ← Rd.byte
    let content ← Rd.slice msgLength.toNat
    let msgContent ← Rd.lift (decodedContent content)
    let linkID ← if v3 v then Rd.str 20 else pure []
    pure { hdr := ⟨12 + UInt32.ofNat len, SUBMIT, seq⟩, pkTotal, pkNumber, registeredDel, msgLevel,
           serviceId, feeUsertype, feeTerminalId, feeTerminalType, tpPid, tpUdhi, msgFmt, msgSrc,
           feeType, feeCode, validTime, atTime, srcId, destUsrTl, termIds, destTerminalType,
           destTerminalId, msgLength, msgContent, linkID, version := v }) f

/-- codec/cmpp/submit.go:246-260 `Submit.ToResponse`; `nextId` is the value drawn from `B64Seq` (only
when the result is 0). -/
def Submit.toResponse (s : Submit) (result : UInt32) (nextId : UInt64) : Rsp :=
  { hdr := ⟨if v3 s.version then 12 + 12 else 12 + 9, SUBMIT_RESP, s.hdr.sequenceId⟩
    msgId := if result = 0 then nextId else 0
    result := result
    version := s.version }

/-- codec/cmpp/submit.go:262-284 `Submit.ToDeliveryReport`. `seq`, `id`, `smsc` are the values drawn
from `B32Seq`, `B64Seq` and (in `NewReport`) `B32Seq`; `sub` and `done` are the formatted times. -/
def Submit.toDeliveryReport (s : Submit) (msgId : UInt64) (seq : UInt32) (id : UInt64) (smsc : UInt32)
    (sub done : Bytes) : Delivery :=
  { hdr := ⟨if v3 s.version then 169 else 145, DELIVER, seq⟩
    version := s.version
    msgId := id
    registeredDelivery := 1
    msgLength := 60
    destId := s.srcId
    serviceId := s.serviceId
    srcTerminalId := s.destTerminalId
    srcTerminalType := s.destTerminalType
    report := some (newReport msgId s.destTerminalId sub done smsc) }

end Gosms.Cmpp
