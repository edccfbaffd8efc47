import Verif.Model.Codec
import Verif.Model.Tlv

/-!
# Model of codec/smgp (SMGP 1.3 - 3.0)

`md5` and the GB18030 coder (golang.org/x/text) are parameters: `gbEnc` is `GbEncoder.Bytes` /
`GbEncoder.String`, `gbDec` is `GbDecoder.Bytes`; `none` is an error, on which the library returns an
empty result. Values drawn from the global generators and clock readings are parameters.
-/

namespace Gosms.Smgp

/-- codec/smgp/variables.go:56-58 `MajorMatch` -/
def majorMatch (t v : UInt8) : Bool := t &&& 0xf0 == v &&& 0xf0

/-- codec/smgp/variables.go:68-77: the command ids (5 is unused). -/
def LOGIN : UInt32 := 1
/-- codec/smgp/variables.go:68-77 -/
def LOGIN_RESP : UInt32 := 0x80000001
/-- codec/smgp/variables.go:68-77 -/
def SUBMIT : UInt32 := 2
/-- codec/smgp/variables.go:68-77 -/
def SUBMIT_RESP : UInt32 := 0x80000002
/-- codec/smgp/variables.go:68-77 -/
def DELIVER : UInt32 := 3
/-- codec/smgp/variables.go:68-77 -/
def DELIVER_RESP : UInt32 := 0x80000003
/-- codec/smgp/variables.go:68-77 -/
def ACTIVE_TEST : UInt32 := 4
/-- codec/smgp/variables.go:68-77 -/
def ACTIVE_TEST_RESP : UInt32 := 0x80000004
/-- codec/smgp/variables.go:68-77 -/
def EXIT : UInt32 := 6
/-- codec/smgp/variables.go:68-77 -/
def EXIT_RESP : UInt32 := 0x80000006

/-! ## active.go, exit.go -/

/-- codec/smgp/active.go:12-15 -/
def newActiveTest (seq : UInt32) : Header := ⟨12, ACTIVE_TEST, seq⟩
/-- codec/smgp/active.go:17-19 -/
def activeTestEncode (h : Header) : Option Bytes := h.encode
/-- codec/smgp/active.go:21-26 -/
def activeTestDecode (seq : UInt32) (_ : Buf) : Option Header := some ⟨12, ACTIVE_TEST, seq⟩
/-- codec/smgp/active.go:28-34 -/
def activeTestToResponse (h : Header) (_code : UInt32) : Header :=
  ⟨h.totalLength, ACTIVE_TEST_RESP, h.sequenceId⟩
/-- codec/smgp/active.go:44-46 -/
def activeTestRspEncode (h : Header) : Option Bytes := h.encode
/-- codec/smgp/active.go:48-53 -/
def activeTestRspDecode (seq : UInt32) (_ : Buf) : Option Header := some ⟨12, ACTIVE_TEST_RESP, seq⟩

/-- codec/smgp/exit.go:12-15 -/
def newExit (seq : UInt32) : Header := ⟨12, EXIT, seq⟩
/-- codec/smgp/exit.go:17-19 -/
def exitEncode (h : Header) : Option Bytes := h.encode
/-- codec/smgp/exit.go:21-26 -/
def exitDecode (seq : UInt32) (_ : Buf) : Option Header := some ⟨12, EXIT, seq⟩
/-- codec/smgp/exit.go:28-34 -/
def exitToResponse (h : Header) (_code : UInt32) : Header := ⟨h.totalLength, EXIT_RESP, h.sequenceId⟩
/-- codec/smgp/exit.go:44-46 -/
def exitRspEncode (h : Header) : Option Bytes := h.encode
/-- codec/smgp/exit.go:48-53 -/
def exitRspDecode (seq : UInt32) (_ : Buf) : Option Header := some ⟨12, EXIT_RESP, seq⟩

/-! ## login.go -/

/-- codec/smgp/login.go:21-31 `Login` -/
structure Login where
  hdr : Header := {}
  clientID : Bytes := []
  authenticatorClient : Bytes := []
  loginMode : UInt8 := 0
  timestamp : UInt32 := 0
  version : UInt8 := 0
  secret : Bytes := []
deriving Repr, DecidableEq

/-- codec/smgp/login.go:33-38 `LoginRsp` (`Status` is a `uint32`, variables.go:111) -/
structure LoginRsp where
  hdr : Header := {}
  status : UInt32 := 0
  authenticatorServer : Bytes := []
  version : UInt8 := 0
deriving Repr, DecidableEq

/-- codec/smgp/login.go:40-58 `NewLogin`; the clock reading is a parameter. -/
def newLogin (md5 : Bytes → Bytes) (ac : AuthConf) (seq : UInt32) (clock : Clock) : Login :=
  let (ts, timestamp) := now clock
  { hdr := ⟨42, LOGIN, seq⟩
    clientID := ac.clientId
    loginMode := 2
    timestamp := timestamp
    authenticatorClient := md5 (ac.clientId ++ zeros 7 ++ ac.sharedSecret ++ ts)
    version := ac.version }

/-- codec/smgp/login.go:60-70 `Login.Encode` -/
def Login.encode (l : Login) : Option Bytes :=
  l.hdr.encode.bind fun frame =>
    if frame.length = 42 ∧ l.hdr.clamp.totalLength = 42 then
      (runW [.seek 12, .str 8 l.clientID, .seek 20, .str 16 l.authenticatorClient,
        .seek 36, .byte l.loginMode, .seek 37, .str 4 (be32 l.timestamp), .seek 41, .byte l.version]
        frame 12).map (·.1)
    else some frame

/-- codec/smgp/login.go:72-82 `Login.Decode` on a fresh `Login`. The client id is the whole 8-byte
slot (line 76 does not trim it). -/
def Login.decode (seq : UInt32) (f : Buf) : Option Login :=
  Rd.run (do
    let len ← Rd.length
    Rd.seek 0; let clientID ← Rd.slice 8
    Rd.seek 8; let authenticatorClient ← Rd.slice 16
    Rd.seek 24; let loginMode ← Rd.byte
    Rd.seek 25; let timestamp ← Rd.u32
    Rd.seek 29; let version ← Rd.byte
    pure { hdr := ⟨12 + UInt32.ofNat len, LOGIN, seq⟩, clientID, authenticatorClient, loginMode,
           timestamp, version }) f

/-- codec/smgp/login.go:89-115 `Login.Check`: the status and the packet with its secret set. -/
def Login.check (md5 : Bytes → Bytes) (l : Login) (ac : Option AuthConf) : UInt32 × Login :=
  match ac with
  | none => (69, l)
  | some ac =>
    if ¬ majorMatch l.version ac.version then (22, l)
    else if l.authenticatorClient =
        md5 (ac.clientId ++ zeros 7 ++ ac.sharedSecret ++ timeStamp2Str l.timestamp) then
      (0, { l with secret := ac.sharedSecret })
    else (21, l)

/-- codec/smgp/login.go:117-135 `Login.ToResponse` -/
def Login.toResponse (md5 : Bytes → Bytes) (l : Login) (code : UInt32) : LoginRsp :=
  { hdr := ⟨33, LOGIN_RESP, l.hdr.sequenceId⟩
    status := code
    authenticatorServer := if code = 0 then md5 ([code.toUInt8] ++ l.clientID ++ l.secret) else zeros 16
    version := l.version }

/-- codec/smgp/login.go:152-164 `LoginRsp.Encode` (the length test on line 155 always holds) -/
def LoginRsp.encode (r : LoginRsp) : Option Bytes :=
  encodeWith r.hdr [.seek 12, .str 4 (be32 r.status), .str 16 r.authenticatorServer, .byte r.version]

/-- codec/smgp/login.go:166-177 `LoginRsp.Decode` -/
def LoginRsp.decode (seq : UInt32) (f : Buf) : Option LoginRsp :=
  Rd.run (do
    let len ← Rd.length
    Rd.seek 0; let status ← Rd.u32
    Rd.seek 4; let authenticatorServer ← Rd.slice 16
    let version ← Rd.byte
    pure { hdr := ⟨12 + UInt32.ofNat len, LOGIN_RESP, seq⟩, status, authenticatorServer, version }) f

/-! ## report.go -/

/-- codec/smgp/report.go:8-17 `Report` -/
structure Report where
  id : Bytes := []
  sub : Bytes := []
  dlvrd : Bytes := []
  submitDate : Bytes := []
  doneDate : Bytes := []
  stat : Bytes := []
  err : Bytes := []
  txt : Bytes := []
deriving Repr, DecidableEq

/-- codec/smgp/report.go:139-152 `reportStatMap`, for the keys used -/
def reportStat : Nat → Bytes × Bytes
  | 1 => (ascii "001", ascii "EXPIRED")
  | 2 => (ascii "002", ascii "EXPIRED")
  | 3 => (ascii "003", ascii "UNDELIV")
  | 4 => (ascii "004", ascii "UNDELIV")
  | 5 => (ascii "005", ascii "UNDELIV")
  | 6 => (ascii "006", ascii "UNDELIV")
  | 7 => (ascii "007", ascii "EXPIRED")
  | 8 => (ascii "008", ascii "UNDELIV")
  | 9 => (ascii "009", ascii "UNDELIV")
  | 10 => (ascii "010", ascii "UNDELIV")
  | _ => (ascii "000", ascii "DELIVRD")

/-- `Format("0601021504")`: year, month, day, hour, minute, two digits each. Used at codec/smgp/report.go:25-26,
codec/cmpp/submit.go:279-280. -/
def formatMinute (c : Clock) : Bytes :=
  d2 c.year ++ d2 c.month ++ d2 c.day ++ d2 c.hour ++ d2 c.minute

/-- codec/smgp/report.go:21-65 `NewReport`; `sub`, `done` are the two clock readings, `unix` is
`time.Now().Unix()`. -/
def newReport (id : Bytes) (sub done : Clock) (unix : Nat) : Report :=
  let (err, stat) := reportStat (unix % 1000)
  { id, sub := ascii "001", dlvrd := ascii "001", submitDate := formatMinute sub,
    doneDate := formatMinute done, txt := [], err, stat }

/-- `fmt`'s `%x` of a byte string: two lower-case hex digits per byte. Used at codec/smgp/report.go:68. -/
def hexBytes (b : Bytes) : Bytes := b.flatMap fun x => hexLoop x.toNat 1

/-- codec/smgp/report.go:67-70 `Report.String` -/
def Report.string (r : Report) : Bytes :=
  ascii "id:" ++ hexBytes r.id ++ ascii " sub:" ++ r.sub ++ ascii " dlvrd:" ++ r.dlvrd ++
  ascii " submit date:" ++ r.submitDate ++ ascii " done date:" ++ r.doneDate ++
  ascii " stat:" ++ r.stat ++ ascii " err:" ++ r.err ++ ascii " text:" ++ hexBytes r.txt

/-- codec/smgp/report.go:72-83 `Report.Encode` (`RptLen` = 122, line 19) -/
def Report.encode (r : Report) : Option Bytes :=
  if r.string.length < 23 then none else
  (runW [.str 3 (ascii "id:"), .str 10 r.id, .str 89 (r.string.drop 23)] (zeros 122) 0).map (·.1)

/-- codec/smgp/report.go:85-113 `Report.Decode` (on a fresh `Report`; fields are not trimmed) -/
def reportDecode : Rd Report := do
  Rd.skip 3; let id ← Rd.slice 10
  Rd.skip 5; let sub ← Rd.slice 3
  Rd.skip 7; let dlvrd ← Rd.slice 3
  Rd.skip 13; let submitDate ← Rd.slice 10
  Rd.skip 11; let doneDate ← Rd.slice 10
  Rd.skip 6; let stat ← Rd.slice 7
  Rd.skip 5; let err ← Rd.slice 3
  pure { id, sub, dlvrd, submitDate, doneDate, stat, err }

/-! ## submit.go -/

/-- codec/smgp/submit.go:17-40 `Submit` (a nil `tlvList` is `none`) -/
structure Submit where
  hdr : Header := {}
  msgType : UInt8 := 0
  needReport : UInt8 := 0
  priority : UInt8 := 0
  serviceID : Bytes := []
  feeType : Bytes := []
  feeCode : Bytes := []
  fixedFee : Bytes := []
  msgFormat : UInt8 := 0
  validTime : Bytes := []
  atTime : Bytes := []
  srcTermID : Bytes := []
  chargeTermID : Bytes := []
  destTermIDCount : UInt8 := 0
  destTermID : List Bytes := []
  msgLength : UInt8 := 0
  msgContent : Bytes := []
  reserve : Bytes := []
  tlvList : Option TlvList := none
  version : UInt8 := 0
deriving Repr, DecidableEq

/-- codec/smgp/submit.go:42-49 `SubmitRsp` and codec/smgp/deliver.go:35-42 `DeliverRsp` (the same
fields) -/
structure Rsp where
  hdr : Header := {}
  msgId : Bytes := []
  status : UInt32 := 0
  version : UInt8 := 0
deriving Repr, DecidableEq

/-- codec/smgp/submit.go:367-401 `SetOptions`; `clock` is `time.Now()`. Lines 370 and 376 compare with
0 (the unset value is 0xf); line 393 discards the result of `Add`; line 395 overwrites the validity. -/
def setOptions (ac : AuthConf) (s : Submit) (o : MtOptions) (clock : Clock) : Submit :=
  { s with
    needReport := if o.needReport ≠ 0 then o.needReport else ac.needReport
    priority := if o.msgLevel ≠ 0 then o.msgLevel else ac.defaultMsgLevel
    serviceID := if o.serviceId ≠ [] then o.serviceId else ac.serviceId
    atTime := if o.atTime ≠ [] then o.atTime else s.atTime
    validTime := formatTime clock
    srcTermID := if o.spSubNo ≠ [] then ac.smsDisplayNo ++ o.spSubNo else ac.smsDisplayNo }

/-- codec/smgp/submit.go:91-98: the optional parameters of slice `i` of `n`. -/
def sliceTlvs (n i : Nat) : TlvList :=
  tlvAdd (tlvAdd (tlvAdd (tlvAdd newTlvList 0x0001 [0x00]) 0x0002 [0x01]) 0x0009 [UInt8.ofNat n])
    0x000A [UInt8.ofNat i]

/-- codec/smgp/submit.go:53-105 `NewSubmit`. `groupId` is the clock-derived reference of the long
message, `clock` the reading for the validity, `seqs i` the value drawn from `B32Seq` for slice `i`.
A coder error gives no packets (line 72). -/
def newSubmit (gbEnc : Bytes → Option Bytes) (ac : AuthConf) (phones : List Bytes) (content : Bytes)
    (seq : UInt32) (opts : List OptionFunc) (groupId : UInt8) (clock : Clock) (seqs : Nat → UInt32) :
    Option (List Submit) :=
  let mt : Submit := { hdr := ⟨126, SUBMIT, seq⟩, version := ac.version }
  let mt := setOptions ac mt (loadMtOptions opts) clock
  let mt := { mt with
    msgType := 6
    feeType := ac.feeType, feeCode := ac.feeCode, chargeTermID := ac.feeTerminalId
    fixedFee := ac.fixedFee
    destTermID := phones, destTermIDCount := UInt8.ofNat phones.length
    msgFormat := 15 }
  match gbEnc content with
  | none => some []
  | some data =>
    (toTPUDHISlices groupId data 140).map fun slices =>
    match slices with
    | [s] =>
      [{ mt with
          msgContent := s, msgLength := UInt8.ofNat s.length
          hdr := { mt.hdr with
            totalLength := UInt32.ofNat (126 + phones.length * 21 + (UInt8.ofNat s.length).toNat) } }]
    | _ =>
      slices.mapIdx fun i s =>
        { mt with
          msgLength := UInt8.ofNat s.length, msgContent := s
          tlvList := some (sliceTlvs slices.length i)
          hdr := { mt.hdr with
            totalLength := UInt32.ofNat (126 + phones.length * 21 + (UInt8.ofNat s.length).toNat + 20)
            sequenceId := if i ≠ 0 then seqs i else mt.hdr.sequenceId } }

/-- codec/smgp/submit.go:107-144 `Submit.Encode`; the nil slice is `[]`. -/
def Submit.encode (s : Submit) : Option Bytes :=
  if s.destTermID.length ≠ s.destTermIDCount.toNat then some [] else
  let ops : List WOp :=
    [.seek 12, .byte s.msgType, .byte s.needReport, .byte s.priority, .str 10 s.serviceID,
     .str 2 s.feeType, .str 6 s.feeCode, .str 6 s.fixedFee, .byte s.msgFormat, .str 17 s.validTime,
     .str 17 s.atTime, .str 21 s.srcTermID, .str 21 s.chargeTermID, .byte s.destTermIDCount]
    ++ s.destTermID.map (fun t => .str 21 t)
    ++ [.byte s.msgLength, .str s.msgLength.toNat s.msgContent, .str 8 s.reserve]
  match s.tlvList with
  | none => encodeWith s.hdr ops
  | some tl =>
    match tlvWrite tl with
    | (_, some _) => (encodeWith s.hdr ops).map fun _ => []
    | (b, none) => encodeWith s.hdr (ops ++ [.free b.length b])

/-- codec/smgp/submit.go:184-189: the content handed to the GB18030 decoder. -/
def strippedContent (content : Bytes) : Option Bytes :=
  match content with
  | [] => none
  | a :: r1 =>
    if a ≠ 0x05 then some content
    else match r1 with
      | [] => none
      | b :: r2 =>
        if b ≠ 0x00 then some content
        else match r2 with
          | [] => none
          | c :: _ =>
            if c ≠ 0x03 then some content
            else if content.length < 6 then none
            else some (content.drop 6)

/-- codec/smgp/submit.go:192-196: the optional parameters. The test compares a body index with the
packet length (header included), so it also holds when nothing is left; then the list read is empty.
`frame[index:]` panics when the index is beyond the end. A TLV error is ignored. -/
def tlvTail (len : Nat) : Rd (Option TlvList) := fun f i =>
  if i + 5 < 12 + len then
    match Rd.tail len f i with
    | none => none
    | some (area, j) => some (some (tlvRead area).1, j)
  else some (none, i)

/-- codec/smgp/submit.go:146-198 `Submit.Decode` on `&Submit{Version: v}`. A coder error leaves the
content nil (line 189). -/
def Submit.decode (gbDec : Bytes → Option Bytes) (v : UInt8) (seq : UInt32) (f : Buf) : Option Submit :=
  Rd.run (do
    let len ← Rd.length
    let msgType ← Rd.byte
    let needReport ← Rd.byte
    let priority ← Rd.byte
    let serviceID ← Rd.str 10
    let feeType ← Rd.str 2
    let feeCode ← Rd.str 6
    let fixedFee ← Rd.str 6
    let msgFormat ← Rd.byte
    let validTime ← Rd.str 17
    let atTime ← Rd.str 17
    let srcTermID ← Rd.str 21
    let chargeTermID ← Rd.str 21
    let destTermIDCount ← Rd.byte
    let destTermID ← Rd.times (Rd.str 21) destTermIDCount.toNat
    let msgLength ← Rd.byte
    let raw ← Rd.slice msgLength.toNat
    let content ← Rd.lift (strippedContent raw)
    let reserve ← Rd.str 8
    let tlvList ← tlvTail len
    pure { hdr := ⟨12 + UInt32.ofNat len, SUBMIT, seq⟩, msgType, needReport, priority, serviceID,
           feeType, feeCode, fixedFee, msgFormat, validTime, atTime, srcTermID, chargeTermID,
           destTermIDCount, destTermID, msgLength, msgContent := (gbDec content).getD [], reserve,
           tlvList, version := v }) f

/-- codec/smgp/submit.go:200-208 `Submit.ToResponse`; `nextId` is the value drawn from `BcdSeq`. -/
def Submit.toResponse (s : Submit) (code : UInt32) (nextId : Bytes) : Rsp :=
  { hdr := ⟨26, SUBMIT_RESP, s.hdr.sequenceId⟩, status := code, msgId := nextId, version := s.version }

/-- codec/smgp/submit.go:225-232 `SubmitRsp.Encode`, codec/smgp/deliver.go:205-212 `DeliverRsp.Encode`
(the same text) -/
def Rsp.encode (r : Rsp) : Option Bytes :=
  encodeWith r.hdr [.seek 12, .str 10 r.msgId, .str 4 (be32 r.status)]

/-- codec/smgp/submit.go:234-242 `SubmitRsp.Decode` (`cmd` = SUBMIT_RESP) and
codec/smgp/deliver.go:214-222 `DeliverRsp.Decode` (`cmd` = DELIVER_RESP), on a fresh value with the
version set -/
def Rsp.decode (cmd : UInt32) (v : UInt8) (seq : UInt32) (f : Buf) : Option Rsp :=
  Rd.run (do
    let len ← Rd.length
    Rd.seek 0; let msgId ← Rd.slice 10
    Rd.seek 10; let status ← Rd.u32
    pure { hdr := ⟨12 + UInt32.ofNat len, cmd, seq⟩, msgId, status, version := v }) f

/-! ## deliver.go -/

/-- codec/smgp/deliver.go:16-33 `Delivery`. `tlvList` is never set by the code and left out. -/
structure Delivery where
  hdr : Header := {}
  msgId : Bytes := []
  isReport : UInt8 := 0
  msgFormat : UInt8 := 0
  recvTime : Bytes := []
  srcTermID : Bytes := []
  destTermID : Bytes := []
  msgLength : UInt8 := 0
  msgContent : Bytes := []
  msgBytes : Bytes := []
  report : Option Report := none
  reserve : Bytes := []
  version : UInt8 := 0
deriving Repr, DecidableEq

/-- `Format("20060102150405")`; the century is "20" (years 2000-2099). Used at codec/smgp/deliver.go:52, 81. -/
def formatSecond (c : Clock) : Bytes :=
  ascii "20" ++ d2 c.year ++ d2 c.month ++ d2 c.day ++ d2 c.hour ++
  d2 c.minute ++ d2 c.second

/-- codec/smgp/deliver.go:44-69 `NewDeliver`; `msgId` is the value drawn from `BcdSeq`. -/
def newDeliver (gbEnc : Bytes → Option Bytes) (ac : AuthConf) (phone destNo txt : Bytes) (seq : UInt32)
    (msgId : Bytes) (clock : Clock) : Delivery :=
  let rs := runes txt
  let subTxt := if rs.length > 70 then (rs.take 70).flatMap utf8Enc else txt
  let msg := (gbEnc subTxt).getD []
  { version := ac.version
    hdr := ⟨89 + (UInt8.ofNat msg.length).toUInt32, DELIVER, seq⟩
    msgId := msgId
    isReport := 0
    msgFormat := 15
    recvTime := formatSecond clock
    srcTermID := phone
    destTermID := ac.smsDisplayNo ++ destNo
    msgBytes := msg
    msgLength := UInt8.ofNat msg.length
    msgContent := subTxt }

/-- codec/smgp/deliver.go:71-86 `NewDeliveryReport`; `none` is the index panic when the submit has no
recipient (line 82). -/
def newDeliveryReport (ac : AuthConf) (mt : Submit) (seq : UInt32) (msgId nextId : Bytes)
    (clock sub done : Clock) (unix : Nat) : Option Delivery :=
  mt.destTermID.head?.map fun src =>
  { version := ac.version
    hdr := ⟨89 + 122, DELIVER, seq⟩
    msgId := nextId
    report := some (newReport msgId sub done unix)
    msgLength := 115
    isReport := 1
    msgFormat := 0
    recvTime := formatSecond clock
    srcTermID := src
    destTermID := mt.srcTermID }

/-- codec/smgp/deliver.go:88-109 `Delivery.Encode` -/
def Delivery.encode (d : Delivery) : Option Bytes :=
  let head : List WOp :=
    [.seek 12, .str 10 d.msgId, .byte d.isReport, .byte d.msgFormat, .str 14 d.recvTime,
     .str 21 d.srcTermID, .str 21 d.destTermID, .byte d.msgLength]
  match d.isReport == 1, d.report with
  | true, some r => r.encode.bind fun rts => encodeWith d.hdr (head ++ [.str 122 rts, .str 8 d.reserve])
  | _, _ => encodeWith d.hdr (head ++ [.str d.msgLength.toNat d.msgBytes, .str 8 d.reserve])

/-- codec/smgp/deliver.go:130-144: report or text. `none` is a panic; the coder error (line 138) is
`some none`: the decoder returns an error. -/
def deliverContent (gbDec : Bytes → Option Bytes) (isReport : UInt8) (msgLength : UInt8) :
    Rd (Option (Option Report × Bytes)) :=
  if isReport = 1 then do
    let sub ← Rd.sub 122
    let r ← Rd.lift (Rd.run reportDecode sub)
    pure (some (some r, []))
  else do
    let b ← Rd.slice msgLength.toNat
    pure ((gbDec b).map fun t => (none, t))

/-- codec/smgp/deliver.go:111-145 `Delivery.Decode` on `&Delivery{Version: v}`. The outer `none` is a
panic, the inner one a returned error. Bytes after the content are not read. -/
def Delivery.decode (gbDec : Bytes → Option Bytes) (v : UInt8) (seq : UInt32) (f : Buf) :
    Option (Option Delivery) :=
  Rd.run (do
    let len ← Rd.length
    let msgId ← Rd.slice 10
    let isReport ← Rd.byte
    let msgFormat ← Rd.byte
    let recvTime ← Rd.str 14
    let srcTermID ← Rd.str 21
    let destTermID ← Rd.str 21
    let msgLength ← Rd.byte
    let c ← deliverContent gbDec isReport msgLength
    pure (c.map fun (report, msgContent) =>
      { hdr := ⟨12 + UInt32.ofNat len, DELIVER, seq⟩, msgId, isReport, msgFormat, recvTime, srcTermID,
        destTermID, msgLength, report, msgContent, version := v })) f

/-- codec/smgp/deliver.go:147-155 `Delivery.ToResponse`: the response gets a newly drawn id
(line 153), not the id of the delivery. -/
def Delivery.toResponse (d : Delivery) (code : UInt32) (nextId : Bytes) : Rsp :=
  { hdr := ⟨26, DELIVER_RESP, d.hdr.sequenceId⟩, status := code, msgId := nextId, version := d.version }

end Gosms.Smgp
