import Verif.Model.Codec
import Verif.Model.Cmpp

/-!
# Model of codec/sgip

The sequence number of a packet is three 32-bit words. A received packet reaches a decoder as for the
other protocols: the first sequence word is taken from the header (`recv`), the decoder gets the bytes
after the first twelve, which start with the other two words.
-/

namespace Gosms

/-- `binary.BigEndian.Uint32(frame[index:]); index += 4`: `frame[index:]` ends at the *length* of the frame, so the read is
checked against the length. As in codec/sgip/submit.go:150-211. -/
def Rd.u32Tail : Rd UInt32 := fun f i => if i + 4 ≤ f.len then Rd.u32 f i else none

end Gosms

namespace Gosms.Sgip

/-- A sequence number as drawn from `Sequencer.NextVal`. codec/sgip/sequence.go:27-43 -/
abbrev Seq3 := UInt32 × UInt32 × UInt32

/-! codec/sgip/variables.go:35-43 command ids -/

/-- codec/sgip/variables.go:35-43 -/
def BIND : UInt32 := 1
/-- codec/sgip/variables.go:35-43 -/
def UNBIND : UInt32 := 2
/-- codec/sgip/variables.go:35-43 -/
def SUBMIT : UInt32 := 3
/-- codec/sgip/variables.go:35-43 -/
def DELIVER : UInt32 := 4
/-- codec/sgip/variables.go:35-43 -/
def REPORT : UInt32 := 5
/-- codec/sgip/variables.go:35-43 -/
def BIND_RESP : UInt32 := 0x80000001
/-- codec/sgip/variables.go:35-43 -/
def UNBIND_RESP : UInt32 := 0x80000002
/-- codec/sgip/variables.go:35-43 -/
def SUBMIT_RESP : UInt32 := 0x80000003
/-- codec/sgip/variables.go:35-43 -/
def DELIVER_RESP : UInt32 := 0x80000004
/-- codec/sgip/variables.go:35-43 -/
def REPORT_RESP : UInt32 := 0x80000005

/-! ## bind.go -/

/-- codec/sgip/bind.go:16-22 `Bind` (`Reserve` is never read or written and left out) -/
structure Bind where
  hdr : SHeader := {}
  loginType : UInt8 := 0
  loginName : Bytes := []
  loginPassword : Bytes := []
deriving Repr, DecidableEq

/-- codec/sgip/bind.go:24-33 `NewBind`; `seq` is the value drawn from the sequencer -/
def newBind (ac : AuthConf) (loginType : UInt8) (seq : Seq3) : Bind :=
  { hdr := ⟨61, BIND, seq.1, seq.2.1, seq.2.2⟩, loginType, loginName := ac.clientId,
    loginPassword := ac.sharedSecret }

/-- codec/sgip/bind.go:35-46 `Bind.Encode` -/
def Bind.encode (b : Bind) : Option Bytes :=
  b.hdr.encode.bind fun frame =>
  if frame.length = 61 ∧ b.hdr.clamp.packetLength = 61 then
    (runW [.seek 20, .byte b.loginType, .str 16 b.loginName, .str 16 b.loginPassword] frame 20).map (·.1)
  else some frame

/-- codec/sgip/bind.go:48-65 `Bind.Decode` on a fresh `Bind` -/
def Bind.decode (cid : UInt32) (f : Buf) : Option Bind :=
  Rd.run (do
    let len ← Rd.length
    let s1 ← Rd.u32
    let s2 ← Rd.u32
    let loginType ← Rd.byte
    let loginName ← Rd.str 16
    let loginPassword ← Rd.str 16
    pure { hdr := ⟨12 + UInt32.ofNat len, BIND, cid, s1, s2⟩, loginType, loginName, loginPassword }) f

/-- codec/sgip/bind.go:67-73 `Bind.Check`; a nil account is `none` -/
def Bind.check (b : Bind) : Option AuthConf → UInt8
  | none => 1
  | some ac => if ac.loginName = b.loginName ∧ ac.sharedSecret = b.loginPassword then 0 else 1

/-- codec/sgip/bind.go:93-96 `BindRsp`, codec/sgip/submit.go:286-290 `SubmitRsp`,
codec/sgip/deliver.go:126-130 `DeliverRsp`, codec/sgip/report.go:95-99 `ReportRsp`: header and status
(the reserved field is always empty and left out) -/
structure Rsp where
  hdr : SHeader := {}
  status : UInt8 := 0
deriving Repr, DecidableEq

/-- codec/sgip/bind.go:75-82 `Bind.ToResponse`; `Status(code)` keeps the low byte -/
def Bind.toResponse (b : Bind) (code : UInt32) : Rsp :=
  { hdr := ⟨21, BIND_RESP, b.hdr.seq0, b.hdr.seq1, b.hdr.seq2⟩, status := code.toUInt8 }

/-- codec/sgip/bind.go:98-104 `BindRsp.Encode` -/
def bindRspEncode (r : Rsp) : Option Bytes :=
  r.hdr.encode.bind fun frame =>
  if frame.length = 21 ∧ r.hdr.clamp.packetLength = 21 then
    (runW [.seek 20, .byte r.status] frame 20).map (·.1)
  else some frame

/-- codec/sgip/bind.go:106-118 `BindRsp.Decode` on a fresh value -/
def bindRspDecode (cid : UInt32) (f : Buf) : Option Rsp :=
  Rd.run (do
    let len ← Rd.length
    let s1 ← Rd.u32
    let s2 ← Rd.u32
    let status ← Rd.byte
    pure { hdr := ⟨12 + UInt32.ofNat len, BIND_RESP, cid, s1, s2⟩, status }) f

/-! ## unbind.go -/

/-- codec/sgip/unbind.go:14-17 `NewUnbind` -/
def newUnbind (seq : Seq3) : SHeader := ⟨20, UNBIND, seq.1, seq.2.1, seq.2.2⟩
/-- codec/sgip/unbind.go:19-21 and 49-51 `Unbind.Encode`, `UnbindRsp.Encode` -/
def unbindEncode (u : SHeader) : Option Bytes := u.encode
/-- codec/sgip/unbind.go:23-31 `Unbind.Decode` (`cmd` = UNBIND) and 53-61 `UnbindRsp.Decode`
(`cmd` = UNBIND_RESP) -/
def unbindDecode (cmd : UInt32) (cid : UInt32) (f : Buf) : Option SHeader :=
  Rd.run (do
    Rd.seek 0; let s1 ← Rd.u32
    Rd.seek 4; let s2 ← Rd.u32
    pure ⟨20, cmd, cid, s1, s2⟩) f
/-- codec/sgip/unbind.go:33-39 `Unbind.ToResponse` -/
def unbindToResponse (u : SHeader) (_code : UInt32) : SHeader :=
  ⟨u.packetLength, UNBIND_RESP, u.seq0, u.seq1, u.seq2⟩

/-! ## report.go -/

/-- codec/sgip/report.go:13-21 `Report` -/
structure Report where
  hdr : SHeader := {}
  mtSequence : List UInt32 := []
  reportType : UInt8 := 0
  userNumber : Bytes := []
  state : UInt8 := 0
  errorCode : UInt8 := 0
  reserve : Bytes := []
deriving Repr, DecidableEq

/-- codec/sgip/report.go:25-35 `NewReport`: the command is that of a *deliver* (line 28) -/
def newReport (phone : Bytes) (mtSequence : List UInt32) (status code : UInt8) (seq : Seq3) : Report :=
  { hdr := ⟨64, DELIVER, seq.1, seq.2.1, seq.2.2⟩, mtSequence, userNumber := phone, state := status,
    errorCode := code }

/-- codec/sgip/report.go:37-54 `Report.Encode` -/
def Report.encode (r : Report) : Option Bytes :=
  encodeWithS r.hdr (
    [.seek 20]
    ++ r.mtSequence.map (fun s => .str 4 (be32 s))
    ++ [.byte r.reportType, .free 21 r.userNumber, .byte r.state, .byte r.errorCode, .free 8 r.reserve])

/-- codec/sgip/report.go:56-81 `Report.Decode` on a fresh `Report` -/
def Report.decode (cid : UInt32) (f : Buf) : Option Report :=
  Rd.run (do
    let len ← Rd.length
    let s1 ← Rd.u32Tail
    let s2 ← Rd.u32Tail
    let m0 ← Rd.u32Tail
    let m1 ← Rd.u32Tail
    let m2 ← Rd.u32Tail
    let reportType ← Rd.byte
    let userNumber ← Rd.str 21
    let state ← Rd.byte
    let errorCode ← Rd.byte
    pure { hdr := ⟨12 + UInt32.ofNat len, REPORT, cid, s1, s2⟩, mtSequence := [m0, m1, m2], reportType,
           userNumber, state, errorCode }) f

/-- codec/sgip/report.go:101-109 `Report.ToResponse` -/
def Report.toResponse (r : Report) (code : UInt32) : Rsp :=
  { hdr := ⟨29, REPORT_RESP, r.hdr.seq0, r.hdr.seq1, r.hdr.seq2⟩, status := code.toUInt8 }

/-- codec/sgip/report.go:123-127 `ReportRsp.Encode`, deliver.go:154-158 `DeliverRsp.Encode`,
submit.go:314-318 `SubmitRsp.Encode` (the same text) -/
def Rsp.encode (r : Rsp) : Option Bytes := encodeWithS r.hdr [.seek 20, .byte r.status]

/-- codec/sgip/report.go:111-121 `ReportRsp.Decode` (`cmd` = REPORT_RESP), deliver.go:142-152
`DeliverRsp.Decode` (DELIVER_RESP), submit.go:302-312 `SubmitRsp.Decode` (SUBMIT_RESP) -/
def Rsp.decode (cmd : UInt32) (cid : UInt32) (f : Buf) : Option Rsp :=
  Rd.run (do
    let len ← Rd.length
    Rd.seek 0; let s1 ← Rd.u32
    Rd.seek 4; let s2 ← Rd.u32
    Rd.seek 8; let status ← Rd.byte
    pure { hdr := ⟨12 + UInt32.ofNat len, cmd, cid, s1, s2⟩, status }) f

/-! ## deliver.go -/

/-- codec/sgip/deliver.go:14-24 `Deliver` -/
structure Deliver where
  hdr : SHeader := {}
  userNumber : Bytes := []
  spNumber : Bytes := []
  tpPid : UInt8 := 0
  tpUdhi : UInt8 := 0
  messageCoding : UInt8 := 0
  messageLength : UInt32 := 0
  messageContent : Bytes := []
  reserve : Bytes := []
deriving Repr, DecidableEq

/-- codec/sgip/deliver.go:40-52: the bytes of a delivered text; a coder error leaves none. -/
def deliverText (content : Bytes) : Bytes :=
  if msgFmt content = 8 then ((utf8ToUcs2 content).getD []).take 140 else content.take 160

/-- codec/sgip/deliver.go:28-57 `NewDeliver` -/
def newDeliver (ac : AuthConf) (phone content destNo : Bytes) (seq : Seq3) : Deliver :=
  let bs := deliverText content
  { hdr := ⟨77 + UInt32.ofNat bs.length, DELIVER, seq.1, seq.2.1, seq.2.2⟩
    userNumber := phone
    spNumber := if ac.smsDisplayNo.isPrefixOf destNo then destNo else ac.smsDisplayNo ++ destNo
    messageCoding := msgFmt content
    messageLength := UInt32.ofNat bs.length
    messageContent := bs }

/-- codec/sgip/deliver.go:59-78 `Deliver.Encode` -/
def Deliver.encode (d : Deliver) : Option Bytes :=
  encodeWithS d.hdr
    [.seek 20, .free 21 d.userNumber, .free 21 d.spNumber, .byte d.tpPid, .byte d.tpUdhi,
     .byte d.messageCoding, .str 4 (be32 d.messageLength),
     .free d.messageContent.length d.messageContent, .free 8 d.reserve]

/-- codec/sgip/deliver.go:80-106 `Deliver.Decode` on a fresh `Deliver` -/
def Deliver.decode (cid : UInt32) (f : Buf) : Option Deliver :=
  Rd.run (do
    let len ← Rd.length
    let s1 ← Rd.u32Tail
    let s2 ← Rd.u32Tail
    let userNumber ← Rd.str 21
    let spNumber ← Rd.str 21
    let tpPid ← Rd.byte
    let tpUdhi ← Rd.byte
    let messageCoding ← Rd.byte
    let messageLength ← Rd.u32Tail
    let messageContent ← Rd.slice messageLength.toNat
    pure { hdr := ⟨12 + UInt32.ofNat len, DELIVER, cid, s1, s2⟩, userNumber, spNumber, tpPid, tpUdhi,
           messageCoding, messageLength, messageContent }) f

/-- codec/sgip/deliver.go:132-140 `Deliver.ToResponse` -/
def Deliver.toResponse (d : Deliver) (code : UInt32) : Rsp :=
  { hdr := ⟨29, DELIVER_RESP, d.hdr.seq0, d.hdr.seq1, d.hdr.seq2⟩, status := code.toUInt8 }

/-! ## submit.go -/

/-- codec/sgip/submit.go:15-60 `Submit` -/
structure Submit where
  hdr : SHeader := {}
  spNumber : Bytes := []
  chargeNumber : Bytes := []
  userCount : UInt8 := 0
  userNumber : List Bytes := []
  corpId : Bytes := []
  serviceType : Bytes := []
  feeType : UInt8 := 0
  feeValue : Bytes := []
  givenValue : Bytes := []
  agentFlag : UInt8 := 0
  morelatetoMTFlag : UInt8 := 0
  priority : UInt8 := 0
  expireTime : Bytes := []
  scheduleTime : Bytes := []
  reportFlag : UInt8 := 0
  tpPid : UInt8 := 0
  tpUdhi : UInt8 := 0
  messageCoding : UInt8 := 0
  messageType : UInt8 := 0
  messageLength : UInt32 := 0
  messageContent : Bytes := []
  reserve : Bytes := []
deriving Repr, DecidableEq

/-- codec/sgip/submit.go:213-252 `SetOptions`; `expiry` is `time.Now().Add(ac.MtValidDuration)` -/
def setOptions (ac : AuthConf) (s : Submit) (o : MtOptions) (expiry : Clock) : Submit :=
  { s with
    spNumber := if o.spSubNo ≠ [] then ac.smsDisplayNo ++ o.spSubNo else ac.smsDisplayNo
    corpId := if ac.clientId.length > 5 then ac.clientId.drop 5 else ac.clientId
    priority := if o.msgLevel ≠ 0xf then o.msgLevel else ac.defaultMsgLevel
    reportFlag := if o.needReport ≠ 0xf then o.needReport else ac.needReport
    serviceType := if o.serviceId ≠ [] then o.serviceId else ac.serviceId
    scheduleTime := if o.atTime ≠ [] then o.atTime else s.scheduleTime
    expireTime := if o.validTime ≠ [] then o.validTime else formatTime expiry }

/-- codec/sgip/submit.go:64-97 `NewSubmit`. `groupId` is the clock-derived reference of the long message,
`seqs i` the sequence number drawn for slice `i`. -/
def newSubmit (ac : AuthConf) (phones : List Bytes) (content : Bytes) (opts : List OptionFunc)
    (groupId : UInt8) (expiry : Clock) (seqs : Nat → Seq3) : Option (List Submit) :=
  let mt : Submit := { hdr := ⟨143, SUBMIT, (seqs 0).1, (seqs 0).2.1, (seqs 0).2.2⟩ }
  let mt := setOptions ac mt (loadMtOptions opts) expiry
  let mt := { mt with
    userCount := UInt8.ofNat phones.length
    userNumber := phones
    messageCoding := msgFmt content
    morelatetoMTFlag := 2 }
  (msgSlices groupId mt.messageCoding content).map fun slices =>
  match slices with
  | [s] =>
    [{ mt with
        messageLength := UInt32.ofNat s.length, messageContent := s
        hdr := { mt.hdr with packetLength := UInt32.ofNat (143 + phones.length * 21 + s.length) } }]
  | _ =>
    let mt := { mt with tpUdhi := 1 }
    slices.mapIdx fun i s =>
      { mt with
        messageLength := UInt32.ofNat s.length, messageContent := s
        hdr := ⟨UInt32.ofNat (143 + phones.length * 21 + s.length), SUBMIT,
          (seqs i).1, (seqs i).2.1, (seqs i).2.2⟩ }

/-- The writes of codec/sgip/submit.go:101-146 -/
def Submit.ops (s : Submit) : List WOp :=
  [.seek 20, .free 21 s.spNumber, .free 21 s.chargeNumber, .byte s.userCount]
  ++ s.userNumber.map (fun p => .free 21 p)
  ++ [.free 5 s.corpId, .free 10 s.serviceType, .byte s.feeType, .free 6 s.feeValue, .free 6 s.givenValue,
      .byte s.agentFlag, .byte s.morelatetoMTFlag, .byte s.priority, .free 16 s.expireTime,
      .free 16 s.scheduleTime, .byte s.reportFlag, .byte s.tpPid, .byte s.tpUdhi, .byte s.messageCoding,
      .byte s.messageType, .str 4 (be32 s.messageLength), .free s.messageContent.length s.messageContent,
      .free 8 s.reserve]

/-- codec/sgip/submit.go:99-148 `Submit.Encode` -/
def Submit.encode (s : Submit) : Option Bytes := encodeWithS s.hdr s.ops

/-- codec/sgip/submit.go:203-208: the content kept by `Decode`; the same text as in
codec/cmpp/submit.go:225-229. -/
abbrev decodedContent (content : Bytes) : Option Bytes := Cmpp.decodedContent content

/-- codec/sgip/submit.go:150-211 `Submit.Decode` on a fresh `Submit` -/
def Submit.decode (cid : UInt32) (f : Buf) : Option Submit :=
  Rd.run (do
    let len ← Rd.length
    let s1 ← Rd.u32Tail
    let s2 ← Rd.u32Tail
    let spNumber ← Rd.str 21
    let chargeNumber ← Rd.str 21
    let userCount ← Rd.byte
    let userNumber ← Rd.times (Rd.str 21) userCount.toNat
    let corpId ← Rd.str 5
    let serviceType ← Rd.str 10
    let feeType ← Rd.byte
    let feeValue ← Rd.str 6
    let givenValue ← Rd.str 6
    let agentFlag ← Rd.byte
    let morelatetoMTFlag ← Rd.byte
    let priority ← Rd.byte
    let expireTime ← Rd.str 16
    let scheduleTime ← Rd.str 16
    let reportFlag ← Rd.byte
    let tpPid ← Rd.byte
    let tpUdhi ← Rd.byte
    let messageCoding ← Rd.byte
    let messageType ← Rd.byte
    let messageLength ← Rd.u32Tail
    let raw ← Rd.slice messageLength.toNat
    let messageContent ← Rd.lift (decodedContent raw)
    pure { hdr := ⟨12 + UInt32.ofNat len, SUBMIT, cid, s1, s2⟩, spNumber, chargeNumber, userCount,
           userNumber, corpId, serviceType, feeType, feeValue, givenValue, agentFlag, morelatetoMTFlag,
           priority, expireTime, scheduleTime, reportFlag, tpPid, tpUdhi, messageCoding, messageType,
           messageLength, messageContent }) f

/-- codec/sgip/submit.go:292-300 `Submit.ToResponse` -/
def Submit.toResponse (s : Submit) (code : UInt32) : Rsp :=
  { hdr := ⟨29, SUBMIT_RESP, s.hdr.seq0, s.hdr.seq1, s.hdr.seq2⟩, status := code.toUInt8 }

end Gosms.Sgip
