import Verif.Model.Cmpp
import Verif.Model.Smgp
import Verif.Model.Sgip

/-!
# Decoding into, and encoding from, packets that were used before

`Decode` is a method of a packet object and assigns its fields one by one; what it does not assign keeps the value it had. The other
models decode into fresh objects, as the server and the client always do. Here the object is a parameter. `none` is a panic: the
object is not used any more after one.
-/

namespace Gosms.Cmpp

/-- codec/cmpp/connect.go:70-79 -/
def Connect.decodeOn (o : Connect) (seq : UInt32) (f : Buf) : Option Connect :=
  Rd.run (do
    let mut c := o
    c := { c with hdr := ⟨39, CONNECT, seq⟩ }
    Rd.seek 0; let a ← Rd.str 6; c := { c with sourceAddr := a }
    Rd.seek 6; let a ← Rd.slice 16; c := { c with authenticatorSource := a }
    Rd.seek 22; let a ← Rd.byte; c := { c with version := a }
    Rd.seek 23; let a ← Rd.u32; c := { c with timestamp := a }
    return c) f

/-- codec/cmpp/connect.go:169-188: the layout is that of the version the object holds, which is then overwritten (line 186). -/
def ConnectResp.decodeOn (o : ConnectResp) (seq : UInt32) (f : Buf) : Option ConnectResp :=
  Rd.run (do
    let mut r := o
    r := { r with hdr := ⟨if v3 o.version then 33 else 30, CONNECT_RESP, seq⟩ }
    if v3 o.version then Rd.skip 3 else pure ()
    let a ← Rd.byte; r := { r with status := a }
    let a ← Rd.slice 16; r := { r with authenticatorISMG := a }
    let a ← Rd.byte; r := { r with version := a }
    return r) f

/-- codec/cmpp/delivery.go:101-141 (the report is decoded into a new object, line 127) -/
def Delivery.decodeOn (o : Delivery) (seq : UInt32) (f : Buf) : Option Delivery :=
  Rd.run (do
    let mut d := o
    let len ← Rd.length
    d := { d with hdr := ⟨12 + UInt32.ofNat len, DELIVER, seq⟩ }
    Rd.seek 0; let a ← Rd.u64; d := { d with msgId := a }
    Rd.seek 8; let a ← Rd.str 21; d := { d with destId := a }
    Rd.seek 29; let a ← Rd.str 10; d := { d with destId := a }
    Rd.seek 39; let a ← Rd.byte; d := { d with tpPid := a }
    Rd.seek 40; let a ← Rd.byte; d := { d with tpUdhi := a }
    Rd.seek 41; let a ← Rd.byte; d := { d with msgFmt := a }
    Rd.seek 42
    let a ← (if v3 o.version then Rd.str 32 else Rd.str 21); d := { d with srcTerminalId := a }
    let a ← (if v3 o.version then Rd.byte else pure d.srcTerminalType); d := { d with srcTerminalType := a }
    let reg ← Rd.byte; d := { d with registeredDelivery := reg }
    let l ← Rd.byte; d := { d with msgLength := l }
    let sub ← Rd.sub l.toNat
    let rpt ← deliverReport reg sub
    d := if reg = 1 then { d with report := rpt } else { d with msgContent := trimStr (sub.data.take l.toNat) }
    let a ← (if v3 o.version then Rd.str 20 else pure d.linkID); d := { d with linkID := a }
    return d) f

/-- codec/cmpp/delivery.go:283-295 (`cmd` = DELIVER_RESP), codec/cmpp/submit.go:296-307 (`cmd` = SUBMIT_RESP) -/
def Rsp.decodeOn (cmd : UInt32) (o : Rsp) (seq : UInt32) (f : Buf) : Option Rsp :=
  Rd.run (do
    let mut r := o
    let len ← Rd.length
    r := { r with hdr := ⟨12 + UInt32.ofNat len, cmd, seq⟩ }
    Rd.seek 0; let a ← Rd.u64; r := { r with msgId := a }
    Rd.seek 8
    let a ← (if v3 o.version then Rd.u32 else (do let b ← Rd.byte; pure b.toUInt32))
    r := { r with result := a }
    return r) f

/-- codec/cmpp/submit.go:163-235 -/
def Submit.decodeOn (o : Submit) (seq : UInt32) (f : Buf) : Option Submit :=
  Rd.run (do
    let mut s := o
    let len ← Rd.length
    s := { s with hdr := ⟨12 + UInt32.ofNat len, SUBMIT, seq⟩ }
    Rd.seek 8
    let a ← Rd.byte; s := { s with pkTotal := a }
    let a ← Rd.byte; s := { s with pkNumber := a }
    let a ← Rd.byte; s := { s with registeredDel := a }
    let a ← Rd.byte; s := { s with msgLevel := a }
    let a ← Rd.str 10; s := { s with serviceId := a }
    let a ← Rd.byte; s := { s with feeUsertype := a }
    let a ← (if v3 o.version then Rd.str 32 else Rd.str 21); s := { s with feeTerminalId := a }
    let a ← (if v3 o.version then Rd.byte else pure s.feeTerminalType); s := { s with feeTerminalType := a }
    let a ← Rd.byte; s := { s with tpPid := a }
    let a ← Rd.byte; s := { s with tpUdhi := a }
    let a ← Rd.byte; s := { s with msgFmt := a }
    let a ← Rd.str 6; s := { s with msgSrc := a }
    let a ← Rd.str 2; s := { s with feeType := a }
    let a ← Rd.str 6; s := { s with feeCode := a }
    let a ← Rd.str 17; s := { s with validTime := a }
    let a ← Rd.str 17; s := { s with atTime := a }
    let a ← Rd.str 21; s := { s with srcId := a }
    let n ← Rd.byte; s := { s with destUsrTl := n }
    let l : Nat := if v3 o.version then n.toNat <<< 5 else (n * 21).toNat
    let ids ← Rd.slice l; s := { s with termIds := ids }
    let a ← (if v3 o.version then Rd.byte else pure s.destTerminalType); s := { s with destTerminalType := a }
    s := { s with destTerminalId := trimStr ids }
    let l ← Rd.byte; s := { s with msgLength := l }
    let content ← Rd.slice l.toNat
    let a ← Rd.lift (decodedContent content); s := { s with msgContent := a }
    let a ← (if v3 o.version then Rd.str 20 else pure s.linkID); s := { s with linkID := a }
    return s) f

end Gosms.Cmpp

namespace Gosms.Smgp

/-- codec/smgp/login.go:72-82 -/
def Login.decodeOn (o : Login) (seq : UInt32) (f : Buf) : Option Login :=
  Rd.run (do
    let mut l := o
    let len ← Rd.length
    l := { l with hdr := ⟨12 + UInt32.ofNat len, LOGIN, seq⟩ }
    Rd.seek 0; let a ← Rd.slice 8; l := { l with clientID := a }
    Rd.seek 8; let a ← Rd.slice 16; l := { l with authenticatorClient := a }
    Rd.seek 24; let a ← Rd.byte; l := { l with loginMode := a }
    Rd.seek 25; let a ← Rd.u32; l := { l with timestamp := a }
    Rd.seek 29; let a ← Rd.byte; l := { l with version := a }
    return l) f

/-- codec/smgp/login.go:166-177 -/
def LoginRsp.decodeOn (o : LoginRsp) (seq : UInt32) (f : Buf) : Option LoginRsp :=
  Rd.run (do
    let mut r := o
    let len ← Rd.length
    r := { r with hdr := ⟨12 + UInt32.ofNat len, LOGIN_RESP, seq⟩ }
    Rd.seek 0; let a ← Rd.u32; r := { r with status := a }
    Rd.seek 4; let a ← Rd.slice 16; r := { r with authenticatorServer := a }
    let a ← Rd.byte; r := { r with version := a }
    return r) f

/-- codec/smgp/submit.go:146-198: the recipients are appended to those the object has (line 179); the list of optional parameters is
assigned only if there may be some (lines 193-196). -/
def Submit.decodeOn (gbDec : Bytes → Option Bytes) (o : Submit) (seq : UInt32) (f : Buf) : Option Submit :=
  Rd.run (do
    let mut s := o
    let len ← Rd.length
    s := { s with hdr := ⟨12 + UInt32.ofNat len, SUBMIT, seq⟩ }
    let a ← Rd.byte; s := { s with msgType := a }
    let a ← Rd.byte; s := { s with needReport := a }
    let a ← Rd.byte; s := { s with priority := a }
    let a ← Rd.str 10; s := { s with serviceID := a }
    let a ← Rd.str 2; s := { s with feeType := a }
    let a ← Rd.str 6; s := { s with feeCode := a }
    let a ← Rd.str 6; s := { s with fixedFee := a }
    let a ← Rd.byte; s := { s with msgFormat := a }
    let a ← Rd.str 17; s := { s with validTime := a }
    let a ← Rd.str 17; s := { s with atTime := a }
    let a ← Rd.str 21; s := { s with srcTermID := a }
    let a ← Rd.str 21; s := { s with chargeTermID := a }
    let n ← Rd.byte; s := { s with destTermIDCount := n }
    let a ← Rd.times (Rd.str 21) n.toNat; s := { s with destTermID := s.destTermID ++ a }
    let l ← Rd.byte; s := { s with msgLength := l }
    let raw ← Rd.slice l.toNat
    let content ← Rd.lift (strippedContent raw); s := { s with msgContent := (gbDec content).getD [] }
    let a ← Rd.str 8; s := { s with reserve := a }
    let a ← tlvTail len; s := { s with tlvList := a.or s.tlvList }
    return s) f

/-- codec/smgp/submit.go:234-242 (`cmd` = SUBMIT_RESP), codec/smgp/deliver.go:214-222 (`cmd` = DELIVER_RESP) -/
def Rsp.decodeOn (cmd : UInt32) (o : Rsp) (seq : UInt32) (f : Buf) : Option Rsp :=
  Rd.run (do
    let mut r := o
    let len ← Rd.length
    r := { r with hdr := ⟨12 + UInt32.ofNat len, cmd, seq⟩ }
    Rd.seek 0; let a ← Rd.slice 10; r := { r with msgId := a }
    Rd.seek 10; let a ← Rd.u32; r := { r with status := a }
    return r) f

/-- codec/smgp/deliver.go:111-145, with whether an error was returned (line 139). The report is decoded into a new object (line 131). -/
def Delivery.decodeOn (gbDec : Bytes → Option Bytes) (o : Delivery) (seq : UInt32) (f : Buf) : Option (Delivery × Bool) :=
  Rd.run (do
    let mut d := o
    let len ← Rd.length
    d := { d with hdr := ⟨12 + UInt32.ofNat len, DELIVER, seq⟩ }
    let a ← Rd.slice 10; d := { d with msgId := a }
    let r ← Rd.byte; d := { d with isReport := r }
    let a ← Rd.byte; d := { d with msgFormat := a }
    let a ← Rd.str 14; d := { d with recvTime := a }
    let a ← Rd.str 21; d := { d with srcTermID := a }
    let a ← Rd.str 21; d := { d with destTermID := a }
    let l ← Rd.byte; d := { d with msgLength := l }
    let c ← deliverContent gbDec r l
    match c with
    | none => return (d, true)
    | some (rpt, text) => return (if r = 1 then { d with report := rpt } else { d with msgContent := text }, false)) f

end Gosms.Smgp

namespace Gosms.Sgip

/-- codec/sgip/bind.go:48-65 -/
def Bind.decodeOn (o : Bind) (cid : UInt32) (f : Buf) : Option Bind :=
  Rd.run (do
    let mut b := o
    let len ← Rd.length
    b := { b with hdr := ⟨12 + UInt32.ofNat len, BIND, cid, 0, 0⟩ }
    let a ← Rd.u32; b := { b with hdr := { b.hdr with seq1 := a } }
    let a ← Rd.u32; b := { b with hdr := { b.hdr with seq2 := a } }
    let a ← Rd.byte; b := { b with loginType := a }
    let a ← Rd.str 16; b := { b with loginName := a }
    let a ← Rd.str 16; b := { b with loginPassword := a }
    return b) f

/-- codec/sgip/bind.go:106-118 -/
def bindRspDecodeOn (o : Rsp) (cid : UInt32) (f : Buf) : Option Rsp :=
  Rd.run (do
    let mut r := o
    let len ← Rd.length
    r := { r with hdr := ⟨12 + UInt32.ofNat len, BIND_RESP, cid, 0, 0⟩ }
    let a ← Rd.u32; r := { r with hdr := { r.hdr with seq1 := a } }
    let a ← Rd.u32; r := { r with hdr := { r.hdr with seq2 := a } }
    let a ← Rd.byte; r := { r with status := a }
    return r) f

/-- codec/sgip/unbind.go:23-31 (`cmd` = UNBIND), 53-61 (`cmd` = UNBIND_RESP) -/
def unbindDecodeOn (cmd : UInt32) (o : SHeader) (cid : UInt32) (f : Buf) : Option SHeader :=
  Rd.run (do
    let mut u := o
    u := { u with packetLength := 20 }
    u := { u with commandId := cmd }
    u := { u with seq0 := cid, seq1 := 0, seq2 := 0 }
    Rd.seek 0; let a ← Rd.u32; u := { u with seq1 := a }
    Rd.seek 4; let a ← Rd.u32; u := { u with seq2 := a }
    return u) f

/-- codec/sgip/report.go:56-81: the reserved field is not assigned. -/
def Report.decodeOn (o : Report) (cid : UInt32) (f : Buf) : Option Report :=
  Rd.run (do
    let mut r := o
    let len ← Rd.length
    r := { r with hdr := ⟨12 + UInt32.ofNat len, REPORT, cid, 0, 0⟩ }
    let a ← Rd.u32Tail; r := { r with hdr := { r.hdr with seq1 := a } }
    let a ← Rd.u32Tail; r := { r with hdr := { r.hdr with seq2 := a } }
    r := { r with mtSequence := [0, 0, 0] }
    let a ← Rd.u32Tail; r := { r with mtSequence := r.mtSequence.set 0 a }
    let a ← Rd.u32Tail; r := { r with mtSequence := r.mtSequence.set 1 a }
    let a ← Rd.u32Tail; r := { r with mtSequence := r.mtSequence.set 2 a }
    let a ← Rd.byte; r := { r with reportType := a }
    let a ← Rd.str 21; r := { r with userNumber := a }
    let a ← Rd.byte; r := { r with state := a }
    let a ← Rd.byte; r := { r with errorCode := a }
    return r) f

/-- codec/sgip/report.go:111-121 (REPORT_RESP), deliver.go:142-152 (DELIVER_RESP), submit.go:302-312 (SUBMIT_RESP) -/
def Rsp.decodeOn (cmd : UInt32) (o : Rsp) (cid : UInt32) (f : Buf) : Option Rsp :=
  Rd.run (do
    let mut r := o
    let len ← Rd.length
    r := { r with hdr := ⟨12 + UInt32.ofNat len, cmd, cid, 0, 0⟩ }
    Rd.seek 0; let a ← Rd.u32; r := { r with hdr := { r.hdr with seq1 := a } }
    Rd.seek 4; let a ← Rd.u32; r := { r with hdr := { r.hdr with seq2 := a } }
    Rd.seek 8; let a ← Rd.byte; r := { r with status := a }
    return r) f

/-- codec/sgip/deliver.go:80-106 -/
def Deliver.decodeOn (o : Deliver) (cid : UInt32) (f : Buf) : Option Deliver :=
  Rd.run (do
    let mut d := o
    let len ← Rd.length
    d := { d with hdr := ⟨12 + UInt32.ofNat len, DELIVER, cid, 0, 0⟩ }
    let a ← Rd.u32Tail; d := { d with hdr := { d.hdr with seq1 := a } }
    let a ← Rd.u32Tail; d := { d with hdr := { d.hdr with seq2 := a } }
    let a ← Rd.str 21; d := { d with userNumber := a }
    let a ← Rd.str 21; d := { d with spNumber := a }
    let a ← Rd.byte; d := { d with tpPid := a }
    let a ← Rd.byte; d := { d with tpUdhi := a }
    let a ← Rd.byte; d := { d with messageCoding := a }
    let l ← Rd.u32Tail; d := { d with messageLength := l }
    let a ← Rd.slice l.toNat; d := { d with messageContent := a }
    d := { d with reserve := [] }
    return d) f

/-- codec/sgip/submit.go:150-211 -/
def Submit.decodeOn (o : Submit) (cid : UInt32) (f : Buf) : Option Submit :=
  Rd.run (do
    let mut s := o
    let len ← Rd.length
    s := { s with hdr := ⟨12 + UInt32.ofNat len, SUBMIT, cid, 0, 0⟩ }
    let a ← Rd.u32Tail; s := { s with hdr := { s.hdr with seq1 := a } }
    let a ← Rd.u32Tail; s := { s with hdr := { s.hdr with seq2 := a } }
    let a ← Rd.str 21; s := { s with spNumber := a }
    let a ← Rd.str 21; s := { s with chargeNumber := a }
    let n ← Rd.byte; s := { s with userCount := n }
    let a ← Rd.times (Rd.str 21) n.toNat; s := { s with userNumber := a }
    let a ← Rd.str 5; s := { s with corpId := a }
    let a ← Rd.str 10; s := { s with serviceType := a }
    let a ← Rd.byte; s := { s with feeType := a }
    let a ← Rd.str 6; s := { s with feeValue := a }
    let a ← Rd.str 6; s := { s with givenValue := a }
    let a ← Rd.byte; s := { s with agentFlag := a }
    let a ← Rd.byte; s := { s with morelatetoMTFlag := a }
    let a ← Rd.byte; s := { s with priority := a }
    let a ← Rd.str 16; s := { s with expireTime := a }
    let a ← Rd.str 16; s := { s with scheduleTime := a }
    let a ← Rd.byte; s := { s with reportFlag := a }
    let a ← Rd.byte; s := { s with tpPid := a }
    let a ← Rd.byte; s := { s with tpUdhi := a }
    let a ← Rd.byte; s := { s with messageCoding := a }
    let a ← Rd.byte; s := { s with messageType := a }
    let l ← Rd.u32Tail; s := { s with messageLength := l }
    let raw ← Rd.slice l.toNat
    let a ← Rd.lift (decodedContent raw); s := { s with messageContent := a }
    s := { s with reserve := [] }
    return s) f

end Gosms.Sgip

namespace Gosms.Reuse

/-- The packets with a body. (The others are a header whose three fields are all assigned: codec/cmpp/active.go:21-26, 46-51,
terminate.go:21-26, 44-49, codec/smgp/active.go:21-26, 48-53, exit.go:21-26, 48-53.) -/
inductive Kind where
  | cmppConnect | cmppConnectResp | cmppSubmit | cmppSubmitResp | cmppDeliver | cmppDeliverResp
  | smgpLogin | smgpLoginResp | smgpSubmit | smgpSubmitResp | smgpDeliver | smgpDeliverResp
  | sgipBind | sgipBindResp | sgipUnbind | sgipUnbindResp | sgipSubmit | sgipSubmitResp | sgipDeliver | sgipDeliverResp
  | sgipReport | sgipReportResp
deriving DecidableEq, Repr

/-- Their objects. codec/cmpp/submit.go:20-50 and the other packets. -/
abbrev Obj : Kind → Type
  | .cmppConnect => Cmpp.Connect
  | .cmppConnectResp => Cmpp.ConnectResp
  | .cmppSubmit => Cmpp.Submit
  | .cmppSubmitResp => Cmpp.Rsp
  | .cmppDeliver => Cmpp.Delivery
  | .cmppDeliverResp => Cmpp.Rsp
  | .smgpLogin => Smgp.Login
  | .smgpLoginResp => Smgp.LoginRsp
  | .smgpSubmit => Smgp.Submit
  | .smgpSubmitResp => Smgp.Rsp
  | .smgpDeliver => Smgp.Delivery
  | .smgpDeliverResp => Smgp.Rsp
  | .sgipBind => Sgip.Bind
  | .sgipBindResp => Sgip.Rsp
  | .sgipUnbind => SHeader
  | .sgipUnbindResp => SHeader
  | .sgipSubmit => Sgip.Submit
  | .sgipSubmitResp => Sgip.Rsp
  | .sgipDeliver => Sgip.Deliver
  | .sgipDeliverResp => Sgip.Rsp
  | .sgipReport => Sgip.Report
  | .sgipReportResp => Sgip.Rsp

/-- A new object, `&T{Version: v}` (SGIP objects have no version). As at msc_server/server/cmpp_submit.go:28,
msc_client/session/on_traffic_cmpp.go:43. -/
def fresh (v : UInt8) : (k : Kind) → Obj k
  | .cmppConnect => ({ version := v } : Cmpp.Connect)
  | .cmppConnectResp => ({ version := v } : Cmpp.ConnectResp)
  | .cmppSubmit => ({ version := v } : Cmpp.Submit)
  | .cmppSubmitResp => ({ version := v } : Cmpp.Rsp)
  | .cmppDeliver => ({ version := v } : Cmpp.Delivery)
  | .cmppDeliverResp => ({ version := v } : Cmpp.Rsp)
  | .smgpLogin => ({ version := v } : Smgp.Login)
  | .smgpLoginResp => ({ version := v } : Smgp.LoginRsp)
  | .smgpSubmit => ({ version := v } : Smgp.Submit)
  | .smgpSubmitResp => ({ version := v } : Smgp.Rsp)
  | .smgpDeliver => ({ version := v } : Smgp.Delivery)
  | .smgpDeliverResp => ({ version := v } : Smgp.Rsp)
  | .sgipBind => ({} : Sgip.Bind)
  | .sgipBindResp => ({} : Sgip.Rsp)
  | .sgipUnbind => ({} : SHeader)
  | .sgipUnbindResp => ({} : SHeader)
  | .sgipSubmit => ({} : Sgip.Submit)
  | .sgipSubmitResp => ({} : Sgip.Rsp)
  | .sgipDeliver => ({} : Sgip.Deliver)
  | .sgipDeliverResp => ({} : Sgip.Rsp)
  | .sgipReport => ({} : Sgip.Report)
  | .sgipReportResp => ({} : Sgip.Rsp)

/-- `o.Decode(seq, frame)`: the object afterwards, and whether an error was returned. Only the delivery of SMGP returns errors.
codec/cmpp/submit.go:163-235 and the `Decode` of the other packets. -/
def decode (gbDec : Bytes → Option Bytes) (seq : UInt32) (f : Buf) : (k : Kind) → Obj k → Option (Obj k × Bool)
  | .cmppConnect, o => (Cmpp.Connect.decodeOn o seq f).map (·, false)
  | .cmppConnectResp, o => (Cmpp.ConnectResp.decodeOn o seq f).map (·, false)
  | .cmppSubmit, o => (Cmpp.Submit.decodeOn o seq f).map (·, false)
  | .cmppSubmitResp, o => (Cmpp.Rsp.decodeOn Cmpp.SUBMIT_RESP o seq f).map (·, false)
  | .cmppDeliver, o => (Cmpp.Delivery.decodeOn o seq f).map (·, false)
  | .cmppDeliverResp, o => (Cmpp.Rsp.decodeOn Cmpp.DELIVER_RESP o seq f).map (·, false)
  | .smgpLogin, o => (Smgp.Login.decodeOn o seq f).map (·, false)
  | .smgpLoginResp, o => (Smgp.LoginRsp.decodeOn o seq f).map (·, false)
  | .smgpSubmit, o => (Smgp.Submit.decodeOn gbDec o seq f).map (·, false)
  | .smgpSubmitResp, o => (Smgp.Rsp.decodeOn Smgp.SUBMIT_RESP o seq f).map (·, false)
  | .smgpDeliver, o => Smgp.Delivery.decodeOn gbDec o seq f
  | .smgpDeliverResp, o => (Smgp.Rsp.decodeOn Smgp.DELIVER_RESP o seq f).map (·, false)
  | .sgipBind, o => (Sgip.Bind.decodeOn o seq f).map (·, false)
  | .sgipBindResp, o => (Sgip.bindRspDecodeOn o seq f).map (·, false)
  | .sgipUnbind, o => (Sgip.unbindDecodeOn Sgip.UNBIND o seq f).map (·, false)
  | .sgipUnbindResp, o => (Sgip.unbindDecodeOn Sgip.UNBIND_RESP o seq f).map (·, false)
  | .sgipSubmit, o => (Sgip.Submit.decodeOn o seq f).map (·, false)
  | .sgipSubmitResp, o => (Sgip.Rsp.decodeOn Sgip.SUBMIT_RESP o seq f).map (·, false)
  | .sgipDeliver, o => (Sgip.Deliver.decodeOn o seq f).map (·, false)
  | .sgipDeliverResp, o => (Sgip.Rsp.decodeOn Sgip.DELIVER_RESP o seq f).map (·, false)
  | .sgipReport, o => (Sgip.Report.decodeOn o seq f).map (·, false)
  | .sgipReportResp, o => (Sgip.Rsp.decodeOn Sgip.REPORT_RESP o seq f).map (·, false)

/-- `o.Encode()`: the bytes, and the object afterwards: a length below that of the header is raised (codec/cmpp/header.go:18-20,
codec/smgp/header.go:19-21, codec/sgip/header.go:20-22), except that of a submit of SMGP whose count of recipients is wrong
(codec/smgp/submit.go:108-110). `groupId`: the reference number drawn for a text that is cut (C18). -/
def encode (groupId : UInt8) : (k : Kind) → Obj k → Option Bytes × Obj k
  | .cmppConnect, (o : Cmpp.Connect) => (o.encode, ({ o with hdr := o.hdr.clamp } : Cmpp.Connect))
  | .cmppConnectResp, (o : Cmpp.ConnectResp) => (o.encode, ({ o with hdr := o.hdr.clamp } : Cmpp.ConnectResp))
  | .cmppSubmit, (o : Cmpp.Submit) => (o.encode, ({ o with hdr := o.hdr.clamp } : Cmpp.Submit))
  | .cmppSubmitResp, (o : Cmpp.Rsp) => (o.encode, ({ o with hdr := o.hdr.clamp } : Cmpp.Rsp))
  | .cmppDeliver, (o : Cmpp.Delivery) => (o.encode groupId, ({ o with hdr := o.hdr.clamp } : Cmpp.Delivery))
  | .cmppDeliverResp, (o : Cmpp.Rsp) => (o.encode, ({ o with hdr := o.hdr.clamp } : Cmpp.Rsp))
  | .smgpLogin, (o : Smgp.Login) => (o.encode, ({ o with hdr := o.hdr.clamp } : Smgp.Login))
  | .smgpLoginResp, (o : Smgp.LoginRsp) => (o.encode, ({ o with hdr := o.hdr.clamp } : Smgp.LoginRsp))
  | .smgpSubmit, (o : Smgp.Submit) => (o.encode,
      if o.destTermID.length = o.destTermIDCount.toNat then ({ o with hdr := o.hdr.clamp } : Smgp.Submit) else o)
  | .smgpSubmitResp, (o : Smgp.Rsp) => (o.encode, ({ o with hdr := o.hdr.clamp } : Smgp.Rsp))
  | .smgpDeliver, (o : Smgp.Delivery) => (o.encode, ({ o with hdr := o.hdr.clamp } : Smgp.Delivery))
  | .smgpDeliverResp, (o : Smgp.Rsp) => (o.encode, ({ o with hdr := o.hdr.clamp } : Smgp.Rsp))
  | .sgipBind, (o : Sgip.Bind) => (o.encode, ({ o with hdr := o.hdr.clamp } : Sgip.Bind))
  | .sgipBindResp, (o : Sgip.Rsp) => (Sgip.bindRspEncode o, ({ o with hdr := o.hdr.clamp } : Sgip.Rsp))
  | .sgipUnbind, (o : SHeader) => (Sgip.unbindEncode o, o.clamp)
  | .sgipUnbindResp, (o : SHeader) => (Sgip.unbindEncode o, o.clamp)
  | .sgipSubmit, (o : Sgip.Submit) => (o.encode, ({ o with hdr := o.hdr.clamp } : Sgip.Submit))
  | .sgipSubmitResp, (o : Sgip.Rsp) => (o.encode, ({ o with hdr := o.hdr.clamp } : Sgip.Rsp))
  | .sgipDeliver, (o : Sgip.Deliver) => (o.encode, ({ o with hdr := o.hdr.clamp } : Sgip.Deliver))
  | .sgipDeliverResp, (o : Sgip.Rsp) => (o.encode, ({ o with hdr := o.hdr.clamp } : Sgip.Rsp))
  | .sgipReport, (o : Sgip.Report) => (o.encode, ({ o with hdr := o.hdr.clamp } : Sgip.Report))
  | .sgipReportResp, (o : Sgip.Rsp) => (o.encode, ({ o with hdr := o.hdr.clamp } : Sgip.Rsp))

/-- What users do with an object. The methods `Decode` and `Encode`, codec/packer.go:33-37. -/
inductive Use where
  | decode (seq : UInt32) (f : Buf)
  | encode (groupId : UInt8)

/-- One use; `none` is a panic of `Decode`. An `Encode` that panicked leaves the object as one that did not.
codec/packer.go:33-37 -/
def use (gbDec : Bytes → Option Bytes) (k : Kind) (o : Obj k) : Use → Option (Obj k)
  | .decode seq f => (decode gbDec seq f k o).map (·.1)
  | .encode g => some (encode g k o).2

/-- The object after a history of uses, if no `Decode` panicked. codec/packer.go:33-37 -/
def after (gbDec : Bytes → Option Bytes) (v : UInt8) (k : Kind) (hist : List Use) : Option (Obj k) :=
  hist.foldlM (use gbDec k) (fresh v k)

end Gosms.Reuse
