import Verif.Spec.Wire
import Verif.Spec.Tlv
import Verif.Model.Smgp

/-!
# SMGP packet layouts

The body of each packet (the bytes after the 12-byte header), field by field, as in the SMGP
specification. Only the record types of the model are used, none of its functions.
-/

namespace Gosms.Spec.Smgp
open Gosms.Smgp

/-- Login: ClientID 8, AuthenticatorClient 16, LoginMode 1, TimeStamp 4, ClientVersion 1. -/
def loginBody (l : Login) : Bytes :=
  [pad 8 l.clientID, pad 16 l.authenticatorClient, [l.loginMode], be32 l.timestamp, [l.version]].flatten

/-- Login_Resp: Status 4, AuthenticatorServer 16, ServerVersion 1. -/
def loginRspBody (r : LoginRsp) : Bytes :=
  [be32 r.status, pad 16 r.authenticatorServer, [r.version]].flatten

/-- Submit_Resp, Deliver_Resp: MsgID 10, Status 4. -/
def rspBody (r : Rsp) : Bytes := [pad 10 r.msgId, be32 r.status].flatten

/-- Submit, followed by the given optional parameters. -/
def submitBody (s : Submit) (tlvs : List (UInt16 × Bytes)) : Bytes :=
  [[s.msgType], [s.needReport], [s.priority], pad 10 s.serviceID, pad 2 s.feeType, pad 6 s.feeCode,
   pad 6 s.fixedFee, [s.msgFormat], pad 17 s.validTime, pad 17 s.atTime, pad 21 s.srcTermID,
   pad 21 s.chargeTermID, [s.destTermIDCount], s.destTermID.flatMap (pad 21), [s.msgLength],
   s.msgContent, pad 8 s.reserve, tlvsWire tlvs].flatten

/-- A submit whose length fields are consistent. -/
structure SubmitOk (s : Submit) (tlvs : List (UInt16 × Bytes)) : Prop where
  /-- as many recipients as the recipient count says -/
  recipients : s.destTermID.length = s.destTermIDCount.toNat
  /-- the content is as long as the length byte says -/
  content : s.msgContent.length = s.msgLength.toNat
  /-- the declared packet length is that of the layout -/
  total : s.hdr.totalLength.toNat = 12 + (submitBody s tlvs).length

/-- Every string field of the submit fits its slot. -/
structure SubmitFits (s : Submit) : Prop where
  serviceID : Fits 10 s.serviceID
  feeType : Fits 2 s.feeType
  feeCode : Fits 6 s.feeCode
  fixedFee : Fits 6 s.fixedFee
  validTime : Fits 17 s.validTime
  atTime : Fits 17 s.atTime
  srcTermID : Fits 21 s.srcTermID
  chargeTermID : Fits 21 s.chargeTermID
  destTermID : ∀ t ∈ s.destTermID, Fits 21 t
  reserve : Fits 8 s.reserve

/-- What the receiver must see of a submit with content text `text`: every string as far as it fits its
slot, everything else unchanged. -/
def submitReceived (s : Submit) (text : Bytes) : Submit :=
  { s with
    hdr := ⟨s.hdr.totalLength, 2, s.hdr.sequenceId⟩
    serviceID := slot 10 s.serviceID
    feeType := slot 2 s.feeType
    feeCode := slot 6 s.feeCode
    fixedFee := slot 6 s.fixedFee
    validTime := slot 17 s.validTime
    atTime := slot 17 s.atTime
    srcTermID := slot 21 s.srcTermID
    chargeTermID := slot 21 s.chargeTermID
    destTermID := s.destTermID.map (slot 21)
    reserve := slot 8 s.reserve
    msgContent := text }

/-- The status report text: "id:" and the ten id bytes, then the fixed-width fields with their labels,
and twenty bytes of text. -/
def reportBody (r : Report) : Bytes :=
  [ascii "id:", r.id, ascii " sub:", r.sub, ascii " dlvrd:", r.dlvrd, ascii " submit date:", r.submitDate,
   ascii " done date:", r.doneDate, ascii " stat:", r.stat, ascii " err:", r.err, ascii " text:",
   zeros 20].flatten

/-- The fields of the report have their fixed widths. -/
structure ReportFits (r : Report) : Prop where
  id : r.id.length = 10
  sub : r.sub.length = 3
  dlvrd : r.dlvrd.length = 3
  submitDate : r.submitDate.length = 10
  doneDate : r.doneDate.length = 10
  stat : r.stat.length = 7
  err : r.err.length = 3

/-- Deliver with the given content bytes. -/
def deliverBody (d : Delivery) (content : Bytes) : Bytes :=
  [pad 10 d.msgId, [d.isReport], [d.msgFormat], pad 14 d.recvTime, pad 21 d.srcTermID,
   pad 21 d.destTermID, [d.msgLength], content, pad 8 d.reserve].flatten

/-- What the receiver must see of a delivery, apart from its content. (The reserved bytes and the
sender's encoded copy of the text are not kept.) -/
def deliverReceived (d : Delivery) : Delivery :=
  { d with
    hdr := ⟨d.hdr.totalLength, 3, d.hdr.sequenceId⟩
    recvTime := slot 14 d.recvTime
    srcTermID := slot 21 d.srcTermID
    destTermID := slot 21 d.destTermID
    msgBytes := []
    reserve := [] }

/-- Every string field of the delivery fits its slot. -/
structure DeliverFits (d : Delivery) : Prop where
  msgId : d.msgId.length = 10
  recvTime : Fits 14 d.recvTime
  srcTermID : Fits 21 d.srcTermID
  destTermID : Fits 21 d.destTermID

end Gosms.Spec.Smgp
