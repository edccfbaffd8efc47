import Verif.Spec.Wire
import Verif.Model.Sgip

/-!
# SGIP packet layouts

The body of each packet (the bytes after the 20-byte header), field by field, as in the SGIP
specification. Only the record types of the model are used, none of its functions.
-/

namespace Gosms.Spec.Sgip
open Gosms.Sgip

/-- Bind: Login Type 1, Login Name 16, Login Password 16, Reserve 8. -/
def bindBody (b : Bind) : Bytes :=
  [[b.loginType], pad 16 b.loginName, pad 16 b.loginPassword, zeros 8].flatten

/-- Responses to submit, deliver and report: Result 1, Reserve 8. -/
def rspBody (r : Rsp) : Bytes := [[r.status], zeros 8].flatten

/-- Report: Submit sequence number 12, Report type 1, User number 21, State 1, Error code 1, Reserve 8. -/
def reportBody (r : Report) : Bytes :=
  [r.mtSequence.flatMap be32, [r.reportType], pad 21 r.userNumber, [r.state], [r.errorCode],
   pad 8 r.reserve].flatten

/-- A report about a message with a three-word sequence number, whose strings fit. -/
structure ReportFits (r : Report) : Prop where
  mtSequence : r.mtSequence.length = 3
  userNumber : Fits 21 r.userNumber
  reserve : r.reserve.length ≤ 8

/-- Deliver. -/
def deliverBody (d : Deliver) : Bytes :=
  [pad 21 d.userNumber, pad 21 d.spNumber, [d.tpPid], [d.tpUdhi], [d.messageCoding],
   be32 d.messageLength, d.messageContent, pad 8 d.reserve].flatten

/-- A delivery with consistent lengths whose strings fit. -/
structure DeliverFits (d : Deliver) : Prop where
  userNumber : Fits 21 d.userNumber
  spNumber : Fits 21 d.spNumber
  reserve : d.reserve.length ≤ 8
  content : d.messageContent.length = d.messageLength.toNat
  total : d.hdr.packetLength.toNat = 20 + (deliverBody d).length

/-- Submit. -/
def submitBody (s : Submit) : Bytes :=
  [pad 21 s.spNumber, pad 21 s.chargeNumber, [s.userCount], s.userNumber.flatMap (pad 21),
   pad 5 s.corpId, pad 10 s.serviceType, [s.feeType], pad 6 s.feeValue, pad 6 s.givenValue,
   [s.agentFlag], [s.morelatetoMTFlag], [s.priority], pad 16 s.expireTime, pad 16 s.scheduleTime,
   [s.reportFlag], [s.tpPid], [s.tpUdhi], [s.messageCoding], [s.messageType], be32 s.messageLength,
   s.messageContent, pad 8 s.reserve].flatten

/-- A submit whose length fields are consistent. -/
structure SubmitOk (s : Submit) : Prop where
  /-- as many recipients as the recipient count says -/
  recipients : s.userNumber.length = s.userCount.toNat
  /-- the content is as long as its length field says -/
  content : s.messageContent.length = s.messageLength.toNat
  /-- the declared packet length is that of the layout -/
  total : s.hdr.packetLength.toNat = 20 + (submitBody s).length

/-- Every string field of the submit fits its slot. -/
structure SubmitFits (s : Submit) : Prop where
  spNumber : Fits 21 s.spNumber
  chargeNumber : Fits 21 s.chargeNumber
  userNumber : ∀ t ∈ s.userNumber, Fits 21 t
  corpId : Fits 5 s.corpId
  serviceType : Fits 10 s.serviceType
  feeValue : Fits 6 s.feeValue
  givenValue : Fits 6 s.givenValue
  expireTime : Fits 16 s.expireTime
  scheduleTime : Fits 16 s.scheduleTime
  reserve : s.reserve.length ≤ 8

end Gosms.Spec.Sgip
