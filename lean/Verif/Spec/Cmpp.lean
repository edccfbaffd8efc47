import Verif.Spec.Wire
import Verif.Model.Cmpp

/-!
# CMPP 2.x / 3.0 packet layouts

The body of each packet (the bytes after the 12-byte header), field by field, as in the CMPP
specification. Only the record types of the model are used, none of its functions.
-/

namespace Gosms.Spec.Cmpp
open Gosms.Cmpp

/-- CMPP_CONNECT: Source_Addr 6, AuthenticatorSource 16, Version 1, Timestamp 4. -/
def connectBody (c : Connect) : Bytes :=
  [pad 6 c.sourceAddr, pad 16 c.authenticatorSource, [c.version], be32 c.timestamp].flatten

/-- CMPP_CONNECT_RESP: Status 4 (3.x) or 1 (2.x), AuthenticatorISMG 16, Version 1. -/
def connectRespBody (r : ConnectResp) : Bytes :=
  [if major r.version = 3 then be32 r.status.toUInt32 else [r.status],
   pad 16 r.authenticatorISMG, [r.version]].flatten

/-- CMPP_SUBMIT: 3.x has 32-byte numbers, the number types and LinkID; 2.x has 21-byte numbers and 8
reserved bytes at the end. Msg_Id (8 bytes) is sent as zero. -/
def submitBody (s : Submit) : Bytes :=
  [zeros 8, [s.pkTotal], [s.pkNumber], [s.registeredDel], [s.msgLevel], pad 10 s.serviceId,
   [s.feeUsertype],
   if major s.version = 3 then pad 32 s.feeTerminalId else pad 21 s.feeTerminalId,
   if major s.version = 3 then [s.feeTerminalType] else [],
   [s.tpPid], [s.tpUdhi], [s.msgFmt], pad 6 s.msgSrc, pad 2 s.feeType, pad 6 s.feeCode,
   pad 17 s.validTime, pad 17 s.atTime, pad 21 s.srcId, [s.destUsrTl], s.termIds,
   if major s.version = 3 then [s.destTerminalType] else [],
   [s.msgLength], s.msgContent,
   if major s.version = 3 then pad 20 s.linkID else zeros 8].flatten

/-- The width of one recipient number. -/
def numberWidth (v : UInt8) : Nat := if major v = 3 then 32 else 21

/-- A submit whose length fields are consistent. -/
structure SubmitOk (s : Submit) : Prop where
  /-- as many recipient slots as the recipient count says -/
  recipients : s.termIds.length = numberWidth s.version * s.destUsrTl.toNat
  /-- the content is as long as the length byte says -/
  content : s.msgContent.length = s.msgLength.toNat
  /-- the declared packet length is that of the layout -/
  total : s.hdr.totalLength.toNat = 12 + (submitBody s).length

/-- What the receiver must see of a submit: every string as far as it fits its slot, everything else
unchanged. (Msg_Id is not transmitted; 2.x has no number types and no LinkID; the recipients are
`termIds`, the first of them is also shown as a string.) -/
def submitReceived (s : Submit) : Submit :=
  { s with
    msgId := 0
    hdr := ⟨s.hdr.totalLength, 4, s.hdr.sequenceId⟩
    serviceId := slot 10 s.serviceId
    feeTerminalId := slot (numberWidth s.version) s.feeTerminalId
    feeTerminalType := if major s.version = 3 then s.feeTerminalType else 0
    msgSrc := slot 6 s.msgSrc
    feeType := slot 2 s.feeType
    feeCode := slot 6 s.feeCode
    validTime := slot 17 s.validTime
    atTime := slot 17 s.atTime
    srcId := slot 21 s.srcId
    destTerminalId := s.termIds.takeWhile (· ≠ 0)
    destTerminalType := if major s.version = 3 then s.destTerminalType else 0
    linkID := if major s.version = 3 then slot 20 s.linkID else [] }

/-- CMPP_SUBMIT_RESP / CMPP_DELIVER_RESP: Msg_Id 8, Result 4 (3.x) or 1 (2.x). -/
def rspBody (r : Rsp) : Bytes :=
  [be64 r.msgId, if major r.version = 3 then be32 r.result else [r.result.toUInt8]].flatten

/-- Status report: Msg_Id 8, Stat 7, Submit_time 10, Done_time 10, Dest_terminal_Id 21,
SMSC_sequence 4. -/
def reportBody (r : Report) : Bytes :=
  [be64 r.msgId, pad 7 r.stat, pad 10 r.submitTime, pad 10 r.doneTime, pad 21 r.destTerminalId,
   be32 r.smscSequence].flatten

/-- The delivery states a simulated report may tell, by the last two digits of its SMSC sequence number; every other
number means delivered. -/
def simulatedStates : List (Nat × String) :=
  [(10, "CB:0000"), (11, "CA:0000"), (22, "MB:0000"), (33, "MA:0000"), (44, "EXPIRED"), (55, "DELETED"), (66, "UNDELIV"),
   (77, "ACCEPTD"), (88, "UNKNOWN"), (99, "REJECTD")]

/-- The state a report with this SMSC sequence number tells. -/
def simulatedStat (smscSequence : UInt32) : Bytes :=
  ascii ((simulatedStates.lookup (smscSequence.toNat % 100)).getD "DELIVRD")

/-- What the receiver must see of a report. -/
def reportReceived (r : Report) : Report :=
  { r with stat := slot 7 r.stat, submitTime := slot 10 r.submitTime, doneTime := slot 10 r.doneTime,
           destTerminalId := slot 21 r.destTerminalId }

/-- CMPP_DELIVER with the given content bytes. -/
def deliverBody (d : Delivery) (content : Bytes) : Bytes :=
  [be64 d.msgId, pad 21 d.destId, pad 10 d.serviceId, [d.tpPid], [d.tpUdhi], [d.msgFmt],
   if major d.version = 3 then pad 32 d.srcTerminalId else pad 21 d.srcTerminalId,
   if major d.version = 3 then [d.srcTerminalType] else [],
   [d.registeredDelivery], [d.msgLength], pad d.msgLength.toNat content,
   if major d.version = 3 then pad 20 d.linkID else zeros 8].flatten

/-- What the receiver sees of a deliver, field by field: every string cut to its own slot. `text` is what is
in the content slot of a text and `report` what is in that of a report. (The receiver reads the destination
number from the slot of the service id; that is C29, not a matter of lengths.) -/
def deliverReceived (d : Delivery) (text : Bytes) (report : Option Report) : Delivery :=
  { d with
    hdr := ⟨d.hdr.totalLength, 5, d.hdr.sequenceId⟩
    destId := slot 10 d.serviceId
    serviceId := []
    srcTerminalId := slot (numberWidth d.version) d.srcTerminalId
    srcTerminalType := if major d.version = 3 then d.srcTerminalType else 0
    msgContent := text
    report := report
    linkID := if major d.version = 3 then slot 20 d.linkID else [] }

end Gosms.Spec.Cmpp

namespace Gosms.Spec.Cmpp
open Gosms.Cmpp

/-- Every string field of the submit fits its slot. -/
structure SubmitFits (s : Submit) : Prop where
  serviceId : Fits 10 s.serviceId
  feeTerminalId : Fits (numberWidth s.version) s.feeTerminalId
  msgSrc : Fits 6 s.msgSrc
  feeType : Fits 2 s.feeType
  feeCode : Fits 6 s.feeCode
  validTime : Fits 17 s.validTime
  atTime : Fits 17 s.atTime
  srcId : Fits 21 s.srcId
  linkID : Fits 20 s.linkID

/-- Content that does not look like a concatenation header (05 00 03), not even its beginning. -/
def Plain (c : Bytes) : Prop := ¬ c <+: [0x05, 0x00, 0x03] ∧ ¬ [0x05, 0x00, 0x03] <+: c

instance (c : Bytes) : Decidable (Plain c) := inferInstanceAs (Decidable (_ ∧ _))

end Gosms.Spec.Cmpp
