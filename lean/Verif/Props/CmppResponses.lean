import Verif.Props.CmppSubmit

/-!
# C31 (CMPP part), C32: CMPP responses
-/

namespace Gosms.Cmpp
open Gosms.Rd

theorem length_rspBody (r : Rsp) : (Spec.Cmpp.rspBody r).length = if Spec.major r.version = 3 then 12 else 9 := by
  unfold Spec.Cmpp.rspBody
  split <;> simp

theorem rsp_recv (cmd : UInt32) (r : Rsp) (spare : Bytes)
    (hl : r.hdr.totalLength.toNat = 12 + (if Spec.major r.version = 3 then 12 else 9))
    (hres : Spec.major r.version = 3 ∨ r.result.toNat < 256) :
    ∃ frame, r.encode = some frame ∧
      frame = Spec.header12 r.hdr.totalLength r.hdr.commandId r.hdr.sequenceId ++ Spec.Cmpp.rspBody r ∧
      Spec.SelfDelimiting frame ∧
      recv (Rsp.decode cmd r.version) frame spare =
        some { r with hdr := ⟨r.hdr.totalLength, cmd, r.hdr.sequenceId⟩ } := by
  rw [← length_rspBody] at hl
  refine ⟨_, rsp_encode r hl, rfl, selfDelimiting_header12 hl, ?_⟩
  rw [recv_header12, rsp_reads, total_u32 hl]
  congr 2
  split
  · rfl
  · rename_i h
    have h := hres.resolve_left h
    apply UInt32.toNat_inj.1
    have : (r.result.toUInt8.toUInt32).toNat = r.result.toNat % 256 := by simp
    rw [this]; omega

theorem total_rsp (v : UInt8) : (if v3 v then (12 : UInt32) + 12 else 12 + 9).toNat =
    12 + (if Spec.major v = 3 then 12 else 9) := by
  by_cases h : v3 v = true
  · simp [h, (v3_iff _).1 h]
  · have h' : ¬ Spec.major v = 3 := fun e => h ((v3_iff _).2 e)
    simp [h, h']

/-! ## C32 -/

/-- Submit response: message id and result survive the wire in both layouts (2.x has a one-byte
result), and the response comes back under the request's sequence number. -/
theorem cmpp_submit_response_roundtrip (s : Submit) (result : UInt32) (nextId : UInt64) (spare : Bytes)
    (hres : Spec.major s.version = 3 ∨ result.toNat < 256) :
    ∃ frame, (s.toResponse result nextId).encode = some frame ∧ Spec.SelfDelimiting frame ∧
      recv (Rsp.decode 0x80000004 s.version) frame spare =
        some { hdr := ⟨if Spec.major s.version = 3 then 24 else 21, 0x80000004, s.hdr.sequenceId⟩
               msgId := if result = 0 then nextId else 0
               result := result
               version := s.version } := by
  obtain ⟨frame, h1, _, h3, h4⟩ := rsp_recv 0x80000004 (s.toResponse result nextId) spare (total_rsp s.version) hres
  refine ⟨frame, h1, h3, h4.trans ?_⟩
  by_cases h : v3 s.version = true
  · simp only [Submit.toResponse, h, (v3_iff _).1 h, if_true]; rfl
  · have h' : ¬ Spec.major s.version = 3 := fun e => h ((v3_iff _).2 e)
    simp only [Submit.toResponse, h, h', if_false]; rfl

/-- Deliver response. -/
theorem cmpp_deliver_response_roundtrip (d : Delivery) (code : UInt32) (spare : Bytes)
    (hres : Spec.major d.version = 3 ∨ code.toNat < 256) :
    ∃ frame, (d.toResponse code).encode = some frame ∧ Spec.SelfDelimiting frame ∧
      recv (Rsp.decode 0x80000005 d.version) frame spare =
        some { hdr := ⟨if Spec.major d.version = 3 then 24 else 21, 0x80000005, d.hdr.sequenceId⟩
               msgId := d.msgId
               result := code
               version := d.version } := by
  obtain ⟨frame, h1, _, h3, h4⟩ := rsp_recv 0x80000005 (d.toResponse code) spare (total_rsp d.version) hres
  refine ⟨frame, h1, h3, h4.trans ?_⟩
  by_cases h : v3 d.version = true
  · simp only [Delivery.toResponse, h, (v3_iff _).1 h, if_true]; rfl
  · have h' : ¬ Spec.major d.version = 3 := fun e => h ((v3_iff _).2 e)
    simp only [Delivery.toResponse, h, h', if_false]; rfl

example : Spec.major 0x20 = 3 ∨ (8 : UInt32).toNat < 256 := by decide

/-- A 2.x result above 255 does not survive: it is sent modulo 256. -/
example : (Rsp.mk ⟨21, 0x80000004, 1⟩ 7 256 0x20).encode =
    some [0,0,0,21, 0x80,0,0,4, 0,0,0,1, 0,0,0,0,0,0,0,7, 0] := by decide

/-- Active test and terminate: request and response frames are the 12-byte header (the active-test
response has one more zero byte), and decoding gives the packet back under its sequence number. -/
theorem cmpp_link_packets_roundtrip (seq code : UInt32) (spare : Bytes) :
    (∃ f, activeTestEncode (newActiveTest seq) = some f ∧ f = Spec.header12 12 8 seq ∧
      Spec.SelfDelimiting f ∧ recv activeTestDecode f spare = some (newActiveTest seq)) ∧
    (∃ f, terminateEncode (newTerminate seq) = some f ∧ f = Spec.header12 12 2 seq ∧
      Spec.SelfDelimiting f ∧ recv terminateDecode f spare = some (newTerminate seq)) ∧
    (∃ f, activeTestRspEncode (activeTestToResponse (newActiveTest seq) code) = some f ∧
      f = Spec.header12 13 0x80000008 seq ++ [0] ∧ Spec.SelfDelimiting f ∧
      recv activeTestRspDecode f spare = some ⟨13, 0x80000008, seq⟩) ∧
    (∃ f, terminateRspEncode (terminateToResponse (newTerminate seq) code) = some f ∧
      f = Spec.header12 12 0x80000002 seq ∧ Spec.SelfDelimiting f ∧
      recv terminateRspDecode f spare = some ⟨12, 0x80000002, seq⟩) := by
  have hdr : ∀ cmd : UInt32, (Header.mk 12 cmd seq).encode = some (Spec.header12 12 cmd seq) := by
    intro cmd
    rw [header_encode, clamp_of_le (h := ⟨12, cmd, seq⟩) (Nat.le_refl 12)]
    simp [zeros]
  have hsd : ∀ cmd : UInt32, Spec.SelfDelimiting (Spec.header12 12 cmd seq) := by
    intro cmd
    have := selfDelimiting_header12 (l := 12) (c := cmd) (s := seq) (body := []) rfl
    rwa [List.append_nil] at this
  have hrecv : ∀ (cmd : UInt32) (dec : UInt32 → Buf → Option Header),
      recv dec (Spec.header12 12 cmd seq) spare = dec seq ⟨spare, 0⟩ := by
    intro cmd dec
    have := recv_header12 dec 12 cmd seq [] spare
    rwa [List.append_nil] at this
  refine ⟨⟨_, hdr _, rfl, hsd _, hrecv _ _⟩, ⟨_, hdr _, rfl, hsd _, hrecv _ _⟩, ⟨_, ?_, rfl, ?_, ?_⟩,
    ⟨_, hdr _, rfl, hsd _, hrecv _ _⟩⟩
  · refine encodeWith_exact _ _ [0] ?_ ?_ rfl
    · simp [layout, WOp.out]
    · simp [AllOk, WOp.Ok]
  · exact selfDelimiting_header12 rfl
  · rw [recv_header12]; rfl

/-! ## C31, CMPP part -/

/-- Every CMPP response carries the request's sequence number, the request's command with the top bit
set, and the given status (connect: the low byte, which is all the status type has). -/
theorem cmpp_responses_echo (md5 : Bytes → Bytes) (c : Connect) (s : Submit) (d : Delivery)
    (a t : Header) (code : UInt32) (id : UInt64)
    (hc : c.hdr.commandId = 1) (hs : s.hdr.commandId = 4) (hd : d.hdr.commandId = 5)
    (ha : a.commandId = 8) (ht : t.commandId = 2) :
    ((c.toResponse md5 code).hdr.sequenceId = c.hdr.sequenceId ∧
      (c.toResponse md5 code).hdr.commandId = Spec.responseOf c.hdr.commandId ∧
      (c.toResponse md5 code).status = code.toUInt8) ∧
    ((s.toResponse code id).hdr.sequenceId = s.hdr.sequenceId ∧
      (s.toResponse code id).hdr.commandId = Spec.responseOf s.hdr.commandId ∧
      (s.toResponse code id).result = code) ∧
    ((d.toResponse code).hdr.sequenceId = d.hdr.sequenceId ∧
      (d.toResponse code).hdr.commandId = Spec.responseOf d.hdr.commandId ∧
      (d.toResponse code).result = code ∧ (d.toResponse code).msgId = d.msgId) ∧
    ((activeTestToResponse a code).sequenceId = a.sequenceId ∧
      (activeTestToResponse a code).commandId = Spec.responseOf a.commandId) ∧
    ((terminateToResponse t code).sequenceId = t.sequenceId ∧
      (terminateToResponse t code).commandId = Spec.responseOf t.commandId) := by
  rw [hc, hs, hd, ha, ht]
  exact ⟨⟨rfl, rfl, rfl⟩, ⟨rfl, rfl, rfl⟩, ⟨rfl, rfl, rfl, rfl⟩, ⟨rfl, rfl⟩, ⟨rfl, rfl⟩⟩

/-- The hypotheses hold of every packet the constructors build and every packet the decoders return. -/
example (md5 : Bytes → Bytes) (ac : AuthConf) (seq : UInt32) (cl : Clock) :
    (newConnect md5 ac seq cl).hdr.commandId = 1 ∧ (newActiveTest seq).commandId = 8 ∧
    (newTerminate seq).commandId = 2 := ⟨rfl, rfl, rfl⟩

end Gosms.Cmpp
