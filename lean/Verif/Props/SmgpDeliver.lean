import Verif.Props.SmgpSubmit

/-!
# C35 (and the SMGP part of C22, C40): SMGP deliver and status report
-/

namespace Gosms.Smgp
open Gosms.Rd

/-- The general form for a text: every string is cut to its slot, the text is decoded. -/
theorem deliver_recv_text (gbDec : Bytes → Option Bytes) (d : Delivery) (spare text : Bytes)
    (hr : d.isReport ≠ 1) (hid : d.msgId.length = 10) (hc : d.msgBytes.length = d.msgLength.toNat)
    (hl : d.hdr.totalLength.toNat = 89 + d.msgLength.toNat) (hg : gbDec d.msgBytes = some text) :
    ∃ frame, d.encode = some frame ∧ Spec.SelfDelimiting frame ∧
      recv (Delivery.decode gbDec d.version) frame spare =
        some (some { Spec.Smgp.deliverReceived d with msgContent := text, report := none }) := by
  have ht : d.hdr.totalLength.toNat = 12 + (Spec.Smgp.deliverBody d d.msgBytes).length := by
    rw [length_deliverBody, hc, hl]; omega
  refine ⟨_, deliver_encode_text d hr hc hl, selfDelimiting_header12 ht, ?_⟩
  rw [recv_header12, deliver_reads_text gbDec d _ spare hr hid hc, Cmpp.total_u32 ht, hg]
  rfl

/-- Whatever the bytes of the text, the encoder writes as many as the length byte says. -/
theorem deliver_encode_cut (d : Delivery) (hr : d.isReport ≠ 1)
    (hl : d.hdr.totalLength.toNat = 89 + d.msgLength.toNat) :
    d.encode = some (Spec.header12 d.hdr.totalLength d.hdr.commandId d.hdr.sequenceId ++
      Spec.Smgp.deliverBody d (pad d.msgLength.toNat d.msgBytes)) := by
  have hb : (d.isReport == 1) = false := by simp [hr]
  unfold Delivery.encode
  simp only [hb]
  refine encodeWith_exact _ _ _ ?_ ?_ ?_
  · simp [layout, WOp.out, Spec.Smgp.deliverBody]
  · simp [AllOk, WOp.Ok]
  · rw [length_deliverBody, length_pad]; omega

/-! ## C35 -/

/-- SMGP deliver carrying a text: the frame is as long as it declares and the receiver decodes the id,
the format, the times and numbers and the text that were sent. -/
theorem smgp_deliver_roundtrip (gbDec : Bytes → Option Bytes) (d : Delivery) (spare : Bytes)
    (hr : d.isReport ≠ 1) (hrep : d.report = none) (hfit : Spec.Smgp.DeliverFits d)
    (hc : d.msgBytes.length = d.msgLength.toNat)
    (hl : d.hdr.totalLength.toNat = 89 + d.msgLength.toNat) (hg : gbDec d.msgBytes = some d.msgContent) :
    ∃ frame, d.encode = some frame ∧ Spec.SelfDelimiting frame ∧
      recv (Delivery.decode gbDec d.version) frame spare =
        some (some { d with hdr := ⟨d.hdr.totalLength, 3, d.hdr.sequenceId⟩, msgBytes := [],
                            reserve := [] }) := by
  obtain ⟨frame, h1, h2, h3⟩ := deliver_recv_text gbDec d spare _ hr hfit.msgId hc hl hg
  refine ⟨frame, h1, h2, h3.trans ?_⟩
  unfold Spec.Smgp.deliverReceived
  simp only [Spec.slot_fits hfit.recvTime, Spec.slot_fits hfit.srcTermID, Spec.slot_fits hfit.destTermID,
    ← hrep]

/-- A status report: id, sub, dlvrd, submit and done times, state and error survive encoding, for all
fields of their fixed widths. (The text of the report is not transmitted.) -/
theorem smgp_report_roundtrip (r : Report) (hf : Spec.Smgp.ReportFits r) (spare : Bytes) :
    ∃ body, r.encode = some body ∧ body = Spec.Smgp.reportBody r ∧ body.length = 122 ∧
      Rd.run reportDecode ⟨body ++ spare, body.length⟩ = some { r with txt := [] } := by
  refine ⟨_, report_encode r hf, rfl, length_reportBody hf, ?_⟩
  rw [length_reportBody hf]
  exact report_reads r hf spare

/-- SMGP deliver carrying a status report: everything but the reserved bytes arrives. -/
theorem smgp_deliver_report_roundtrip (gbDec : Bytes → Option Bytes) (d : Delivery) (r : Report)
    (spare : Bytes) (hr : d.isReport = 1) (hrep : d.report = some r) (hf : Spec.Smgp.ReportFits r)
    (hfit : Spec.Smgp.DeliverFits d) (hl : d.hdr.totalLength.toNat = 211) :
    ∃ frame, d.encode = some frame ∧ Spec.SelfDelimiting frame ∧
      recv (Delivery.decode gbDec d.version) frame spare =
        some (some { d with hdr := ⟨d.hdr.totalLength, 3, d.hdr.sequenceId⟩,
                            report := some { r with txt := [] }, msgContent := [], msgBytes := [],
                            reserve := [] }) := by
  have hlen : (Spec.Smgp.deliverBody d (Spec.Smgp.reportBody r)).length = 199 := by
    rw [length_deliverBody, length_reportBody hf]
  have ht : d.hdr.totalLength.toNat = 12 + (Spec.Smgp.deliverBody d (Spec.Smgp.reportBody r)).length := by
    rw [hlen, hl]
  have hl32 : d.hdr.totalLength = 211 := UInt32.toNat_inj.1 (by rw [hl]; rfl)
  refine ⟨_, deliver_encode_report d r hr hrep hf hl, selfDelimiting_header12 ht, ?_⟩
  rw [recv_header12, hlen, deliver_reads_report gbDec d r _ spare hr hfit.msgId hf, hl32]
  unfold Spec.Smgp.deliverReceived
  simp only [Spec.slot_fits hfit.recvTime, Spec.slot_fits hfit.srcTermID, Spec.slot_fits hfit.destTermID]
  rfl

/-- A concrete delivery and a concrete report. -/
def exampleDelivery : Delivery :=
  { hdr := ⟨91, 3, 7⟩, msgId := [0, 0, 0, 1, 2, 3, 4, 5, 6, 7], msgFormat := 15,
    recvTime := ascii "20220101120000", srcTermID := ascii "13800138000", destTermID := ascii "10690",
    msgLength := 2, msgContent := ascii "hi", msgBytes := ascii "hi", version := 0x30 }

/-- ... -/
def exampleReport : Report :=
  { id := [0, 0, 0, 1, 2, 3, 4, 5, 6, 7], sub := ascii "001", dlvrd := ascii "001",
    submitDate := ascii "2201011200", doneDate := ascii "2201011201", stat := ascii "DELIVRD",
    err := ascii "000" }

example : exampleDelivery.isReport ≠ 1 ∧ exampleDelivery.report = none ∧
    Spec.Smgp.DeliverFits exampleDelivery ∧
    exampleDelivery.msgBytes.length = exampleDelivery.msgLength.toNat ∧
    exampleDelivery.hdr.totalLength.toNat = 89 + exampleDelivery.msgLength.toNat :=
  ⟨by decide, rfl, ⟨by decide, by decide, by decide, by decide⟩, by decide, by decide⟩

example : Spec.Smgp.ReportFits exampleReport :=
  ⟨by decide, by decide, by decide, by decide, by decide, by decide, by decide⟩

theorem length_d2 (n : Nat) : (d2 n).length = 2 := rfl

theorem newReport_fits (id : Bytes) (sub done : Clock) (unix : Nat) (hid : id.length = 10) :
    Spec.Smgp.ReportFits (newReport id sub done unix) := by
  have hs : (reportStat (unix % 1000)).1.length = 3 ∧ (reportStat (unix % 1000)).2.length = 7 := by
    unfold reportStat
    split <;> decide
  exact ⟨hid, (by decide : (ascii "001").length = 3), (by decide : (ascii "001").length = 3), rfl, rfl, hs.2, hs.1⟩

/-- The report packet built for a submit: it is as long as it declares, the receiver recognises it as a
report and reads the id of the message reported on, the state and the error; it goes to the submit's
source number, from its first recipient. -/
theorem smgp_newDeliveryReport (gbDec : Bytes → Option Bytes) (ac : AuthConf) (mt : Submit) (seq : UInt32)
    (msgId nextId : Bytes) (clock sub done : Clock) (unix : Nat) (spare : Bytes)
    (hid : msgId.length = 10) (hnext : nextId.length = 10) (hne : mt.destTermID ≠ []) :
    ∃ d frame r rep, newDeliveryReport ac mt seq msgId nextId clock sub done unix = some d ∧
      d.encode = some frame ∧ Spec.SelfDelimiting frame ∧
      recv (Delivery.decode gbDec ac.version) frame spare = some (some r) ∧
      r.isReport = 1 ∧ r.hdr.sequenceId = seq ∧ r.msgId = nextId ∧
      r.srcTermID = Spec.slot 21 (mt.destTermID.head hne) ∧ r.destTermID = Spec.slot 21 mt.srcTermID ∧
      r.report = some rep ∧ rep.id = msgId ∧
      (rep.stat = ascii "DELIVRD" ↔ rep.err = ascii "000") ∧
      rep.stat ∈ [ascii "DELIVRD", ascii "EXPIRED", ascii "UNDELIV"] := by
  obtain ⟨src, rest, hmt⟩ := List.exists_cons_of_ne_nil hne
  have hf := newReport_fits msgId sub done unix hid
  obtain ⟨d, hd⟩ : ∃ d, newDeliveryReport ac mt seq msgId nextId clock sub done unix = some d := by
    unfold newDeliveryReport; rw [hmt]; exact ⟨_, rfl⟩
  have hd' := hd
  unfold newDeliveryReport at hd'
  rw [hmt, List.head?_cons, Option.map_some, Option.some.injEq] at hd'
  have e1 : d.isReport = 1 := by rw [← hd']
  have e2 : d.report = some (newReport msgId sub done unix) := by rw [← hd']
  have e3 : d.msgId.length = 10 := by rw [← hd']; exact hnext
  have e4 : d.hdr.totalLength.toNat = 211 := by rw [← hd']; rfl
  have e5 : d.version = ac.version := by rw [← hd']
  have hlen : (Spec.Smgp.deliverBody d (Spec.Smgp.reportBody (newReport msgId sub done unix))).length = 199 := by
    rw [length_deliverBody, length_reportBody hf]
  have hrecv := deliver_reads_report gbDec d _ d.hdr.sequenceId spare e1 e3 hf
  rw [e5] at hrecv
  refine ⟨d, _, _, newReport msgId sub done unix, hd, deliver_encode_report d _ e1 e2 hf e4,
    selfDelimiting_header12 (by rw [hlen, e4]), (by rw [recv_header12, hlen]; exact hrecv), ?_, ?_, ?_, ?_,
    ?_, ?_, rfl, ?_⟩
  · exact e1
  · rw [← hd']
  · rw [← hd']; rfl
  · simp only [hmt, List.head_cons]
    rw [← hd']; rfl
  · rw [← hd']; rfl
  · rfl
  · show ((reportStat (unix % 1000)).2 = _ ↔ (reportStat (unix % 1000)).1 = _) ∧ (reportStat (unix % 1000)).2 ∈ _
    unfold reportStat
    split <;> decide

example : exampleSubmit.destTermID ≠ [] := by decide

/-- `NewDeliver` end to end: for a text of at most 70 characters whose GB18030 form is at most 255 bytes
(any text of characters in the two-byte plane is), the receiver gets the sender, the service number, the
id and the whole text. -/
theorem smgp_newDeliver_delivered (gbEnc gbDec : Bytes → Option Bytes)
    (hgb : ∀ x b, gbEnc x = some b → gbDec b = some x) (ac : AuthConf) (phone destNo txt data : Bytes)
    (seq : UInt32) (msgId : Bytes) (clock : Clock) (spare : Bytes) (hid : msgId.length = 10)
    (hshort : (runes txt).length ≤ 70) (he : gbEnc txt = some data) (hlen : data.length ≤ 255) :
    ∃ frame r, (newDeliver gbEnc ac phone destNo txt seq msgId clock).encode = some frame ∧
      Spec.SelfDelimiting frame ∧ recv (Delivery.decode gbDec ac.version) frame spare = some (some r) ∧
      r.msgContent = txt ∧ r.msgId = msgId ∧ r.isReport = 0 ∧ r.hdr.sequenceId = seq ∧ r.report = none ∧
      r.srcTermID = Spec.slot 21 phone ∧ r.destTermID = Spec.slot 21 (ac.smsDisplayNo ++ destNo) := by
  obtain ⟨d, hd⟩ : ∃ d, newDeliver gbEnc ac phone destNo txt seq msgId clock = d := ⟨_, rfl⟩
  rw [hd]
  unfold newDeliver at hd
  simp only [if_neg (Nat.not_lt.2 hshort), he, Option.getD_some] at hd
  have hu : (UInt8.ofNat data.length).toNat = data.length := u8_ofNat_toNat (by omega)
  have e1 : d.isReport = 0 := by rw [← hd]
  have e2 : d.msgBytes = data := by rw [← hd]
  have e3 : d.msgLength = UInt8.ofNat data.length := by rw [← hd]
  have e4 : d.hdr.totalLength = 89 + d.msgLength.toUInt32 := by rw [← hd]
  have e5 : d.version = ac.version := by rw [← hd]
  have e6 : d.msgId = msgId := by rw [← hd]
  have ht : d.hdr.totalLength.toNat = 89 + d.msgLength.toNat := by
    have hu : d.msgLength.toUInt32.toNat = d.msgLength.toNat := by simp
    have en : (89 : UInt32).toNat = 89 := rfl
    have := d.msgLength.toNat_lt
    rw [e4, UInt32.toNat_add, hu, en]
    omega
  obtain ⟨frame, h1, h2, h3⟩ := deliver_recv_text gbDec d spare txt (by rw [e1]; decide) (by rw [e6, hid])
    (by rw [e2, e3, hu]) ht (by rw [e2]; exact hgb _ _ he)
  rw [e5] at h3
  refine ⟨frame, _, h1, h2, h3, rfl, e6, e1, ?_, rfl, ?_, ?_⟩
  · rw [← hd]; rfl
  · rw [← hd]; rfl
  · rw [← hd]; rfl

example : (runes (ascii "hi")).length ≤ 70 := by
  rw [show ascii "hi" = utf8 ['h', 'i'] from by decide, runes_utf8]
  decide

/-- A text of at most 70 characters can need more than 255 bytes (GB18030 uses up to four per character);
the length byte then wraps and the receiver gets at most the beginning of the encoded text. -/
theorem smgp_newDeliver_wide_text_fails (gbEnc gbDec : Bytes → Option Bytes) (ac : AuthConf)
    (phone destNo txt data : Bytes) (seq : UInt32) (msgId : Bytes) (clock : Clock) (spare : Bytes)
    (hid : msgId.length = 10) (hshort : (runes txt).length ≤ 70) (he : gbEnc txt = some data)
    (hlen : 255 < data.length) (hlt : data.length < 512) :
    ∃ frame, (newDeliver gbEnc ac phone destNo txt seq msgId clock).encode = some frame ∧
      (recv (Delivery.decode gbDec ac.version) frame spare).map (·.map (·.msgContent)) =
        some (gbDec (data.take (data.length - 256))) := by
  obtain ⟨d, hd⟩ : ∃ d, newDeliver gbEnc ac phone destNo txt seq msgId clock = d := ⟨_, rfl⟩
  rw [hd]
  unfold newDeliver at hd
  simp only [if_neg (Nat.not_lt.2 hshort), he, Option.getD_some] at hd
  have hu : (UInt8.ofNat data.length).toNat = data.length - 256 := by
    rw [UInt8.toNat_ofNat']; omega
  have e1 : d.isReport = 0 := by rw [← hd]
  have e2 : d.msgBytes = data := by rw [← hd]
  have e3 : d.msgLength = UInt8.ofNat data.length := by rw [← hd]
  have e4 : d.hdr.totalLength = 89 + d.msgLength.toUInt32 := by rw [← hd]
  have e5 : d.version = ac.version := by rw [← hd]
  have e6 : d.msgId = msgId := by rw [← hd]
  have ht : d.hdr.totalLength.toNat = 89 + d.msgLength.toNat := by
    have hu : d.msgLength.toUInt32.toNat = d.msgLength.toNat := by simp
    have en : (89 : UInt32).toNat = 89 := rfl
    have := d.msgLength.toNat_lt
    rw [e4, UInt32.toNat_add, hu, en]
    omega
  have hp : pad d.msgLength.toNat d.msgBytes = data.take (data.length - 256) := by
    rw [e2, e3, hu, pad]
    simp [zeros]
  have hlp : (data.take (data.length - 256)).length = d.msgLength.toNat := by
    rw [e3, hu, List.length_take]; omega
  have hf := deliver_encode_cut d (by rw [e1]; decide) ht
  generalize data.take (data.length - 256) = c at hp hlp ⊢
  rw [hp] at hf
  obtain ⟨d', hd'⟩ : ∃ d' : Delivery, { d with msgBytes := c } = d' := ⟨_, rfl⟩
  have hbody : Spec.Smgp.deliverBody d c =
      Spec.Smgp.deliverBody d' d'.msgBytes := by rw [← hd']; rfl
  rw [hbody] at hf
  refine ⟨_, hf, ?_⟩
  have f1 : d'.isReport ≠ 1 := by rw [← hd']; show d.isReport ≠ 1; rw [e1]; decide
  have f2 : d'.msgId.length = 10 := by rw [← hd']; show d.msgId.length = 10; rw [e6, hid]
  have f3 : d'.msgBytes.length = d'.msgLength.toNat := by rw [← hd']; exact hlp
  have f4 : d'.version = ac.version := by rw [← hd']; exact e5
  have := deliver_reads_text gbDec d' d.hdr.sequenceId spare f1 f2 f3
  rw [f4] at this
  rw [recv_header12, this, ← hd']
  cases gbDec c <;> rfl

/-- The length byte of a report packet does not describe its content: it says 115 while the content has
122 bytes, so a receiver that goes by the length byte finds the report cut (its last seven bytes would be
read as the reserved field). -/
theorem smgp_report_length_byte_fails (ac : AuthConf) (mt : Submit) (seq : UInt32)
    (msgId nextId : Bytes) (clock sub done : Clock) (unix : Nat) (hid : msgId.length = 10) (d : Delivery)
    (h : newDeliveryReport ac mt seq msgId nextId clock sub done unix = some d) :
    ∃ r body, d.report = some r ∧ r.encode = some body ∧ body.length ≠ d.msgLength.toNat := by
  unfold newDeliveryReport at h
  cases hm : mt.destTermID.head? with
  | none => rw [hm] at h; cases h
  | some src =>
    rw [hm, Option.map_some, Option.some.injEq] at h
    have hf := newReport_fits msgId sub done unix hid
    refine ⟨newReport msgId sub done unix, _, by rw [← h], report_encode _ hf, ?_⟩
    rw [length_reportBody hf, ← h]
    exact (by decide : (122 : Nat) ≠ (115 : UInt8).toNat)

/-! ## C40: deliver -/

/-- Over-long strings in a delivery are cut to their slots; everything else arrives unchanged. -/
theorem smgp_deliver_overlong_isolated (gbDec : Bytes → Option Bytes) (d : Delivery) (spare text : Bytes)
    (hr : d.isReport ≠ 1) (hid : d.msgId.length = 10) (hc : d.msgBytes.length = d.msgLength.toNat)
    (hl : d.hdr.totalLength.toNat = 89 + d.msgLength.toNat) (hg : gbDec d.msgBytes = some text) :
    ∃ frame, d.encode = some frame ∧
      recv (Delivery.decode gbDec d.version) frame spare =
        some (some { Spec.Smgp.deliverReceived d with msgContent := text, report := none }) := by
  obtain ⟨frame, h1, _, h3⟩ := deliver_recv_text gbDec d spare text hr hid hc hl hg
  exact ⟨frame, h1, h3⟩

/-! ## C22, SMGP part -/

/-- `NewSubmit`: every packet encodes to exactly its declared length. -/
theorem smgp_newSubmit_length (gbEnc : Bytes → Option Bytes) (ac : AuthConf) (phones : List Bytes)
    (content data : Bytes) (seq : UInt32) (opts : List OptionFunc) (g : UInt8) (clock : Clock)
    (seqs : Nat → UInt32) (hp : phones.length ≤ 255) (hgb : gbEnc content = some data) :
    ∃ msgs, newSubmit gbEnc ac phones content seq opts g clock seqs = some msgs ∧ msgs ≠ [] ∧
      ∀ m ∈ msgs, ∃ frame, m.encode = some frame ∧ Spec.SelfDelimiting frame := by
  obtain ⟨msgs, slices, h1, _, hne, h3, h4⟩ :=
    smgp_newSubmit gbEnc ac phones content data seq opts g clock seqs hp hgb
  refine ⟨msgs, h1, ?_, fun m hm => ?_⟩
  · rintro rfl
    exact hne (List.eq_nil_of_length_eq_zero h3.symm)
  · obtain ⟨i, hi, rfl⟩ := List.getElem_of_mem hm
    obtain ⟨hok, htl, _⟩ := h4 i hi (h3 ▸ hi)
    refine ⟨_, submit_encode _ _ hok ?_, selfDelimiting_header12 hok.total⟩
    by_cases h1 : slices.length = 1
    · rw [if_pos h1] at htl
      exact Or.inl ⟨htl, by rw [partTlvs, if_pos h1]⟩
    · rw [if_neg h1] at htl
      exact Or.inr ⟨htl, partTlvs_short _ _⟩

/-- `NewDeliver`, for every text, even one the coder rejects: the frame is as long as declared. -/
theorem smgp_newDeliver_length (gbEnc : Bytes → Option Bytes) (ac : AuthConf) (phone destNo txt : Bytes)
    (seq : UInt32) (msgId : Bytes) (clock : Clock) :
    ∃ frame, (newDeliver gbEnc ac phone destNo txt seq msgId clock).encode = some frame ∧
      Spec.SelfDelimiting frame := by
  obtain ⟨d, hd⟩ : ∃ d, newDeliver gbEnc ac phone destNo txt seq msgId clock = d := ⟨_, rfl⟩
  rw [hd]
  unfold newDeliver at hd
  have e1 : d.isReport = 0 := by rw [← hd]
  have e2 : d.hdr.totalLength = 89 + d.msgLength.toUInt32 := by rw [← hd]
  have ht : d.hdr.totalLength.toNat = 89 + d.msgLength.toNat := by
    have hu : d.msgLength.toUInt32.toNat = d.msgLength.toNat := by simp
    have en : (89 : UInt32).toNat = 89 := rfl
    have := d.msgLength.toNat_lt
    rw [e2, UInt32.toNat_add, hu, en]
    omega
  refine ⟨_, deliver_encode_cut d (by rw [e1]; decide) ht, selfDelimiting_header12 ?_⟩
  rw [length_deliverBody, length_pad]; omega

/-- The other SMGP constructors: login and its response, submit/deliver responses. (Active test and
exit: `smgp_link_packets_roundtrip`; report packets: `smgp_newDeliveryReport`.) -/
theorem smgp_other_lengths (md5 : Bytes → Bytes) (ac : AuthConf) (seq : UInt32) (cl : Clock) (l : Login)
    (s : Submit) (d : Delivery) (code : UInt32) (id : Bytes) :
    (∃ f, (newLogin md5 ac seq cl).encode = some f ∧ Spec.SelfDelimiting f) ∧
    (∃ f, (l.toResponse md5 code).encode = some f ∧ Spec.SelfDelimiting f) ∧
    (∃ f, (s.toResponse code id).encode = some f ∧ Spec.SelfDelimiting f) ∧
    (∃ f, (d.toResponse code id).encode = some f ∧ Spec.SelfDelimiting f) := by
  refine ⟨⟨_, login_encode _ rfl, selfDelimiting_header12 ?_⟩, ⟨_, loginRsp_encode _ rfl, selfDelimiting_header12 ?_⟩,
    ⟨_, rsp_encode _ rfl, selfDelimiting_header12 ?_⟩, ⟨_, rsp_encode _ rfl, selfDelimiting_header12 ?_⟩⟩
  · simp [Spec.Smgp.loginBody]
  · simp [Spec.Smgp.loginRspBody]
  · simp [Spec.Smgp.rspBody]
  · simp [Spec.Smgp.rspBody]

end Gosms.Smgp
