import Verif.Lemmas.Sgip
import Verif.Lemmas.WriterTotal
import Verif.Props.CmppLengths
import Verif.Props.Utils

/-!
# C37-C39 and the SGIP part of C22, C31, C40: the SGIP packets
-/

namespace Gosms.Sgip
open Gosms.Rd

/-! ## C37: bind -/

/-- An SGIP bind is 61 bytes long, laid out as specified; the server decodes the login type, name and
password that were sent, under the sender's sequence number. -/
theorem sgip_bind_roundtrip (b : Bind) (spare : Bytes) (hl : b.hdr.packetLength = 61)
    (hn : Spec.Fits 16 b.loginName) (hp : Spec.Fits 16 b.loginPassword) :
    ∃ frame, b.encode = some frame ∧
      frame = Spec.header20 61 b.hdr.commandId b.hdr.seq0 b.hdr.seq1 b.hdr.seq2 ++ Spec.Sgip.bindBody b ∧
      Spec.SelfDelimiting frame ∧
      recv Bind.decode frame spare =
        some { b with hdr := ⟨61, 1, b.hdr.seq0, b.hdr.seq1, b.hdr.seq2⟩ } := by
  refine ⟨_, bind_encode b hl, rfl, selfDelimiting_header20 (by rw [length_bindBody]; rfl), ?_⟩
  rw [recv_header20, length_bindBody, bind_reads, Spec.slot_fits hn, Spec.slot_fits hp]
  rfl

example : Spec.Fits 16 (ascii "user") ∧ Spec.Fits 16 (ascii "1234567890123456") := by decide

/-- A bind is accepted (status 0) exactly when the account exists and both login name and password are
those of the account; otherwise the status is 1. -/
theorem sgip_bind_decision (b : Bind) (ac : Option AuthConf) :
    (b.check ac = 0 ↔ ∃ a, ac = some a ∧ a.loginName = b.loginName ∧ a.sharedSecret = b.loginPassword) ∧
    (b.check ac ≠ 0 → b.check ac = 1) := by
  cases ac with
  | none => simp [Bind.check]
  | some a =>
    simp only [Bind.check]
    split
    · rename_i h; simp [h]
    · rename_i h; simp only [Option.some.injEq, exists_eq_left', h, iff_false]; decide

/-- The bind a client builds from the server's own account is accepted exactly when the account's login
name is its client id (`NewBind` sends the client id). -/
theorem sgip_bind_client (ac : AuthConf) (t : UInt8) (seq : Seq3) (spare : Bytes)
    (hn : Spec.Fits 16 ac.clientId) (hp : Spec.Fits 16 ac.sharedSecret) :
    ∃ frame b, (newBind ac t seq).encode = some frame ∧ recv Bind.decode frame spare = some b ∧
      b.loginName = ac.clientId ∧ (b.hdr.seq0, b.hdr.seq1, b.hdr.seq2) = seq ∧
      (b.check (some ac) = 0 ↔ ac.loginName = ac.clientId) := by
  obtain ⟨frame, h1, _, _, h4⟩ := sgip_bind_roundtrip (newBind ac t seq) spare rfl hn hp
  refine ⟨frame, _, h1, h4, rfl, rfl, ?_⟩
  simp only [Bind.check, newBind]
  split
  · rename_i h; simp [h.1]
  · rename_i h
    simp only [and_true] at h
    simp [h]

/-- Hence a client whose configured login name differs from its client id cannot log in. -/
theorem sgip_bind_login_name_fails (ac : AuthConf) (t : UInt8) (seq : Seq3) (spare : Bytes) (hn : Spec.Fits 16 ac.clientId)
    (hp : Spec.Fits 16 ac.sharedSecret) (hne : ac.loginName ≠ ac.clientId) :
    ∃ frame b, (newBind ac t seq).encode = some frame ∧ recv Bind.decode frame spare = some b ∧ b.check (some ac) = 1 := by
  obtain ⟨frame, b, h1, h2, _, _, h5⟩ := sgip_bind_client ac t seq spare hn hp
  exact ⟨frame, b, h1, h2, (sgip_bind_decision _ _).2 fun h => hne (h5.1 h)⟩

example : Spec.Fits 16 (ascii "10690") ∧ Spec.Fits 16 (ascii "secret") ∧ ascii "user" ≠ ascii "10690" := by decide

/-! ## C38: submit -/

/-- SGIP submit: the frame is the Submit layout, as long as it declares; the server decodes every field,
every recipient (0-255 of them) and the content that was sent. Partial: the content must not start like a
concatenation header and must not be empty (see the next theorems). -/
theorem sgip_submit_roundtrip_partial (s : Submit) (spare : Bytes) (hok : Spec.Sgip.SubmitOk s)
    (hfit : Spec.Sgip.SubmitFits s) (hplain : Spec.Cmpp.Plain s.messageContent) :
    ∃ frame, s.encode = some frame ∧
      frame = Spec.header20 s.hdr.packetLength s.hdr.commandId s.hdr.seq0 s.hdr.seq1 s.hdr.seq2 ++
        Spec.Sgip.submitBody s ∧
      Spec.SelfDelimiting frame ∧
      recv Submit.decode frame spare =
        some { s with hdr := ⟨s.hdr.packetLength, 3, s.hdr.seq0, s.hdr.seq1, s.hdr.seq2⟩,
                      reserve := [] } := by
  refine ⟨_, submit_encode s hok hfit, rfl, selfDelimiting_header20 hok.total, ?_⟩
  rw [recv_header20, submit_reads s hok hfit _ _ _ spare _ (Cmpp.decodedContent_plain hplain)]
  rfl

/-- A part of a long UCS2 message: the concatenation header is stripped and the text arrives in UTF-8. -/
theorem sgip_submit_long_text (s : Submit) (spare : Bytes) (hok : Spec.Sgip.SubmitOk s)
    (hfit : Spec.Sgip.SubmitFits s) (g t n : UInt8) (cs : List Char)
    (hb : utf8ToUcs2 (utf8 cs) = some (s.messageContent.drop 6))
    (hu : s.messageContent.take 6 = Spec.udhHeader g t n) :
    ∃ frame, s.encode = some frame ∧ Spec.SelfDelimiting frame ∧
      recv Submit.decode frame spare =
        some { s with hdr := ⟨s.hdr.packetLength, 3, s.hdr.seq0, s.hdr.seq1, s.hdr.seq2⟩,
                      messageContent := utf8 cs, reserve := [] } := by
  obtain ⟨u, h1, h2, _⟩ := ucs2_roundtrip cs
  rw [hb] at h1
  have hc : decodedContent s.messageContent = some (utf8 cs) := by
    rw [← List.take_append_drop 6 s.messageContent, hu, decodedContent, Cmpp.decodedContent_udh]
    rw [Option.some.inj h1, h2]
  refine ⟨_, submit_encode s hok hfit, selfDelimiting_header20 hok.total, ?_⟩
  rw [recv_header20, submit_reads s hok hfit _ _ _ spare _ hc]
  rfl

/-- A concrete submit with two recipients. -/
def exampleSubmit : Submit :=
  { hdr := ⟨143 + 42 + 2, 3, 3055100001, 101120000, 9⟩, spNumber := ascii "10690",
    chargeNumber := ascii "000000000000000000000", userCount := 2,
    userNumber := [ascii "8613800138000", ascii "8613900139000"], corpId := ascii "10690",
    serviceType := ascii "SVC", feeType := 1, feeValue := ascii "0", givenValue := ascii "0",
    morelatetoMTFlag := 2, priority := 3, expireTime := ascii "220101120000032+", reportFlag := 1,
    messageLength := 2, messageContent := ascii "hi" }

/-- ... and one part of a long message. -/
def exampleSlice : Submit :=
  { exampleSubmit with
    hdr := ⟨143 + 42 + 8, 3, 1, 2, 3⟩, messageLength := 8, messageCoding := 8,
    messageContent := Spec.udhHeader 1 2 1 ++ [0x61, 0x62] }

theorem exampleSubmit_ok : Spec.Sgip.SubmitOk exampleSubmit ∧ Spec.Sgip.SubmitFits exampleSubmit :=
  ⟨⟨by decide, by decide, by simp only [length_submitBody]; decide⟩,
   ⟨by decide, by decide, by decide, by decide, by decide, by decide, by decide, by decide, by decide,
    by decide⟩⟩

example : Spec.Cmpp.Plain exampleSubmit.messageContent := by decide

theorem exampleSlice_ok : Spec.Sgip.SubmitOk { exampleSlice with hdr := ⟨143 + 42 + 8, 3, 1, 2, 3⟩ } ∧
    Spec.Sgip.SubmitFits exampleSlice :=
  ⟨⟨by decide, by decide, by simp only [length_submitBody]; decide⟩,
   ⟨by decide, by decide, by decide, by decide, by decide, by decide, by decide, by decide, by decide,
    by decide⟩⟩

example : utf8ToUcs2 (utf8 ['慢']) = some (exampleSlice.messageContent.drop 6) ∧
    exampleSlice.messageContent.take 6 = Spec.udhHeader 1 2 1 := by
  refine ⟨?_, rfl⟩
  rw [utf8ToUcs2, validUtf8_utf8, runes_utf8]
  decide

/-- A content that breaks off in its concatenation header makes the server's decoder panic. -/
theorem submit_recv_none (s : Submit) (spare : Bytes) (hok : Spec.Sgip.SubmitOk s)
    (hfit : Spec.Sgip.SubmitFits s) (he : decodedContent s.messageContent = none) :
    ∃ frame, s.encode = some frame ∧ recv Submit.decode frame spare = none := by
  refine ⟨_, submit_encode s hok hfit, ?_⟩
  rw [recv_header20]
  have hrec := hok.recipients
  have hcon := hok.content
  unfold Submit.decode
  refine fails_length_then ?_ spare (by simp; omega)
  unfold Spec.Sgip.submitBody
  simp only [List.flatten_cons, List.flatten_nil, List.append_assoc]
  refine fails_bind (reads_u32Tail _) ?_
  refine fails_bind (reads_u32Tail _) ?_
  refine fails_bind (reads_str _) ?_
  refine fails_bind (reads_str _) ?_
  refine fails_bind (reads_byte _) ?_
  rw [← hrec]
  refine fails_bind (reads_times (enc := pad 21) (val := Spec.slot 21) (fun b p => reads_str b) s.userNumber _) ?_
  refine fails_bind (reads_str _) ?_
  refine fails_bind (reads_str _) ?_
  refine fails_bind (reads_byte _) ?_
  refine fails_bind (reads_str _) ?_
  refine fails_bind (reads_str _) ?_
  refine fails_bind (reads_byte _) ?_
  refine fails_bind (reads_byte _) ?_
  refine fails_bind (reads_byte _) ?_
  refine fails_bind (reads_str _) ?_
  refine fails_bind (reads_str _) ?_
  refine fails_bind (reads_byte _) ?_
  refine fails_bind (reads_byte _) ?_
  refine fails_bind (reads_byte _) ?_
  refine fails_bind (reads_byte _) ?_
  refine fails_bind (reads_byte _) ?_
  refine fails_bind (reads_u32Tail _) ?_
  refine fails_bind (reads_slice hcon) ?_
  exact fails_head (fails_lift he)

/-- The full statement fails: an empty message makes the server's decoder panic, whatever the other
fields are. -/
theorem sgip_submit_empty_content_fails (s : Submit) (spare : Bytes) (hok : Spec.Sgip.SubmitOk s)
    (hfit : Spec.Sgip.SubmitFits s) (he : s.messageContent = []) :
    ∃ frame, s.encode = some frame ∧ recv Submit.decode frame spare = none :=
  submit_recv_none s spare hok hfit (by rw [he]; rfl)

example : Spec.Sgip.SubmitOk { exampleSubmit with
    hdr := ⟨143 + 42, 3, 1, 2, 3⟩, messageLength := 0, messageContent := [] } :=
  ⟨by decide, by decide, by simp only [length_submitBody]; decide⟩

/-- ... and a part of a long ASCII text arrives as different text: its bytes are decoded as UCS2. -/
theorem sgip_submit_ascii_slice_fails : ∃ s : Submit, Spec.Sgip.SubmitOk s ∧ Spec.Sgip.SubmitFits s ∧
    s.messageCoding = 0 ∧ s.messageContent = Spec.udhHeader 1 2 1 ++ ascii "ab" ∧
    ∀ spare, ∃ frame r, s.encode = some frame ∧ recv Submit.decode frame spare = some r ∧
      r.messageContent = utf8 ['慢'] := by
  have hok : Spec.Sgip.SubmitOk { exampleSlice with messageCoding := 0 } :=
    ⟨by decide, by decide, by simp only [length_submitBody]; decide⟩
  have hfit : Spec.Sgip.SubmitFits { exampleSlice with messageCoding := 0 } :=
    ⟨by decide, by decide, by decide, by decide, by decide, by decide, by decide, by decide, by decide,
     by decide⟩
  refine ⟨{ exampleSlice with messageCoding := 0 }, hok, hfit, rfl, by decide, fun spare => ?_⟩
  obtain ⟨frame, h1, _, h2⟩ := sgip_submit_long_text { exampleSlice with messageCoding := 0 } spare hok hfit
    1 2 1 ['慢'] (by rw [utf8ToUcs2, validUtf8_utf8, runes_utf8]; decide) rfl
  exact ⟨frame, _, h1, h2, rfl⟩

/-- `NewSubmit` with up to 255 recipients: one packet per slice of the text, in order; each packet is
consistent and carries all recipients; each has a sequence number of its own. -/
theorem sgip_newSubmit (ac : AuthConf) (phones : List Bytes) (content : Bytes)
    (opts : List OptionFunc) (g : UInt8) (expiry : Clock) (seqs : Nat → Seq3)
    (hp : phones.length ≤ 255) :
    ∃ msgs slices, newSubmit ac phones content opts g expiry seqs = some msgs ∧
      msgSlices g (msgFmt content) content = some slices ∧ slices ≠ [] ∧
      msgs.length = slices.length ∧
      ∀ i (hi : i < msgs.length) (hs : i < slices.length),
        Spec.Sgip.SubmitOk msgs[i] ∧
        msgs[i].hdr.commandId = 3 ∧
        (msgs[i].hdr.seq0, msgs[i].hdr.seq1, msgs[i].hdr.seq2) = seqs i ∧
        msgs[i].userNumber = phones ∧ msgs[i].messageContent = slices[i] ∧
        msgs[i].messageCoding = msgFmt content ∧ msgs[i].morelatetoMTFlag = 2 ∧
        msgs[i].tpUdhi = (if slices.length = 1 then 0 else 1) ∧
        msgs[i].corpId = (if ac.clientId.length ≤ 5 then ac.clientId else ac.clientId.drop 5) := by
  obtain ⟨slices, hsl, hfit⟩ := msgSlices_fit g (msgFmt content) content
  obtain ⟨sl0, rest0, hne⟩ := Cmpp.msgSlices_ne_nil g (msgFmt content) content
  rw [hsl, Option.some.injEq] at hne
  have hn : (UInt8.ofNat phones.length).toNat = phones.length := u8_ofNat_toNat (by omega)
  have hslen : ∀ s ∈ slices, s.length ≤ 160 := fun s hs => by
    have := hfit s hs; split at this <;> omega
  have hOk : ∀ (m : Submit) (s : Bytes), s ∈ slices → m.userNumber = phones →
      m.userCount = UInt8.ofNat phones.length → m.messageContent = s →
      m.messageLength = UInt32.ofNat s.length →
      m.hdr.packetLength = UInt32.ofNat (143 + phones.length * 21 + s.length) →
      Spec.Sgip.SubmitOk m := by
    intro m s hs h1 h2 h3 h4 h5
    have hl := hslen s hs
    refine ⟨by rw [h1, h2, hn], ?_, ?_⟩
    · rw [h3, h4, UInt32.toNat_ofNat']; omega
    · rw [h5, length_submitBody, h1, h3, UInt32.toNat_ofNat']; omega
  have hcorp : (if ac.clientId.length > 5 then ac.clientId.drop 5 else ac.clientId) =
      (if ac.clientId.length ≤ 5 then ac.clientId else ac.clientId.drop 5) := by
    by_cases h : ac.clientId.length ≤ 5
    · rw [if_pos h, if_neg (by omega)]
    · rw [if_neg h, if_pos (by omega)]
  unfold newSubmit
  simp only [setOptions, hsl, Option.map_some]
  match hsls : slices with
  | [] => cases hne
  | [s] =>
    refine ⟨_, _, rfl, rfl, by simp, by simp, fun i hi hs => ?_⟩
    simp only [List.length_singleton] at hi
    have : i = 0 := by omega
    subst this
    exact ⟨hOk _ s (by simp) rfl rfl rfl rfl rfl, rfl, rfl, rfl, rfl, rfl, rfl, rfl, hcorp⟩
  | s1 :: s2 :: rest =>
    refine ⟨_, _, rfl, rfl, by simp, by simp, fun i hi hs => ?_⟩
    simp only [List.getElem_mapIdx]
    exact ⟨hOk _ _ (List.getElem_mem hs) rfl rfl rfl rfl rfl, rfl, trivial, trivial, trivial, trivial,
      trivial, by simp, hcorp⟩

/-! ## C39: deliver and report -/

/-- SGIP deliver: the frame is the Deliver layout, as long as it declares; the receiver decodes the
numbers, the coding and the content that were sent. (The reserved bytes are not kept.) -/
theorem sgip_deliver_roundtrip (d : Deliver) (spare : Bytes) (hf : Spec.Sgip.DeliverFits d) :
    ∃ frame, d.encode = some frame ∧
      frame = Spec.header20 d.hdr.packetLength d.hdr.commandId d.hdr.seq0 d.hdr.seq1 d.hdr.seq2 ++
        Spec.Sgip.deliverBody d ∧
      Spec.SelfDelimiting frame ∧
      recv Deliver.decode frame spare =
        some { d with hdr := ⟨d.hdr.packetLength, 4, d.hdr.seq0, d.hdr.seq1, d.hdr.seq2⟩,
                      reserve := [] } := by
  refine ⟨_, deliver_encode d hf, rfl, selfDelimiting_header20 hf.total, ?_⟩
  rw [recv_header20, deliver_reads d hf]
  rfl

/-- A concrete delivery. -/
def exampleDeliver : Deliver :=
  { hdr := ⟨79, 4, 1, 2, 3⟩, userNumber := ascii "8613800138000", spNumber := ascii "10690",
    messageLength := 2, messageContent := ascii "hi" }

example : Spec.Sgip.DeliverFits exampleDeliver :=
  ⟨by decide, by decide, by decide, by decide, by rw [length_deliverBody]; decide⟩

theorem deliverText_le (content : Bytes) : (deliverText content).length ≤ 160 := by
  unfold deliverText
  split <;> simp <;> omega

/-- `NewDeliver` end to end: sender and service number arrive; an ASCII text of at most 160 characters
arrives as it is, another text of at most 70 UTF-16 units arrives as UCS2 that decodes to it. -/
theorem sgip_newDeliver_delivered (ac : AuthConf) (phone destNo : Bytes) (cs : List Char) (seq : Seq3)
    (spare : Bytes) (hph : Spec.Fits 21 phone) (hd1 : Spec.Fits 21 (ac.smsDisplayNo ++ destNo)) :
    ∃ frame r, (newDeliver ac phone (utf8 cs) destNo seq).encode = some frame ∧
      Spec.SelfDelimiting frame ∧ recv Deliver.decode frame spare = some r ∧
      r.userNumber = phone ∧
      r.spNumber = (if ac.smsDisplayNo <+: destNo then destNo else ac.smsDisplayNo ++ destNo) ∧
      (r.hdr.seq0, r.hdr.seq1, r.hdr.seq2) = seq ∧
      ((∀ c ∈ cs, c.toNat < 128) → cs.length ≤ 160 →
        r.messageCoding = 0 ∧ r.messageContent = utf8 cs) ∧
      ((∃ c ∈ cs, 128 ≤ c.toNat) → (cs.map fun c => if c.toNat < 0x10000 then 2 else 4).sum ≤ 140 →
        r.messageCoding = 8 ∧ ucs2ToUtf8 r.messageContent = utf8 cs) := by
  obtain ⟨d, hd⟩ : ∃ d, newDeliver ac phone (utf8 cs) destNo seq = d := ⟨_, rfl⟩
  have hle := deliverText_le (utf8 cs)
  have hd' := hd
  unfold newDeliver at hd'
  have e1 : d.userNumber = phone := by rw [← hd']
  have e2 : d.spNumber = if ac.smsDisplayNo <+: destNo then destNo else ac.smsDisplayNo ++ destNo := by
    rw [← hd']
    simp only [List.isPrefixOf_iff_prefix]
  have e3 : d.messageContent = deliverText (utf8 cs) := by rw [← hd']
  have e4 : d.messageLength.toNat = (deliverText (utf8 cs)).length := by
    rw [← hd']; show (UInt32.ofNat _).toNat = _; rw [UInt32.toNat_ofNat']; omega
  have e5 : d.hdr.packetLength.toNat = 77 + (deliverText (utf8 cs)).length := by
    rw [← hd']
    show (77 + UInt32.ofNat _).toNat = _
    have e : (77 : UInt32).toNat = 77 := rfl
    rw [UInt32.toNat_add, UInt32.toNat_ofNat', e]; omega
  have e6 : d.messageCoding = msgFmt (utf8 cs) := by rw [← hd']
  have hfit : Spec.Sgip.DeliverFits d := by
    refine ⟨e1 ▸ hph, ?_, by rw [← hd']; simp, by rw [e3, e4], by rw [length_deliverBody, e5, e3]; omega⟩
    rw [e2]
    split
    · have h2 := hd1.2
      have h1 := hd1.1
      simp only [List.length_append, List.mem_append, not_or] at h1 h2
      exact ⟨by omega, h2.2⟩
    · exact hd1
  obtain ⟨frame, h1, _, h3, h4⟩ := sgip_deliver_roundtrip d spare hfit
  rw [hd]
  refine ⟨frame, _, h1, h3, h4, e1, e2, by rw [← hd'], ?_, ?_⟩
  · intro ha hl
    have hf := (msgFmt_ascii_iff cs).1.2 ha
    refine ⟨by show d.messageCoding = 0; rw [e6, hf], ?_⟩
    show d.messageContent = _
    have hlen : (utf8 cs).length = cs.length := by
      have := ((length_runes_utf8 cs).2).2 ha
      rw [this, runes_utf8, List.length_map]
    rw [e3, deliverText, hf, if_neg (by decide), List.take_of_length_le (by omega)]
  · intro ha hl
    have hf := (msgFmt_ascii_iff cs).2.2 ha
    obtain ⟨u, hu1, hu2, hu3⟩ := ucs2_roundtrip cs
    refine ⟨by show d.messageCoding = 8; rw [e6, hf], ?_⟩
    show ucs2ToUtf8 d.messageContent = _
    rw [e3, deliverText, hf, if_pos rfl, hu1, Option.getD_some, List.take_of_length_le (by omega), hu2]

example : Spec.Fits 21 (ascii "8613800138000") ∧ Spec.Fits 21 (ascii "10690" ++ ascii "01") := by decide

/-- SGIP report: sequence number of the message reported on, number, state and error code survive. -/
theorem sgip_report_roundtrip (r : Report) (spare : Bytes) (hf : Spec.Sgip.ReportFits r)
    (hl : r.hdr.packetLength = 64) :
    ∃ frame, r.encode = some frame ∧
      frame = Spec.header20 64 r.hdr.commandId r.hdr.seq0 r.hdr.seq1 r.hdr.seq2 ++
        Spec.Sgip.reportBody r ∧
      Spec.SelfDelimiting frame ∧
      recv Report.decode frame spare =
        some { r with hdr := ⟨64, 5, r.hdr.seq0, r.hdr.seq1, r.hdr.seq2⟩, reserve := [] } := by
  have hlen : (Spec.Sgip.reportBody r).length = 44 := by rw [length_reportBody, hf.mtSequence]
  refine ⟨_, report_encode r hf hl, rfl, selfDelimiting_header20 (by rw [hlen]; rfl), ?_⟩
  rw [recv_header20, hlen, report_reads r hf]
  rfl

/-- `NewReport`: decoded as a report, it names the message and the recipient it is about. -/
theorem sgip_newReport_content (phone : Bytes) (m0 m1 m2 : UInt32) (status code : UInt8) (seq : Seq3)
    (spare : Bytes) (hp : Spec.Fits 21 phone) :
    ∃ frame r, (newReport phone [m0, m1, m2] status code seq).encode = some frame ∧
      recv Report.decode frame spare = some r ∧ r.mtSequence = [m0, m1, m2] ∧ r.userNumber = phone ∧
      r.state = status ∧ r.errorCode = code := by
  obtain ⟨frame, h1, _, _, h4⟩ := sgip_report_roundtrip (newReport phone [m0, m1, m2] status code seq)
    spare ⟨rfl, hp, by simp [newReport]⟩ rfl
  exact ⟨frame, _, h1, h4, rfl, rfl, rfl, rfl⟩

/-- The last clause of C39 fails, always: the packet built by `NewReport` is announced as a deliver
(command 4), not as a report (command 5). -/
theorem sgip_newReport_command_fails (phone : Bytes) (mt : List UInt32) (status code : UInt8) (seq : Seq3) :
    (newReport phone mt status code seq).hdr.commandId = 4 ∧
    (newReport phone mt status code seq).hdr.commandId ≠ 5 :=
  ⟨rfl, (by decide : DELIVER ≠ 5)⟩

/-- ... and a receiver that goes by the command id and decodes it as a deliver panics, always. -/
theorem sgip_newReport_crashes_receiver_fails (phone : Bytes) (m0 m1 m2 : UInt32) (status code : UInt8)
    (seq : Seq3) (spare : Bytes) (hp : Spec.Fits 21 phone) :
    ∃ frame, (newReport phone [m0, m1, m2] status code seq).encode = some frame ∧
      (unpackHead frame).2.1 = 4 ∧ recv Deliver.decode frame spare = none := by
  have hf : Spec.Sgip.ReportFits (newReport phone [m0, m1, m2] status code seq) := ⟨rfl, hp, by simp [newReport]⟩
  have hlen : (Spec.Sgip.reportBody (newReport phone [m0, m1, m2] status code seq)).length = 44 := by
    rw [length_reportBody]; rfl
  refine ⟨_, report_encode _ hf rfl, by rw [unpackHead_header20]; rfl, ?_⟩
  rw [recv_header20, hlen]
  generalize [_, _, Spec.Sgip.reportBody _].flatten ++ spare = data
  -- the third byte after the numbers is at index 52 of a 52-byte body
  have hadv : ∀ {α : Type} (r : Rd α) (n : Nat), (∀ p, Needs p r n) → ∀ f, Buf.Ok f → ∀ i v j,
      r f i = some (v, j) → j = i + n := fun r n h f hf i v j hx => (h i f hf).2.2 v j hx
  have hu32 : ∀ f i v j, Rd.u32Tail f i = some (v, j) → j = i + 4 := by
    intro f i v j h
    unfold Rd.u32Tail at h
    split at h
    · unfold Rd.u32 Rd.bind Rd.slice at h
      split at h
      · cases h
      · rename_i hx
        split at hx
        · simp only [Option.some.injEq, Prod.mk.injEq] at hx
          simp only [Rd.pure, Option.some.injEq, Prod.mk.injEq] at h
          omega
        · cases hx
    · cases h
  have hstr : ∀ n f i v j, Rd.str n f i = some (v, j) → j = i + n := by
    intro n f i v j h
    simp only [Rd.str, bind_def, Rd.bind, Rd.slice] at h
    split at h
    · cases h
    · rename_i hx
      split at hx
      · simp only [Option.some.injEq, Prod.mk.injEq] at hx
        simp only [pure_def, Rd.pure, Option.some.injEq, Prod.mk.injEq] at h
        omega
      · cases hx
  have hbyte : ∀ f i v j, Rd.byte f i = some (v, j) → j = i + 1 ∧ i < f.len := by
    intro f i v j h
    unfold Rd.byte at h
    split at h
    · split at h
      · simp only [Option.some.injEq, Prod.mk.injEq] at h
        exact ⟨h.2.symm, by assumption⟩
      · cases h
    · cases h
  have hbind : ∀ {α β : Type} (r : Rd α) (k : α → Rd β) f i x, (r >>= k) f i = some x →
      ∃ v j, r f i = some (v, j) ∧ k v f j = some x := by
    intro α β r k f i x h
    simp only [bind_def, Rd.bind] at h
    split at h
    · cases h
    · exact ⟨_, _, by assumption, h⟩
  unfold Deliver.decode Rd.run
  rw [Option.map_eq_none_iff, Option.eq_none_iff_forall_ne_some]
  intro x hx
  obtain ⟨_, _, h0, hx⟩ := hbind _ _ _ _ _ hx
  simp only [Rd.length, Option.some.injEq, Prod.mk.injEq] at h0
  obtain ⟨_, _, h1, hx⟩ := hbind _ _ _ _ _ hx
  obtain ⟨_, _, h2, hx⟩ := hbind _ _ _ _ _ hx
  obtain ⟨_, _, h3, hx⟩ := hbind _ _ _ _ _ hx
  obtain ⟨_, _, h4, hx⟩ := hbind _ _ _ _ _ hx
  obtain ⟨_, _, h5, hx⟩ := hbind _ _ _ _ _ hx
  obtain ⟨_, _, h6, hx⟩ := hbind _ _ _ _ _ hx
  obtain ⟨_, _, h7, hx⟩ := hbind _ _ _ _ _ hx
  have := hu32 _ _ _ _ h1
  have := hu32 _ _ _ _ h2
  have := hstr _ _ _ _ _ h3
  have := hstr _ _ _ _ _ h4
  have := hbyte _ _ _ _ h5
  have := hbyte _ _ _ _ h6
  have h7' := (hbyte _ _ _ _ h7).2
  simp only at h7'
  omega

example : Spec.Fits 21 (ascii "8613800138000") := by decide

/-! ## SGIP responses -/

/-- Bind, submit, deliver and report responses round-trip with every status. -/
theorem sgip_responses_roundtrip (b : Bind) (s : Submit) (d : Deliver) (r : Report) (code : UInt32)
    (spare : Bytes) :
    (∃ f, bindRspEncode (b.toResponse code) = some f ∧ Spec.SelfDelimiting f ∧
      recv bindRspDecode f spare = some (b.toResponse code)) ∧
    (∃ f, (s.toResponse code).encode = some f ∧ Spec.SelfDelimiting f ∧
      recv (Rsp.decode 0x80000003) f spare = some (s.toResponse code)) ∧
    (∃ f, (d.toResponse code).encode = some f ∧ Spec.SelfDelimiting f ∧
      recv (Rsp.decode 0x80000004) f spare = some (d.toResponse code)) ∧
    (∃ f, (r.toResponse code).encode = some f ∧ Spec.SelfDelimiting f ∧
      recv (Rsp.decode 0x80000005) f spare = some (r.toResponse code)) := by
  have key : ∀ q : Rsp, q.hdr.packetLength = 29 → ∃ f, q.encode = some f ∧ Spec.SelfDelimiting f ∧
      recv (Rsp.decode q.hdr.commandId) f spare = some q := by
    intro q hq
    have hl : (Spec.Sgip.rspBody q).length = 9 := by simp [Spec.Sgip.rspBody]
    refine ⟨_, rsp_encode q hq, selfDelimiting_header20 (by rw [hl]; rfl), ?_⟩
    rw [recv_header20, hl, rsp_reads]
    obtain ⟨⟨l, c, a, b, e⟩, st⟩ := q
    simp only at hq
    subst hq
    rfl
  refine ⟨⟨_, bindRsp_encode _ rfl, selfDelimiting_header20 (by simp), ?_⟩, key _ rfl, key _ rfl,
    key _ rfl⟩
  rw [recv_header20]
  exact bindRsp_reads _ _ _ _ spare

/-- Unbind and its response are 20-byte headers and decode to themselves. -/
theorem sgip_unbind_roundtrip (seq : Seq3) (code : UInt32) (spare : Bytes) :
    (∃ f, unbindEncode (newUnbind seq) = some f ∧ f = Spec.header20 20 2 seq.1 seq.2.1 seq.2.2 ∧
      Spec.SelfDelimiting f ∧ recv (unbindDecode 2) f spare = some (newUnbind seq)) ∧
    (∃ f, unbindEncode (unbindToResponse (newUnbind seq) code) = some f ∧
      f = Spec.header20 20 0x80000002 seq.1 seq.2.1 seq.2.2 ∧ Spec.SelfDelimiting f ∧
      recv (unbindDecode 0x80000002) f spare = some (unbindToResponse (newUnbind seq) code)) := by
  have key : ∀ cmd : UInt32, ∃ f, unbindEncode ⟨20, cmd, seq.1, seq.2.1, seq.2.2⟩ = some f ∧
      f = Spec.header20 20 cmd seq.1 seq.2.1 seq.2.2 ∧ Spec.SelfDelimiting f ∧
      recv (unbindDecode cmd) f spare = some ⟨20, cmd, seq.1, seq.2.1, seq.2.2⟩ := by
    intro cmd
    refine ⟨_, ?_, rfl, ?_, ?_⟩
    · unfold unbindEncode
      rw [sheader_encode, sclamp_of_le (h := ⟨20, cmd, seq.1, seq.2.1, seq.2.2⟩) (Nat.le_refl 20)]
      simp [zeros]
    · have := selfDelimiting_header20 (l := 20) (c := cmd) (s0 := seq.1) (s1 := seq.2.1) (s2 := seq.2.2)
        (body := []) rfl
      rwa [List.append_nil] at this
    · have := recv_header20 (unbindDecode cmd) 20 cmd seq.1 seq.2.1 seq.2.2 [] spare
      rw [List.append_nil] at this
      rw [this]
      unfold unbindDecode
      refine run_of_reads ?_ spare _ (by simp)
      simp only [List.flatten_cons, List.flatten_nil]
      refine reads_bind (o1 := []) (reads_seek rfl) ?_
      refine reads_bind (reads_u32 _) ?_
      refine reads_bind (o1 := []) (reads_seek (by simp)) ?_
      refine reads_bind (reads_u32 _) ?_
      exact reads_pure _
  exact ⟨key 2, key 0x80000002⟩

/-! ## C31, SGIP part -/

/-- Every SGIP response carries the request's sequence number (three words), the request's command with
the top bit set, and the status given (the status field is one byte: the low byte of the code, so the
code itself when it is below 256). -/
theorem sgip_responses_echo (b : Bind) (s : Submit) (d : Deliver) (r : Report) (u : SHeader) (code : UInt32)
    (hb : b.hdr.commandId = 1) (hs : s.hdr.commandId = 3) (hd : d.hdr.commandId = 4)
    (hr : r.hdr.commandId = 5) (hu : u.commandId = 2) :
    (∀ q ∈ [(b.hdr, b.toResponse code), (s.hdr, s.toResponse code), (d.hdr, d.toResponse code),
        (r.hdr, r.toResponse code)],
      q.2.hdr.seq0 = q.1.seq0 ∧ q.2.hdr.seq1 = q.1.seq1 ∧ q.2.hdr.seq2 = q.1.seq2 ∧
      q.2.hdr.commandId = Spec.responseOf q.1.commandId ∧ q.2.status.toNat = code.toNat % 256) ∧
    ((unbindToResponse u code).seq0 = u.seq0 ∧ (unbindToResponse u code).seq1 = u.seq1 ∧
      (unbindToResponse u code).seq2 = u.seq2 ∧
      (unbindToResponse u code).commandId = Spec.responseOf u.commandId) := by
  have hst : code.toUInt8.toNat = code.toNat % 256 := UInt32.toNat_toUInt8 code
  constructor
  · intro q hq
    simp only [List.mem_cons, List.not_mem_nil, or_false] at hq
    rcases hq with rfl | rfl | rfl | rfl
    · exact ⟨rfl, rfl, rfl, by rw [hb]; rfl, hst⟩
    · exact ⟨rfl, rfl, rfl, by rw [hs]; rfl, hst⟩
    · exact ⟨rfl, rfl, rfl, by rw [hd]; rfl, hst⟩
    · exact ⟨rfl, rfl, rfl, by rw [hr]; rfl, hst⟩
  · exact ⟨rfl, rfl, rfl, by rw [hu]; rfl⟩

/-- The hypotheses hold of the packets built and decoded. -/
example (ac : AuthConf) (seq : Seq3) : (newBind ac 1 seq).hdr.commandId = 1 ∧
    exampleSubmit.hdr.commandId = 3 ∧ exampleDeliver.hdr.commandId = 4 ∧
    (newUnbind seq).commandId = 2 := ⟨rfl, rfl, rfl, rfl⟩

/-! ## C22, SGIP part -/

theorem submit_selfDelimiting (s : Submit)
    (hl : s.hdr.packetLength.toNat = 143 + s.userNumber.length * 21 + s.messageContent.length) :
    ∃ f, s.encode = some f ∧ Spec.SelfDelimiting f := by
  have hmap : ∀ l : List Bytes, advance (l.map fun p => WOp.free 21 p) = l.length * 21 := by
    intro l
    induction l with
    | nil => rfl
    | cons a l ih => simp only [List.map_cons, advance, WOp.adv, ih, List.length_cons]; omega
  unfold Submit.encode Submit.ops
  simp only [List.cons_append, List.nil_append]
  refine encodeWithS_selfDelimiting s.hdr _ ?_ ?_
  · simp [or_imp, forall_and, WOp.NoSeek]
  · simp only [advance, advance_append, hmap, WOp.adv]
    omega

/-- `NewSubmit`, whatever the account, the options and the numbers are: every packet encodes to exactly
its declared length. -/
theorem sgip_newSubmit_length (ac : AuthConf) (phones : List Bytes) (content : Bytes)
    (opts : List OptionFunc) (g : UInt8) (expiry : Clock) (seqs : Nat → Seq3) (hp : phones.length ≤ 255) :
    ∃ msgs, newSubmit ac phones content opts g expiry seqs = some msgs ∧ msgs ≠ [] ∧
      ∀ m ∈ msgs, ∃ frame, m.encode = some frame ∧ Spec.SelfDelimiting frame := by
  obtain ⟨msgs, slices, h1, _, hne, h3, h4⟩ := sgip_newSubmit ac phones content opts g expiry seqs hp
  refine ⟨msgs, h1, ?_, fun m hm => ?_⟩
  · rintro rfl
    exact hne (List.eq_nil_of_length_eq_zero h3.symm)
  · obtain ⟨i, hi, rfl⟩ := List.getElem_of_mem hm
    have hok := (h4 i hi (h3 ▸ hi)).1
    refine submit_selfDelimiting _ ?_
    rw [hok.total, length_submitBody]; omega

/-- `NewDeliver`, `NewReport` (about a three-word sequence number) and `NewBind`, whatever the strings
are; the other SGIP packets are covered by `sgip_responses_roundtrip` and `sgip_unbind_roundtrip`. -/
theorem sgip_other_lengths (ac : AuthConf) (phone content destNo : Bytes) (seq : Seq3)
    (m0 m1 m2 : UInt32) (status code t : UInt8) :
    (∃ f, (newDeliver ac phone content destNo seq).encode = some f ∧ Spec.SelfDelimiting f) ∧
    (∃ f, (newReport phone [m0, m1, m2] status code seq).encode = some f ∧ Spec.SelfDelimiting f) ∧
    (∃ f, (newBind ac t seq).encode = some f ∧ Spec.SelfDelimiting f) := by
  refine ⟨?_, ?_, ?_⟩
  · unfold Deliver.encode
    refine encodeWithS_selfDelimiting _ _ (by simp [WOp.NoSeek]) ?_
    have hle := deliverText_le content
    have e : (77 : UInt32).toNat = 77 := rfl
    simp only [advance, WOp.adv, newDeliver, UInt32.toNat_add, UInt32.toNat_ofNat', e]
    omega
  · unfold Report.encode
    exact encodeWithS_selfDelimiting _ _ (by simp [newReport, WOp.NoSeek])
      (by simp [advance, WOp.adv, newReport])
  · exact ⟨_, bind_encode _ rfl, selfDelimiting_header20 (by rw [length_bindBody]; rfl)⟩

/-! ## C40, SGIP part: refuted -/

/-- The over-long service number spills into the slot of the (empty) charge number. -/
theorem overlong_encode (s : Submit) (hge : 143 ≤ s.hdr.packetLength.toNat)
    (h1 : 21 < s.spNumber.length) (h2 : s.spNumber.length ≤ 42) (hc : s.chargeNumber = []) :
    s.encode =
      Submit.encode { s with spNumber := s.spNumber.take 21, chargeNumber := s.spNumber.drop 21 } := by
  have key : ∀ (F : Bytes) (rest : List WOp), 143 ≤ F.length →
      runW (.seek 20 :: .free 21 s.spNumber :: .free 21 [] :: rest) F 20 =
      runW (.seek 20 :: .free 21 (s.spNumber.take 21) :: .free 21 (s.spNumber.drop 21) :: rest) F 20 := by
    intro F rest hFl
    generalize s.spNumber = sp at h1 h2
    have ht21 : (sp.take 21).length = 21 := by simp; omega
    have hd21 : (sp.drop 21).length = sp.length - 21 := by simp
    have hol : ∀ a : Bytes, 20 + a.length ≤ F.length → (overwrite F 20 a).length = F.length := by
      intro a ha; simp [overwrite]; omega
    have a1 : WOp.exec (.free 21 sp) F 20 = some (overwrite F 20 sp, 41) := by
      rw [WOp.exec, if_pos (by omega), List.take_of_length_le (by omega)]
    have a2 : WOp.exec (.free 21 []) (overwrite F 20 sp) 41 = some (overwrite F 20 sp, 62) := by
      rw [WOp.exec, if_pos (by rw [hol _ (by omega)]; omega)]
      simp [overwrite]
    have a3 : WOp.exec (.free 21 (sp.take 21)) F 20 = some (overwrite F 20 (sp.take 21), 41) := by
      rw [WOp.exec, if_pos (by omega), List.take_of_length_le (by omega)]
    have a4 : WOp.exec (.free 21 (sp.drop 21)) (overwrite F 20 (sp.take 21)) 41 =
        some (overwrite F 20 sp, 62) := by
      have hl21 : (overwrite F 20 (sp.take 21)).length = F.length := hol _ (by omega)
      rw [WOp.exec, if_pos (by omega), List.take_of_length_le (l := sp.drop 21) (by omega)]
      have := overwrite_append (f := F) (a := sp.take 21) (b := sp.drop 21) (i := 20) (by omega)
      rw [ht21, List.take_append_drop] at this
      rw [this]
    have a0 : WOp.exec (.seek 20) F 20 = some (F, 20) := rfl
    simp only [runW, a0, a1, a2, a3, a4, Option.bind_some]
  unfold Submit.encode encodeWithS
  simp only [sheader_encode, Option.bind_some]
  rw [sclamp_of_le (by omega)]
  unfold Submit.ops
  simp only [List.cons_append, List.nil_append, hc]
  rw [key _ _ (by simp; omega)]

/-- For SGIP the isolation of over-long fields fails: whenever the service number has 22 to 42 bytes and
there is no charge number, the rest of the service number arrives as the charge number. -/
theorem sgip_submit_overlong_fails (s : Submit) (spare : Bytes) (hok : Spec.Sgip.SubmitOk s)
    (hfit : Spec.Sgip.SubmitFits { s with spNumber := [] }) (hplain : Spec.Cmpp.Plain s.messageContent)
    (h0 : 0 ∉ s.spNumber) (h1 : 21 < s.spNumber.length) (h2 : s.spNumber.length ≤ 42)
    (hc : s.chargeNumber = []) :
    ∃ frame r, s.encode = some frame ∧ recv Submit.decode frame spare = some r ∧
      r.chargeNumber = s.spNumber.drop 21 ∧ r.chargeNumber ≠ s.chargeNumber := by
  obtain ⟨s', hs'⟩ : ∃ s' : Submit,
    { s with spNumber := s.spNumber.take 21, chargeNumber := s.spNumber.drop 21 } = s' := ⟨_, rfl⟩
  have hlen' := length_submitBody s'
  have hlen := length_submitBody s
  have hok' : Spec.Sgip.SubmitOk s' := by
    refine ⟨by rw [← hs']; exact hok.recipients, by rw [← hs']; exact hok.content, ?_⟩
    rw [hlen', ← hs']
    show s.hdr.packetLength.toNat = 20 + (123 + s.userNumber.length * 21 + s.messageContent.length)
    rw [hok.total, hlen]
  have hfit' : Spec.Sgip.SubmitFits s' := by
    rw [← hs']
    exact ⟨⟨by simp; omega, fun h => h0 (List.mem_of_mem_take h)⟩,
      ⟨by simp; omega, fun h => h0 (List.mem_of_mem_drop h)⟩, hfit.userNumber, hfit.corpId,
      hfit.serviceType, hfit.feeValue, hfit.givenValue, hfit.expireTime, hfit.scheduleTime, hfit.reserve⟩
  have henc : s.encode = s'.encode := by
    rw [← hs']
    exact overlong_encode s (by rw [hok.total, hlen]; omega) h1 h2 hc
  obtain ⟨frame, f1, _, _, f4⟩ := sgip_submit_roundtrip_partial s' spare hok' hfit'
    (by rw [← hs']; exact hplain)
  have hch : s'.chargeNumber = s.spNumber.drop 21 := by rw [← hs']
  have hne : s'.chargeNumber ≠ s.chargeNumber := by
    rw [hch, hc]
    intro e
    have := congrArg List.length e
    rw [List.length_drop, List.length_nil] at this
    omega
  exact ⟨frame, _, henc.trans f1, f4, hch, hne⟩

/-- A service number of 23 bytes: a display number with a long sub-number. -/
example : let s : Submit := { exampleSubmit with
      chargeNumber := [], spNumber := ascii "10690123456789012345678" }
    Spec.Sgip.SubmitOk s ∧ Spec.Sgip.SubmitFits { s with spNumber := [] } ∧
    Spec.Cmpp.Plain s.messageContent ∧ 0 ∉ s.spNumber ∧ 21 < s.spNumber.length ∧
    s.spNumber.length ≤ 42 ∧ s.chargeNumber = [] :=
  ⟨⟨by decide, by decide, by simp only [length_submitBody]; decide⟩,
   ⟨by decide, by decide, by decide, by decide, by decide, by decide, by decide, by decide, by decide,
    by decide⟩, by decide, by decide, by decide, by decide, rfl⟩

end Gosms.Sgip
