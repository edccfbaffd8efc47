import Verif.Props.CmppResponses

/-!
# C29, C30: CMPP deliver and status report
-/

namespace Gosms.Cmpp
open Gosms.Rd

theorem length_deliverBody (d : Delivery) (c : Bytes) : (Spec.Cmpp.deliverBody d c).length =
    (if Spec.major d.version = 3 then 97 else 73) + d.msgLength.toNat := by
  unfold Spec.Cmpp.deliverBody
  by_cases h : Spec.major d.version = 3
  · simp [h]; omega
  · simp [h]; omega

/-- The general form, for a packet that is not a report and whose content slot holds `content`. -/
theorem deliver_recv_text (d : Delivery) (g : UInt8) (content spare : Bytes)
    (hr : d.registeredDelivery ≠ 1) (hc : d.contentBytes g = some content)
    (hl : d.hdr.totalLength.toNat = 12 + (if Spec.major d.version = 3 then 97 else 73) + d.msgLength.toNat) :
    d.encode g = some (Spec.header12 d.hdr.totalLength d.hdr.commandId d.hdr.sequenceId ++
      Spec.Cmpp.deliverBody d content) ∧
    recv (Delivery.decode d.version) (Spec.header12 d.hdr.totalLength d.hdr.commandId d.hdr.sequenceId ++
      Spec.Cmpp.deliverBody d content) spare =
      some { d with
        hdr := ⟨d.hdr.totalLength, 5, d.hdr.sequenceId⟩
        destId := Spec.slot 10 d.serviceId
        serviceId := []
        srcTerminalId := Spec.slot (Spec.Cmpp.numberWidth d.version) d.srcTerminalId
        srcTerminalType := if Spec.major d.version = 3 then d.srcTerminalType else 0
        msgContent := Spec.slot d.msgLength.toNat content
        report := none
        linkID := if Spec.major d.version = 3 then Spec.slot 20 d.linkID else [] } := by
  have hl' : d.hdr.totalLength.toNat = 12 + (Spec.Cmpp.deliverBody d content).length := by
    rw [length_deliverBody]; omega
  refine ⟨deliver_encode d g content hc hl', ?_⟩
  rw [recv_header12, deliver_reads d _ content spare none (by simp [hr]), total_u32 hl']
  simp [hr, DELIVER]

/-- The same for a report. -/
theorem deliver_recv_report (d : Delivery) (g : UInt8) (rep : Report) (spare : Bytes)
    (hr : d.registeredDelivery = 1) (hrep : d.report = some rep) (h60 : d.msgLength = 60)
    (hl : d.hdr.totalLength.toNat = 12 + (if Spec.major d.version = 3 then 97 else 73) + 60) :
    d.encode g = some (Spec.header12 d.hdr.totalLength d.hdr.commandId d.hdr.sequenceId ++
      Spec.Cmpp.deliverBody d (Spec.Cmpp.reportBody rep)) ∧
    recv (Delivery.decode d.version) (Spec.header12 d.hdr.totalLength d.hdr.commandId d.hdr.sequenceId ++
      Spec.Cmpp.deliverBody d (Spec.Cmpp.reportBody rep)) spare =
      some { d with
        hdr := ⟨d.hdr.totalLength, 5, d.hdr.sequenceId⟩
        destId := Spec.slot 10 d.serviceId
        serviceId := []
        srcTerminalId := Spec.slot (Spec.Cmpp.numberWidth d.version) d.srcTerminalId
        srcTerminalType := if Spec.major d.version = 3 then d.srcTerminalType else 0
        msgContent := []
        report := some (Spec.Cmpp.reportReceived rep)
        linkID := if Spec.major d.version = 3 then Spec.slot 20 d.linkID else [] } := by
  have e60 : (60 : UInt8).toNat = 60 := rfl
  have hl' : d.hdr.totalLength.toNat = 12 + (Spec.Cmpp.deliverBody d (Spec.Cmpp.reportBody rep)).length := by
    rw [length_deliverBody, h60, e60]; omega
  have hc : d.contentBytes g = some (Spec.Cmpp.reportBody rep) := by
    rw [Delivery.contentBytes, if_pos hr, hrep, Option.bind_some, report_encode rep]
  refine ⟨deliver_encode d g _ hc hl', ?_⟩
  rw [recv_header12, deliver_reads d _ _ spare (some (Spec.Cmpp.reportReceived rep)) ?_, total_u32 hl']
  · simp [hr, DELIVER]
  · intro rest
    rw [if_pos hr, h60, e60]
    have : pad 60 (Spec.Cmpp.reportBody rep) = Spec.Cmpp.reportBody rep :=
      pad_eq_self (length_reportBody rep)
    rw [this]
    have h2 := run_of_reads (report_reads rep) rest 60 (by rw [length_reportBody]; exact Nat.le_refl _)
    rw [h2]; rfl

/-! ## C29 -/

/-- The fields of a deliver fit. -/
structure DeliverFits (d : Delivery) : Prop where
  serviceId : Spec.Fits 10 d.serviceId
  destId : Spec.Fits 21 d.destId
  srcTerminalId : Spec.Fits (Spec.Cmpp.numberWidth d.version) d.srcTerminalId
  linkID : Spec.Fits 20 d.linkID

/-- The declared length of a deliver is the one of the layout. -/
def DeliverTotal (d : Delivery) : Prop :=
  d.hdr.totalLength.toNat = 12 + (if Spec.major d.version = 3 then 97 else 73) + d.msgLength.toNat

/-- MO text in a one-byte coding (shorter than 160 bytes, no NUL). Partial: the destination number is
lost, the service id arrives in its place; see the theorems below for the other texts. -/
theorem cmpp_deliver_text_roundtrip_partial (d : Delivery) (g : UInt8) (spare : Bytes)
    (hr : d.registeredDelivery ≠ 1) (hfmt : d.msgFmt ≠ 8) (hlen : d.msgContent.length = d.msgLength.toNat)
    (hshort : d.msgContent.length < 160) (hnul : (0 : UInt8) ∉ d.msgContent)
    (hfit : DeliverFits d) (htot : DeliverTotal d) :
    ∃ frame, d.encode g = some frame ∧ Spec.SelfDelimiting frame ∧
      frame = Spec.header12 d.hdr.totalLength d.hdr.commandId d.hdr.sequenceId ++
        Spec.Cmpp.deliverBody d d.msgContent ∧
      recv (Delivery.decode d.version) frame spare =
        some { d with
          hdr := ⟨d.hdr.totalLength, 5, d.hdr.sequenceId⟩
          destId := d.serviceId
          serviceId := []
          srcTerminalType := if Spec.major d.version = 3 then d.srcTerminalType else 0
          report := none
          linkID := if Spec.major d.version = 3 then d.linkID else [] } := by
  have hc : d.contentBytes g = some d.msgContent := by
    rw [Delivery.contentBytes, if_neg hr, msgSlices, if_neg hfmt, short_message_unchanged _ _ _ hshort]; rfl
  obtain ⟨h1, h2⟩ := deliver_recv_text d g d.msgContent spare hr hc htot
  refine ⟨_, h1, selfDelimiting_header12 (by rw [htot, length_deliverBody]; omega), rfl, ?_⟩
  rw [h2, Spec.slot_fits hfit.serviceId, Spec.slot_fits hfit.srcTerminalId, Spec.slot_fits hfit.linkID,
    Spec.slot_fits (s := d.msgContent) ⟨by omega, hnul⟩]

/-- Status report. Partial for the same reason. -/
theorem cmpp_deliver_report_roundtrip_partial (d : Delivery) (g : UInt8) (rep : Report) (spare : Bytes)
    (hr : d.registeredDelivery = 1) (hrep : d.report = some rep) (h60 : d.msgLength = 60)
    (hfit : DeliverFits d) (htot : DeliverTotal d)
    (hstat : Spec.Fits 7 rep.stat) (hsub : Spec.Fits 10 rep.submitTime) (hdone : Spec.Fits 10 rep.doneTime)
    (hdest : Spec.Fits 21 rep.destTerminalId) :
    ∃ frame, d.encode g = some frame ∧ Spec.SelfDelimiting frame ∧
      frame = Spec.header12 d.hdr.totalLength d.hdr.commandId d.hdr.sequenceId ++
        Spec.Cmpp.deliverBody d (Spec.Cmpp.reportBody rep) ∧
      recv (Delivery.decode d.version) frame spare =
        some { d with
          hdr := ⟨d.hdr.totalLength, 5, d.hdr.sequenceId⟩
          destId := d.serviceId
          serviceId := []
          srcTerminalType := if Spec.major d.version = 3 then d.srcTerminalType else 0
          msgContent := []
          linkID := if Spec.major d.version = 3 then d.linkID else [] } := by
  have htot' := htot
  unfold DeliverTotal at htot'
  rw [h60, (rfl : (60 : UInt8).toNat = 60)] at htot'
  obtain ⟨h1, h2⟩ := deliver_recv_report d g rep spare hr hrep h60 htot'
  refine ⟨_, h1, selfDelimiting_header12 (by rw [length_deliverBody]; unfold DeliverTotal at htot; omega), rfl, ?_⟩
  rw [h2, Spec.slot_fits hfit.serviceId, Spec.slot_fits hfit.srcTerminalId, Spec.slot_fits hfit.linkID,
    Spec.Cmpp.reportReceived, Spec.slot_fits hstat, Spec.slot_fits hsub, Spec.slot_fits hdone,
    Spec.slot_fits hdest, hrep]

/-- A concrete MO text and a concrete report. -/
def exampleMo : Delivery :=
  { hdr := ⟨12 + 97 + 2, 5, 9⟩, msgId := 0x1234, destId := ascii "1069", serviceId := ascii "SVC",
    srcTerminalId := ascii "13800138000", msgLength := 2, msgContent := ascii "TD", version := 0x30 }

def exampleReport : Delivery :=
  { hdr := ⟨12 + 73 + 60, 5, 9⟩, msgId := 0x1234, destId := ascii "1069", serviceId := ascii "SVC",
    srcTerminalId := ascii "13800138000", msgLength := 60, registeredDelivery := 1, version := 0x20,
    report := some { msgId := 77, stat := ascii "DELIVRD", submitTime := ascii "2201010000",
                     doneTime := ascii "2201010001", destTerminalId := ascii "13800138000",
                     smscSequence := 5 } }

example : exampleMo.registeredDelivery ≠ 1 ∧ exampleMo.msgFmt ≠ 8 ∧ DeliverFits exampleMo ∧
    DeliverTotal exampleMo ∧ (0 : UInt8) ∉ exampleMo.msgContent :=
  ⟨by decide, by decide, ⟨by decide, by decide, by decide, by decide⟩, by unfold DeliverTotal; decide, by decide⟩

example : DeliverFits exampleReport ∧ DeliverTotal exampleReport :=
  ⟨⟨by decide, by decide, by decide, by decide⟩, by unfold DeliverTotal; decide⟩

/-! ## C40, CMPP deliver -/

/-- Over-long strings of a deliver are cut to their slots and disturb nothing else: whatever the lengths of the
numbers, the service id, the link id, the text and the strings of the report, the frame is as long as it
declares and the receiver sees every other field as it was sent. -/
theorem cmpp_deliver_overlong_isolated (d : Delivery) (g : UInt8) (spare : Bytes) (htot : DeliverTotal d) :
    (∀ content, d.registeredDelivery ≠ 1 → d.contentBytes g = some content →
      ∃ frame, d.encode g = some frame ∧ Spec.SelfDelimiting frame ∧
        recv (Delivery.decode d.version) frame spare =
          some (Spec.Cmpp.deliverReceived d (Spec.slot d.msgLength.toNat content) none)) ∧
    (∀ rep, d.registeredDelivery = 1 → d.report = some rep → d.msgLength = 60 →
      ∃ frame, d.encode g = some frame ∧ Spec.SelfDelimiting frame ∧
        recv (Delivery.decode d.version) frame spare =
          some (Spec.Cmpp.deliverReceived d [] (some (Spec.Cmpp.reportReceived rep)))) := by
  constructor
  · intro content hr hc
    obtain ⟨h1, h2⟩ := deliver_recv_text d g content spare hr hc htot
    exact ⟨_, h1, selfDelimiting_header12 (by rw [htot, length_deliverBody]; omega), h2⟩
  · intro rep hr hrep h60
    have htot' := htot
    unfold DeliverTotal at htot'
    rw [h60, (rfl : (60 : UInt8).toNat = 60)] at htot'
    obtain ⟨h1, h2⟩ := deliver_recv_report d g rep spare hr hrep h60 htot'
    exact ⟨_, h1, selfDelimiting_header12 (by rw [length_deliverBody]; unfold DeliverTotal at htot; omega), h2⟩

/-- A service id of 12 bytes and a sender of 40: the declared length is still right, the text still arrives. -/
example : let d := { exampleMo with serviceId := ascii "SERVICE-TEST", srcTerminalId := List.replicate 40 0x31 }
    DeliverTotal d ∧ d.contentBytes 7 = some (ascii "TD") ∧
    Spec.Cmpp.deliverReceived d (Spec.slot 2 (ascii "TD")) none =
      { d with hdr := ⟨111, 5, 9⟩, destId := ascii "SERVICE-TE", serviceId := [],
               srcTerminalId := List.replicate 32 0x31, msgContent := ascii "TD" } :=
  ⟨by unfold DeliverTotal; decide, by decide, by decide⟩

/-- A report whose status text has 9 bytes. -/
example : let d := { exampleReport with report := exampleReport.report.map ({ · with stat := ascii "UNDELIVRD" }) }
    DeliverTotal d ∧ d.registeredDelivery = 1 ∧ d.msgLength = 60 ∧
    (d.report.map fun r => (Spec.Cmpp.reportReceived r).stat) = some (ascii "UNDELIV") :=
  ⟨by unfold DeliverTotal; decide, rfl, rfl, by decide⟩

/-- The destination number never survives: in every MO text the decoded destination is (the first 10
bytes of) the service id, and the decoded service id is empty. -/
theorem cmpp_deliver_destination_fails (d : Delivery) (g : UInt8) (content spare : Bytes)
    (hr : d.registeredDelivery ≠ 1) (hc : d.contentBytes g = some content) (htot : DeliverTotal d)
    (hne : d.destId ≠ Spec.slot 10 d.serviceId) :
    ∃ frame r, d.encode g = some frame ∧ recv (Delivery.decode d.version) frame spare = some r ∧
      r.destId = Spec.slot 10 d.serviceId ∧ r.destId ≠ d.destId ∧ r.serviceId = [] := by
  obtain ⟨h1, h2⟩ := deliver_recv_text d g content spare hr hc htot
  exact ⟨_, _, h1, h2, rfl, fun e => hne e.symm, rfl⟩

example : exampleMo.destId ≠ Spec.slot 10 exampleMo.serviceId := by decide

/-- UCS2 text of fewer than 70 units: what arrives is the raw UCS2 up to its first zero byte, not the
text. -/
theorem cmpp_deliver_ucs2_cut (d : Delivery) (g : UInt8) (text : List Char) (spare : Bytes)
    (hr : d.registeredDelivery ≠ 1) (hfmt : d.msgFmt = 8) (htext : d.msgContent = utf8 text)
    (hshort : ((text.map Char.toNat).flatMap utf16Enc).length < 140)
    (hlen : d.msgLength.toNat = ((text.map Char.toNat).flatMap utf16Enc).length) (htot : DeliverTotal d) :
    ∃ frame r, d.encode g = some frame ∧ recv (Delivery.decode d.version) frame spare = some r ∧
      r.msgContent = ((text.map Char.toNat).flatMap utf16Enc).takeWhile (· ≠ 0) := by
  have hc : d.contentBytes g = some ((text.map Char.toNat).flatMap utf16Enc) := by
    rw [Delivery.contentBytes, if_neg hr, htext, (msgSlices_short g d.msgFmt text).1 hfmt hshort]; rfl
  obtain ⟨h1, h2⟩ := deliver_recv_text d g _ spare hr hc htot
  refine ⟨_, _, h1, h2, ?_⟩
  show Spec.slot d.msgLength.toNat _ = _
  rw [hlen, Spec.slot, List.take_length]

theorem takeWhile_append_le (p : UInt8 → Bool) (a b : Bytes) : ((a ++ b).takeWhile p).length ≤ a.length + (b.takeWhile p).length := by
  rw [List.takeWhile_append]
  split
  · rw [List.length_append]; omega
  · have := (List.takeWhile_sublist p (l := a)).length_le
    omega

theorem toBE_two (n : Nat) : toBE 2 n = [UInt8.ofNat (n / 256), UInt8.ofNat n] := by
  have h1 : UInt8.ofNat (n / 256 % 256) = UInt8.ofNat (n / 256) := by
    apply UInt8.toNat.inj; simp
  have h2 : UInt8.ofNat (n % 256) = UInt8.ofNat n := by
    apply UInt8.toNat.inj; simp
  simp [toBE, h1, h2]

theorem length_utf16Enc (r : Nat) : (utf16Enc r).length = if r < 0x10000 then 2 else 4 := by
  unfold utf16Enc; split <;> simp [toBE_two]

theorem length_utf8Enc (r : Nat) : (utf8Enc r).length = if r < 0x80 then 1 else if r < 0x800 then 2 else if r < 0x10000 then 3 else 4 := by
  unfold utf8Enc
  split
  · rfl
  · split
    · rfl
    · split <;> rfl

/-- UTF-16 up to the first zero byte is never longer than the UTF-8 form. -/
theorem raw_le (cs : List Char) : (((cs.map Char.toNat).flatMap utf16Enc).takeWhile (· ≠ 0)).length ≤ (utf8 cs).length := by
  induction cs with
  | nil => exact Nat.le_refl _
  | cons c cs ih =>
    simp only [List.map_cons, List.flatMap_cons, utf8, List.length_append]
    by_cases h : c.toNat < 0x80
    · have : (utf16Enc c.toNat ++ (cs.map Char.toNat).flatMap utf16Enc).takeWhile (· ≠ 0) = [] := by
        have : c.toNat / 256 = 0 := by omega
        simp [utf16Enc, show c.toNat < 0x10000 by omega, toBE_two, this]
      rw [this]; exact Nat.zero_le _
    · have h1 := takeWhile_append_le (· ≠ 0) (utf16Enc c.toNat) ((cs.map Char.toNat).flatMap utf16Enc)
      have h2 : (utf16Enc c.toNat).length ≤ (utf8Enc c.toNat).length := by
        rw [length_utf16Enc, length_utf8Enc, if_neg h]
        repeat' split
        all_goals omega
      have h3 : (((cs.map Char.toNat).flatMap utf16Enc).takeWhile (· ≠ 0)).length ≤ (cs.flatMap fun c => utf8Enc c.toNat).length := ih
      omega

/-- The raw UTF-16 of a text, cut at a length and at its first zero byte, is not the UTF-8 form of the text, whatever the text. -/
theorem slot_ucs2_ne (n : Nat) (cs : List Char) (hne : cs ≠ []) : Spec.slot n ((cs.map Char.toNat).flatMap utf16Enc) ≠ utf8 cs := by
  obtain ⟨c, cs, rfl⟩ := List.exists_cons_of_ne_nil hne
  intro h
  have hlen : (Spec.slot n (((c :: cs).map Char.toNat).flatMap utf16Enc)).length ≤
      ((((c :: cs).map Char.toNat).flatMap utf16Enc).takeWhile (· ≠ 0)).length := by
    unfold Spec.slot
    have : (((c :: cs).map Char.toNat).flatMap utf16Enc).take n <+: ((c :: cs).map Char.toNat).flatMap utf16Enc := List.take_prefix _ _
    obtain ⟨r, hr⟩ := this
    generalize (((c :: cs).map Char.toNat).flatMap utf16Enc).take n = a at hr
    rw [← hr, List.takeWhile_append]
    split
    · rw [List.length_append]; omega
    · exact Nat.le_refl _
  -- the first byte
  have hhead : ∀ b rest, ((c :: cs).map Char.toNat).flatMap utf16Enc = b :: rest → Spec.slot n (((c :: cs).map Char.toNat).flatMap utf16Enc) = [] ∨
      ∃ t, Spec.slot n (((c :: cs).map Char.toNat).flatMap utf16Enc) = b :: t ∧ b ≠ 0 := by
    intro b rest e
    rw [e]
    cases n with
    | zero => left; rfl
    | succ n =>
      unfold Spec.slot
      rw [List.take_succ_cons, List.takeWhile_cons]
      by_cases hb : b = 0
      · left; simp [hb]
      · right; exact ⟨(rest.take n).takeWhile (· ≠ 0), by simp [hb], hb⟩
  have hv : c.toNat < 0x110000 := by
    rcases c.valid with h | h
    · exact Nat.lt_trans h (by decide)
    · exact h.2
  simp only [List.map_cons, List.flatMap_cons, utf8] at h hlen hhead
  by_cases h1 : c.toNat < 0x800
  · have e : utf16Enc c.toNat ++ (cs.map Char.toNat).flatMap utf16Enc =
        UInt8.ofNat (c.toNat / 256) :: UInt8.ofNat c.toNat :: (cs.map Char.toNat).flatMap utf16Enc := by
      simp [utf16Enc, show c.toNat < 0x10000 by omega, toBE_two]
    rcases hhead _ _ e with h2 | ⟨t, h2, hb⟩
    · rw [h2] at h
      have := congrArg List.length h
      rw [List.length_append, length_utf8Enc] at this
      have e8 : (if c.toNat < 0x80 then 1 else if c.toNat < 0x800 then 2 else if c.toNat < 0x10000 then 3 else 4) ≥ 1 := by
        repeat' split
        all_goals omega
      simp only [List.length_nil] at this
      omega
    · rw [h2] at h
      by_cases h3 : c.toNat < 0x80
      · apply hb
        have : c.toNat / 256 = 0 := by omega
        rw [this]; rfl
      · simp only [utf8Enc, if_neg h3, if_pos h1, List.cons_append] at h
        injection h with h _
        have := congrArg UInt8.toNat h
        simp only [UInt8.toNat_ofNat'] at this
        rw [Nat.mod_eq_of_lt (by omega), Nat.mod_eq_of_lt (by omega)] at this
        omega
  · by_cases h2 : c.toNat < 0x10000
    · have hle := raw_le cs
      have h3 := takeWhile_append_le (· ≠ 0) (utf16Enc c.toNat) ((cs.map Char.toNat).flatMap utf16Enc)
      have h4 := congrArg List.length h
      rw [List.length_append, length_utf8Enc, if_neg (by omega), if_neg h1, if_pos h2] at h4
      rw [length_utf16Enc, if_pos h2] at h3
      unfold utf8 at hle
      omega
    · have e : utf16Enc c.toNat ++ (cs.map Char.toNat).flatMap utf16Enc =
          UInt8.ofNat ((0xD800 + (c.toNat - 0x10000) / 1024) / 256) :: (UInt8.ofNat (0xD800 + (c.toNat - 0x10000) / 1024) ::
            (toBE 2 (0xDC00 + (c.toNat - 0x10000) % 1024) ++ (cs.map Char.toNat).flatMap utf16Enc)) := by
        simp [utf16Enc, h2, toBE_two]
      rcases hhead _ _ e with h3 | ⟨t, h3, hb⟩
      · rw [h3] at h
        have := congrArg List.length h
        rw [List.length_append, length_utf8Enc, if_neg (by omega), if_neg h1, if_neg h2] at this
        simp only [List.length_nil] at this
        omega
      · rw [h3] at h
        simp only [utf8Enc, if_neg (show ¬ c.toNat < 0x80 by omega), if_neg h1, if_neg h2, List.cons_append] at h
        injection h with h _
        have := congrArg UInt8.toNat h
        simp only [UInt8.toNat_ofNat'] at this
        omega

/-- Nor when the text is long enough to be sliced: then a concatenation header is what is cut. Whatever the length written in
the packet, a UCS2 text never arrives as it was. -/
theorem cmpp_deliver_ucs2_differs (d : Delivery) (g : UInt8) (text : List Char) (spare : Bytes)
    (hr : d.registeredDelivery ≠ 1) (hfmt : d.msgFmt = 8) (htext : d.msgContent = utf8 text) (hne : text ≠ [])
    (htot : DeliverTotal d) :
    ∃ frame r, d.encode g = some frame ∧ recv (Delivery.decode d.version) frame spare = some r ∧
      r.msgContent ≠ d.msgContent := by
  by_cases hshort : ((text.map Char.toNat).flatMap utf16Enc).length < 140
  · have hc : d.contentBytes g = some ((text.map Char.toNat).flatMap utf16Enc) := by
      rw [Delivery.contentBytes, if_neg hr, htext, (msgSlices_short g d.msgFmt text).1 hfmt hshort]; rfl
    obtain ⟨h1, h2⟩ := deliver_recv_text d g _ spare hr hc htot
    exact ⟨_, _, h1, h2, by rw [htext]; exact slot_ucs2_ne _ _ hne⟩
  · have hu : utf8ToUcs2 (utf8 text) = some ((text.map Char.toNat).flatMap utf16Enc) := by
      rw [utf8ToUcs2, validUtf8_utf8, runes_utf8]; simp
    have hs := toTPUDHISlices_long g ((text.map Char.toNat).flatMap utf16Enc) 140 (by decide) (by omega)
    obtain ⟨k, hk⟩ : ∃ k, sliceCount ((text.map Char.toNat).flatMap utf16Enc).length (140 - 6) = k + 1 := by
      refine ⟨sliceCount ((text.map Char.toNat).flatMap utf16Enc).length (140 - 6) - 1, ?_⟩
      have : 0 < sliceCount ((text.map Char.toNat).flatMap utf16Enc).length (140 - 6) := by
        unfold sliceCount; omega
      omega
    rw [hk, List.range_succ_eq_map] at hs
    obtain ⟨body, hc⟩ : ∃ body, d.contentBytes g = some (0x05 :: 0 :: body) := by
      rw [Delivery.contentBytes, if_neg hr, htext, msgSlices, if_pos hfmt, hu]
      simp only [Option.getD_some]
      rw [hs]
      exact ⟨_, rfl⟩
    obtain ⟨h1, h2⟩ := deliver_recv_text d g _ spare hr hc htot
    refine ⟨_, _, h1, h2, ?_⟩
    show Spec.slot d.msgLength.toNat _ ≠ _
    intro e
    have hle : (Spec.slot d.msgLength.toNat (0x05 :: 0 :: body)).length ≤ 1 := by
      unfold Spec.slot
      rcases d.msgLength.toNat with _ | _ | n <;> simp
    rw [e, htext] at hle
    have h4 : ∀ cs : List Char, ((cs.map Char.toNat).flatMap utf16Enc).length ≤ 4 * (utf8 cs).length := by
      intro cs
      induction cs with
      | nil => exact Nat.le_refl _
      | cons c cs ih =>
        simp only [List.map_cons, List.flatMap_cons, utf8_cons, List.length_append]
        have a : (utf16Enc c.toNat).length ≤ 4 := by rw [length_utf16Enc]; split <;> omega
        have b : 1 ≤ (utf8Enc c.toNat).length := by
          rw [length_utf8Enc]
          repeat' split
          all_goals omega
        omega
    have := h4 text
    omega

/-- So no text with a character outside ASCII, built by `NewDelivery`, arrives as the delivery held it. -/
theorem cmpp_deliver_ucs2_fails (ac : AuthConf) (phone dest sid : Bytes) (text : List Char) (seq : UInt32) (id : UInt64)
    (g : UInt8) (spare : Bytes) (h : ∃ c ∈ text, 128 ≤ c.toNat) :
    ∃ d frame r, newDelivery ac phone (utf8 text) dest sid seq id = d ∧
      d.msgContent = utf8 (text.take 70) ∧ d.encode g = some frame ∧
      recv (Delivery.decode d.version) frame spare = some r ∧ r.msgContent ≠ d.msgContent := by
  have hne : text ≠ [] := by rintro rfl; obtain ⟨c, hc, _⟩ := h; cases hc
  obtain ⟨l, hl, hmo⟩ : ∃ l, l ≤ 140 ∧ moContent (utf8 text) = (8, l, utf8 (text.take 70)) := by
    have hf := (msgFmt_ascii_iff text).2.2 h
    simp only [moContent, hf, if_true, runes_utf8, List.length_map]
    split
    · refine ⟨140, Nat.le_refl _, ?_⟩
      rw [← List.map_take, List.flatMap_map]; rfl
    · refine ⟨2 * text.length, by omega, ?_⟩
      rw [List.take_of_length_le (by omega)]
  obtain ⟨d, hd⟩ : ∃ d, newDelivery ac phone (utf8 text) dest sid seq id = d := ⟨_, rfl⟩
  have hd' := hd
  unfold newDelivery at hd
  rw [hmo] at hd
  have e1 : d.registeredDelivery = 0 := by rw [← hd]
  have e2 : d.msgFmt = 8 := by rw [← hd]
  have e3 : d.msgContent = utf8 (text.take 70) := by rw [← hd]
  have e4 : d.msgLength = UInt8.ofNat l := by rw [← hd]
  have e5 : d.version = ac.version := by rw [← hd]
  have e6 : d.hdr.totalLength = (if v3 ac.version then 109 else 85) + (UInt8.ofNat l).toUInt32 := by rw [← hd]
  obtain ⟨frame, r, h1, h2, h3⟩ := cmpp_deliver_ucs2_differs d g (text.take 70) spare (by rw [e1]; decide) e2 e3
      (by
        obtain ⟨c, cs, rfl⟩ := List.exists_cons_of_ne_nil hne
        simp) (by
        unfold DeliverTotal
        rw [e4, e5, e6]
        by_cases h : v3 ac.version = true
        · simp only [h, (v3_iff _).1 h, if_true, UInt32.toNat_add, UInt8.toNat_toUInt32, UInt8.toNat_ofNat']
          show (109 + l % 256) % 4294967296 = _
          omega
        · have h' : ¬ Spec.major ac.version = 3 := fun e => h ((v3_iff _).2 e)
          simp only [h, h', if_false, UInt32.toNat_add, UInt8.toNat_toUInt32, UInt8.toNat_ofNat']
          show (85 + l % 256) % 4294967296 = _
          omega)
  exact ⟨d, frame, r, hd', e3, h1, h2, h3⟩

example : ∃ c ∈ ['退', 'A'], 128 ≤ Char.toNat c := ⟨'退', by simp, by decide⟩

/-- An MO text of exactly 160 ASCII bytes (the longest `NewDelivery` keeps) is sent as the first slice
of a concatenated message: the receiver sees a concatenation header cut at its NUL byte, whatever the
text is. -/
theorem cmpp_deliver_160_fails (d : Delivery) (g : UInt8) (spare : Bytes)
    (hr : d.registeredDelivery ≠ 1) (hfmt : d.msgFmt ≠ 8) (h160 : d.msgContent.length = 160)
    (hlen : d.msgLength = 160) (htot : DeliverTotal d) :
    ∃ frame r, d.encode g = some frame ∧ recv (Delivery.decode d.version) frame spare = some r ∧
      r.msgContent = [0x05] := by
  have hs := toTPUDHISlices_long g d.msgContent 160 (by decide) (by omega)
  have hcount : sliceCount d.msgContent.length (160 - 6) = 2 := by rw [h160]; rfl
  rw [hcount] at hs
  have hc : d.contentBytes g = some (Spec.udhHeader g 2 1 ++ sliceBody d.msgContent 154 0) := by
    rw [Delivery.contentBytes, if_neg hr, msgSlices, if_neg hfmt, hs]; rfl
  obtain ⟨h1, h2⟩ := deliver_recv_text d g _ spare hr hc htot
  refine ⟨_, _, h1, h2, ?_⟩
  show Spec.slot d.msgLength.toNat _ = _
  rw [hlen]
  rfl

example : DeliverTotal { exampleMo with hdr := ⟨12 + 97 + 160, 5, 9⟩, msgLength := 160 } := by
  unfold DeliverTotal; decide

/-! ## C30 -/

theorem deliver_frame_dest (d : Delivery) (c : Bytes) (a b e : UInt32) :
    ((Spec.header12 a b e ++ Spec.Cmpp.deliverBody d c).drop 20).take 21 = pad 21 d.destId := by
  obtain ⟨rest, hr⟩ : ∃ rest, Spec.Cmpp.deliverBody d c = be64 d.msgId ++ (pad 21 d.destId ++ rest) := by
    unfold Spec.Cmpp.deliverBody
    simp only [List.flatten_cons]
    exact ⟨_, rfl⟩
  rw [hr, ← List.append_assoc, List.drop_left' (by simp [length_header12]), List.take_left' (by simp)]

theorem reportStat_simulated (smsc : UInt32) : reportStat smsc = Spec.Cmpp.simulatedStat smsc := by
  have key : ∀ n < 100, (match n with
      | 99 => ascii "REJECTD" | 88 => ascii "UNKNOWN" | 77 => ascii "ACCEPTD" | 66 => ascii "UNDELIV" | 55 => ascii "DELETED"
      | 44 => ascii "EXPIRED" | 33 => ascii "MA:0000" | 22 => ascii "MB:0000" | 11 => ascii "CA:0000" | 10 => ascii "CB:0000"
      | _ => ascii "DELIVRD") = ascii ((Spec.Cmpp.simulatedStates.lookup n).getD "DELIVRD") := by decide
  have e : (smsc % 100).toNat = smsc.toNat % 100 := UInt32.toNat_mod smsc 100
  unfold reportStat Spec.Cmpp.simulatedStat
  rw [← key _ (Nat.mod_lt _ (by decide)), e]
  rfl

/-- The report made for an accepted submit: the response carries a message id; the report carries the
same id and the recipient; both survive the wire, and the client renders both ids to the same hex
string. The submit's source number is in the destination slot of the frame (bytes 20-40). -/
theorem cmpp_report_tied (s : Submit) (id : UInt64) (seq smsc : UInt32) (rid : UInt64)
    (sub done : Bytes) (g : UInt8) (spare spare' : Bytes)
    (hdest : Spec.Fits 21 s.destTerminalId) (hsrc : Spec.Fits 21 s.srcId) :
    let resp := s.toResponse 0 id
    let d := s.toDeliveryReport id seq rid smsc sub done
    ∃ rframe r frame d' rep,
      resp.encode = some rframe ∧ recv (Rsp.decode 0x80000004 s.version) rframe spare' = some r ∧
      r.result = 0 ∧ r.msgId = id ∧ r.hdr.sequenceId = s.hdr.sequenceId ∧
      d.encode g = some frame ∧ recv (Delivery.decode s.version) frame spare = some d' ∧
      d'.registeredDelivery = 1 ∧ d'.report = some rep ∧
      rep.msgId = id ∧ uint64HexString rep.msgId = uint64HexString r.msgId ∧
      rep.destTerminalId = s.destTerminalId ∧ d'.srcTerminalId = s.destTerminalId ∧
      rep.stat = Spec.Cmpp.simulatedStat smsc ∧
      (frame.drop 20).take 21 = s.srcId ++ zeros (21 - s.srcId.length) := by
  intro resp d
  have hresp : ∃ rframe r, resp.encode = some rframe ∧
      recv (Rsp.decode 0x80000004 s.version) rframe spare' = some r ∧
      r.result = 0 ∧ r.msgId = id ∧ r.hdr.sequenceId = s.hdr.sequenceId := by
    obtain ⟨f, h1, _, h3⟩ := cmpp_submit_response_roundtrip s 0 id spare' (Or.inr (by decide))
    exact ⟨f, _, h1, h3, rfl, rfl, rfl⟩
  have hdl : d.hdr.totalLength.toNat = 12 + (if Spec.major d.version = 3 then 97 else 73) + 60 := by
    show (if v3 s.version = true then (169 : UInt32) else 145).toNat =
      12 + (if Spec.major s.version = 3 then 97 else 73) + 60
    by_cases h : v3 s.version = true
    · simp [h, (v3_iff _).1 h]
    · have h' : ¬ Spec.major s.version = 3 := fun e => h ((v3_iff _).2 e)
      simp [h, h']
  have e1 : d.registeredDelivery = 1 := rfl
  have e2 : d.report = some (newReport id s.destTerminalId sub done smsc) := rfl
  have e3 : d.msgLength = 60 := rfl
  have e4 : d.version = s.version := rfl
  have e5 : d.destId = s.srcId := rfl
  have e6 : d.srcTerminalId = s.destTerminalId := rfl
  obtain ⟨rframe, r, r1, r2, r3, r4, r5⟩ := hresp
  generalize d = d at *
  obtain ⟨h1, h2⟩ := deliver_recv_report d g _ spare e1 e2 e3 hdl
  rw [e4] at h2
  refine ⟨rframe, r, _, _, _, r1, r2, r3, r4, r5, h1, h2, e1, rfl, rfl, by rw [r4]; rfl, ?_, ?_, ?_, ?_⟩
  · exact Spec.slot_fits hdest
  · show Spec.slot _ d.srcTerminalId = _
    rw [e6]
    refine Spec.slot_fits ⟨?_, hdest.2⟩
    have := hdest.1
    unfold Spec.Cmpp.numberWidth
    split <;> omega
  · show Spec.slot 7 (reportStat smsc) = _
    rw [reportStat_simulated]
    apply Spec.slot_fits
    rw [← reportStat_simulated]
    unfold reportStat
    split <;> decide
  · rw [deliver_frame_dest, e5, pad_of_le hsrc.1]

example : Spec.Fits 21 (ascii "13800138000") ∧ Spec.Fits 21 (ascii "1069") := by decide

end Gosms.Cmpp
