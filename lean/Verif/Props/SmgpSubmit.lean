import Verif.Props.SmgpLogin
import Verif.Props.Slices

/-!
# C34 (and the SMGP part of C22, C40, C66): SMGP submit
-/

namespace Gosms.Smgp
open Gosms.Rd

/-- The general form: whatever the strings are, the server decodes the submit with each string cut to
its slot, the text decoded, and nothing else disturbed. -/
theorem submit_recv (gbDec : Bytes → Option Bytes) (s : Submit) (tlvs : List (UInt16 × Bytes))
    (spare c text : Bytes) (hok : Spec.Smgp.SubmitOk s tlvs)
    (htl : (s.tlvList = none ∧ tlvs = []) ∨ s.tlvList = some (tlvBuild tlvs))
    (hlt : ∀ tv ∈ tlvs, tv.2.length < 65536)
    (hc : strippedContent s.msgContent = some c) (hg : gbDec c = some text) :
    s.encode = some (Spec.header12 s.hdr.totalLength s.hdr.commandId s.hdr.sequenceId ++
      Spec.Smgp.submitBody s tlvs) ∧
    recv (Submit.decode gbDec s.version) (Spec.header12 s.hdr.totalLength s.hdr.commandId
      s.hdr.sequenceId ++ Spec.Smgp.submitBody s tlvs) spare =
      some { Spec.Smgp.submitReceived s text with tlvList := some (tlvBuild tlvs) } := by
  refine ⟨submit_encode s tlvs hok (htl.imp id fun h => ⟨h, hlt⟩), ?_⟩
  rw [recv_header12, submit_reads gbDec s tlvs _ spare c hok hlt hc, Cmpp.total_u32 hok.total, hg]
  rfl

theorem submitReceived_of_fits (s : Submit) (text : Bytes) (h : Spec.Smgp.SubmitFits s) :
    Spec.Smgp.submitReceived s text =
      { s with hdr := ⟨s.hdr.totalLength, 2, s.hdr.sequenceId⟩, msgContent := text } := by
  have hd : s.destTermID.map (Spec.slot 21) = s.destTermID := by
    conv => rhs; rw [← List.map_id s.destTermID]
    exact List.map_congr_left fun t ht => Spec.slot_fits (h.destTermID t ht)
  unfold Spec.Smgp.submitReceived
  simp only [Spec.slot_fits h.serviceID, Spec.slot_fits h.feeType, Spec.slot_fits h.feeCode,
    Spec.slot_fits h.fixedFee, Spec.slot_fits h.validTime, Spec.slot_fits h.atTime,
    Spec.slot_fits h.srcTermID, Spec.slot_fits h.chargeTermID, Spec.slot_fits h.reserve, hd]

/-! ## C34 -/

/-- SMGP submit: the frame is the Submit layout with the optional parameters after it, as long as it
declares; the server decodes every field, every recipient (0-255 of them), the text and the optional
parameters that were sent. Partial: the encoded text must not start like a concatenation header and must
not be empty (see the next theorems). A submit without optional parameters arrives with an empty list. -/
theorem smgp_submit_roundtrip_partial (gbDec : Bytes → Option Bytes) (s : Submit)
    (tlvs : List (UInt16 × Bytes)) (spare text : Bytes) (hok : Spec.Smgp.SubmitOk s tlvs)
    (hfit : Spec.Smgp.SubmitFits s)
    (htl : (s.tlvList = none ∧ tlvs = []) ∨ s.tlvList = some (tlvBuild tlvs))
    (hlt : ∀ tv ∈ tlvs, tv.2.length < 65536)
    (hplain : Spec.Cmpp.Plain s.msgContent) (hg : gbDec s.msgContent = some text) :
    ∃ frame, s.encode = some frame ∧
      frame = Spec.header12 s.hdr.totalLength s.hdr.commandId s.hdr.sequenceId ++
        Spec.Smgp.submitBody s tlvs ∧
      Spec.SelfDelimiting frame ∧
      recv (Submit.decode gbDec s.version) frame spare =
        some { s with hdr := ⟨s.hdr.totalLength, 2, s.hdr.sequenceId⟩, msgContent := text,
                      tlvList := some (tlvBuild tlvs) } ∧
      tlvPairs (tlvBuild tlvs) = tlvs := by
  obtain ⟨h1, h2⟩ := submit_recv gbDec s tlvs spare _ text hok htl hlt (strippedContent_plain hplain) hg
  refine ⟨_, h1, rfl, selfDelimiting_header12 hok.total, ?_, (tlv_list_roundtrip tlvs hlt).2.2⟩
  rw [h2, submitReceived_of_fits s text hfit]

/-- A part of a long message: the concatenation header is stripped and the text of the part arrives. -/
theorem smgp_submit_long_text (gbDec : Bytes → Option Bytes) (s : Submit)
    (tlvs : List (UInt16 × Bytes)) (spare body text : Bytes) (g t n : UInt8)
    (hok : Spec.Smgp.SubmitOk s tlvs) (hfit : Spec.Smgp.SubmitFits s)
    (htl : s.tlvList = some (tlvBuild tlvs)) (hlt : ∀ tv ∈ tlvs, tv.2.length < 65536)
    (hb : s.msgContent = Spec.udhHeader g t n ++ body) (hg : gbDec body = some text) :
    ∃ frame, s.encode = some frame ∧ Spec.SelfDelimiting frame ∧
      recv (Submit.decode gbDec s.version) frame spare =
        some { s with hdr := ⟨s.hdr.totalLength, 2, s.hdr.sequenceId⟩, msgContent := text } := by
  obtain ⟨h1, h2⟩ := submit_recv gbDec s tlvs spare body text hok (Or.inr htl) hlt
    (by rw [hb, strippedContent_udh]) hg
  refine ⟨_, h1, selfDelimiting_header12 hok.total, ?_⟩
  rw [h2, submitReceived_of_fits s text hfit, htl]

/-- A concrete submit with two recipients. -/
def exampleSubmit : Submit :=
  { hdr := ⟨126 + 42 + 2, 2, 77⟩, msgType := 6, needReport := 1, priority := 2, serviceID := ascii "SVC",
    feeType := ascii "00", feeCode := ascii "000", fixedFee := ascii "0", msgFormat := 15,
    srcTermID := ascii "10690", chargeTermID := ascii "13800138000", destTermIDCount := 2,
    destTermID := [ascii "13800138000", ascii "13900139000"], msgLength := 2, msgContent := ascii "hi",
    version := 0x30 }

/-- ... and one part of a long message, with its optional parameters. -/
def exampleSlice : Submit :=
  { exampleSubmit with
    hdr := ⟨126 + 42 + 8 + 20, 2, 77⟩
    msgLength := 8
    msgContent := Spec.udhHeader 1 2 1 ++ ascii "ab"
    tlvList := some (tlvBuild [(1, [0]), (2, [1]), (9, [2]), (10, [0])]) }

theorem exampleSubmit_ok : Spec.Smgp.SubmitOk exampleSubmit [] ∧ Spec.Smgp.SubmitFits exampleSubmit :=
  ⟨⟨by decide, by decide, by simp only [length_submitBody]; decide⟩,
   ⟨by decide, by decide, by decide, by decide, by decide, by decide, by decide, by decide, by decide,
    by decide⟩⟩

example : exampleSubmit.tlvList = none ∧ Spec.Cmpp.Plain exampleSubmit.msgContent := by decide

example : Spec.Smgp.SubmitOk exampleSlice [(1, [0]), (2, [1]), (9, [2]), (10, [0])] ∧
    Spec.Smgp.SubmitFits exampleSlice ∧ exampleSlice.msgContent = Spec.udhHeader 1 2 1 ++ ascii "ab" :=
  ⟨⟨by decide, by decide, by simp only [length_submitBody]; decide⟩,
   ⟨by decide, by decide, by decide, by decide, by decide, by decide, by decide, by decide, by decide,
    by decide⟩, rfl⟩

/-- A content that breaks off in its concatenation header makes the server's decoder panic. -/
theorem submit_recv_none (gbDec : Bytes → Option Bytes) (s : Submit)
    (tlvs : List (UInt16 × Bytes)) (spare : Bytes) (hok : Spec.Smgp.SubmitOk s tlvs)
    (htl : (s.tlvList = none ∧ tlvs = []) ∨ s.tlvList = some (tlvBuild tlvs))
    (hlt : ∀ tv ∈ tlvs, tv.2.length < 65536) (he : strippedContent s.msgContent = none) :
    ∃ frame, s.encode = some frame ∧ recv (Submit.decode gbDec s.version) frame spare = none := by
  refine ⟨_, submit_encode s tlvs hok (htl.imp id fun h => ⟨h, hlt⟩), ?_⟩
  rw [recv_header12]
  have hrec := hok.recipients
  have hcon := hok.content
  unfold Submit.decode
  refine fails_length_then ?_ spare (Nat.le_refl _)
  unfold Spec.Smgp.submitBody
  simp only [List.flatten_cons, List.flatten_nil]
  refine fails_bind (reads_byte _) ?_
  refine fails_bind (reads_byte _) ?_
  refine fails_bind (reads_byte _) ?_
  refine fails_bind (reads_str _) ?_
  refine fails_bind (reads_str _) ?_
  refine fails_bind (reads_str _) ?_
  refine fails_bind (reads_str _) ?_
  refine fails_bind (reads_byte _) ?_
  refine fails_bind (reads_str _) ?_
  refine fails_bind (reads_str _) ?_
  refine fails_bind (reads_str _) ?_
  refine fails_bind (reads_str _) ?_
  refine fails_bind (reads_byte _) ?_
  rw [← hrec]
  refine fails_bind (reads_times (enc := pad 21) (val := Spec.slot 21) (fun b p => reads_str b) s.destTermID _) ?_
  refine fails_bind (reads_byte _) ?_
  refine fails_bind (reads_slice hcon) ?_
  exact fails_head (fails_lift he)

/-- The full statement fails: an empty message makes the server's decoder panic, whatever the other
fields are. -/
theorem smgp_submit_empty_content_fails (gbDec : Bytes → Option Bytes) (s : Submit)
    (tlvs : List (UInt16 × Bytes)) (spare : Bytes) (hok : Spec.Smgp.SubmitOk s tlvs)
    (htl : (s.tlvList = none ∧ tlvs = []) ∨ s.tlvList = some (tlvBuild tlvs))
    (hlt : ∀ tv ∈ tlvs, tv.2.length < 65536) (he : s.msgContent = []) :
    ∃ frame, s.encode = some frame ∧ recv (Submit.decode gbDec s.version) frame spare = none :=
  submit_recv_none gbDec s tlvs spare hok htl hlt (by rw [he]; rfl)

example : Spec.Smgp.SubmitOk { exampleSubmit with hdr := ⟨126 + 42, 2, 77⟩, msgLength := 0, msgContent := [] } [] :=
  ⟨by decide, by decide, by simp only [length_submitBody]; decide⟩

/-! ## C40, SMGP part -/

/-- Over-long strings: every string field is cut to its slot and every other field arrives unchanged.
(`submitReceived` lists the fields.) -/
theorem smgp_submit_overlong_isolated (gbDec : Bytes → Option Bytes) (s : Submit)
    (tlvs : List (UInt16 × Bytes)) (spare text : Bytes) (hok : Spec.Smgp.SubmitOk s tlvs)
    (htl : (s.tlvList = none ∧ tlvs = []) ∨ s.tlvList = some (tlvBuild tlvs))
    (hlt : ∀ tv ∈ tlvs, tv.2.length < 65536)
    (hplain : Spec.Cmpp.Plain s.msgContent) (hg : gbDec s.msgContent = some text) :
    ∃ frame, s.encode = some frame ∧
      recv (Submit.decode gbDec s.version) frame spare =
        some { Spec.Smgp.submitReceived s text with tlvList := some (tlvBuild tlvs) } := by
  obtain ⟨h1, h2⟩ := submit_recv gbDec s tlvs spare _ text hok htl hlt (strippedContent_plain hplain) hg
  exact ⟨_, h1, h2⟩

/-- An over-long service id does not change what arrives in any other field. -/
example : (Spec.Smgp.submitReceived { exampleSubmit with serviceID := ascii "01234567890123" } []) =
    { Spec.Smgp.submitReceived exampleSubmit [] with serviceID := ascii "0123456789" } := by
  decide

/-! ## NewSubmit -/

theorem slices_fit (g : UInt8) (c : Bytes) (pkg : Nat) (hp : 6 < pkg) :
    ∃ slices, toTPUDHISlices g c pkg = some slices ∧ (∀ s ∈ slices, s.length ≤ pkg) ∧ slices ≠ [] := by
  by_cases h : c.length < pkg
  · exact ⟨[c], short_message_unchanged g c pkg h, by simp; omega, by simp⟩
  · obtain ⟨sl, h1, h2, h3⟩ := long_message_slices_wellformed g c pkg hp (by omega)
    refine ⟨sl, h1, fun s hs => ?_, ?_⟩
    · obtain ⟨i, hi, rfl⟩ := List.getElem_of_mem hs
      exact (h3 i hi).1
    · rintro rfl
      have := ((sliceCount_bounds c.length (pkg - 6) (by omega)).2 (by omega)).2
      unfold sliceCount at this
      simp at h2
      omega

/-- The optional parameters of part `i` (counted from 0) of `n`: none for a single packet. -/
def partTlvs (n i : Nat) : List (UInt16 × Bytes) :=
  if n = 1 then [] else [(1, [0]), (2, [1]), (9, [UInt8.ofNat n]), (10, [UInt8.ofNat i])]

theorem partTlvs_short (n i : Nat) : ∀ tv ∈ partTlvs n i, tv.2.length < 65536 := by
  unfold partTlvs
  split <;> simp

theorem length_tlvsWire_part (n i : Nat) :
    (Spec.tlvsWire (partTlvs n i)).length = if n = 1 then 0 else 20 := by
  unfold partTlvs
  split
  · rfl
  · simp [Spec.tlvsWire, Spec.tlvWire]

/-- `NewSubmit` with up to 255 recipients and a text the GB18030 coder accepts: one packet per slice of
the encoded text, in order; each packet is consistent, carries all recipients, and its optional
parameters are those of its part; the first packet has the given sequence number. -/
theorem smgp_newSubmit (gbEnc : Bytes → Option Bytes) (ac : AuthConf) (phones : List Bytes)
    (content data : Bytes) (seq : UInt32) (opts : List OptionFunc) (g : UInt8) (clock : Clock)
    (seqs : Nat → UInt32) (hp : phones.length ≤ 255) (hgb : gbEnc content = some data) :
    ∃ msgs slices, newSubmit gbEnc ac phones content seq opts g clock seqs = some msgs ∧
      toTPUDHISlices g data 140 = some slices ∧ slices ≠ [] ∧
      msgs.length = slices.length ∧
      ∀ i (hi : i < msgs.length) (hs : i < slices.length),
        Spec.Smgp.SubmitOk msgs[i] (partTlvs slices.length i) ∧
        (if slices.length = 1 then msgs[i].tlvList = none
          else msgs[i].tlvList = some (tlvBuild (partTlvs slices.length i))) ∧
        msgs[i].version = ac.version ∧ msgs[i].hdr.commandId = 2 ∧
        msgs[i].hdr.sequenceId = (if i = 0 then seq else seqs i) ∧
        msgs[i].destTermID = phones ∧ msgs[i].msgContent = slices[i] ∧
        msgs[i].msgType = 6 ∧ msgs[i].msgFormat = 15 ∧ msgs[i].fixedFee = ac.fixedFee := by
  obtain ⟨slices, hsl, hfit, hne⟩ := slices_fit g data 140 (by decide)
  have hn : (UInt8.ofNat phones.length).toNat = phones.length := u8_ofNat_toNat (by omega)
  have hOk : ∀ (m : Submit) (s : Bytes) (tl : List (UInt16 × Bytes)) (k : Nat), s ∈ slices →
      m.destTermID = phones → m.destTermIDCount = UInt8.ofNat phones.length → m.msgContent = s →
      m.msgLength = UInt8.ofNat s.length → k = (Spec.tlvsWire tl).length → k ≤ 20 →
      m.hdr.totalLength =
        UInt32.ofNat (126 + phones.length * 21 + (UInt8.ofNat s.length).toNat + k) →
      Spec.Smgp.SubmitOk m tl := by
    intro m s tl k hs h1 h2 h3 h4 h5 h5' h6
    have hl := hfit s hs
    have hlen : (UInt8.ofNat s.length).toNat = s.length := u8_ofNat_toNat (by omega)
    refine ⟨?_, ?_, ?_⟩
    · rw [h1, h2, hn]
    · rw [h3, h4, hlen]
    · rw [h6, length_submitBody, h1, h3, hlen, UInt32.toNat_ofNat', ← h5]
      omega
  unfold newSubmit
  simp only [hgb, hsl, Option.map_some, setOptions]
  match hsls : slices with
  | [] => exact absurd rfl hne
  | [s] =>
    refine ⟨_, _, rfl, rfl, by simp, by simp, fun i hi hs => ?_⟩
    simp only [List.length_singleton] at hi
    have : i = 0 := by omega
    subst this
    refine ⟨hOk _ s _ 0 (by simp) rfl rfl rfl rfl (by rw [length_tlvsWire_part]; simp) (by omega) rfl, ?_⟩
    simp
    decide
  | s1 :: s2 :: rest =>
    refine ⟨_, _, rfl, rfl, by simp, by simp, fun i hi hs => ?_⟩
    simp only [List.getElem_mapIdx]
    have hlen1 : ¬ (s1 :: s2 :: rest).length = 1 := by simp
    refine ⟨hOk _ _ _ 20 (List.getElem_mem hs) rfl rfl rfl rfl
      (by rw [length_tlvsWire_part, if_neg hlen1]) (by omega) rfl, ?_⟩
    rw [if_neg hlen1]
    refine ⟨?_, by simp, rfl, ?_, by simp, by simp, by simp, by simp, by simp⟩
    · rw [partTlvs, if_neg hlen1]; rfl
    · by_cases h0 : i = 0 <;> simp [h0]

example : [ascii "13800138000", ascii "13900139000"].length ≤ 255 := by decide

/-- A text the coder rejects gives no packets at all. -/
theorem smgp_newSubmit_coder_error (gbEnc : Bytes → Option Bytes) (ac : AuthConf) (phones : List Bytes)
    (content : Bytes) (seq : UInt32) (opts : List OptionFunc) (g : UInt8) (clock : Clock)
    (seqs : Nat → UInt32) (hgb : gbEnc content = none) :
    newSubmit gbEnc ac phones content seq opts g clock seqs = some [] := by
  unfold newSubmit
  simp only [hgb]

/-- With more than 255 recipients every packet encodes to nothing (a nil frame). -/
theorem smgp_newSubmit_too_many (gbEnc : Bytes → Option Bytes) (ac : AuthConf) (phones : List Bytes)
    (content : Bytes) (seq : UInt32) (opts : List OptionFunc) (g : UInt8) (clock : Clock)
    (seqs : Nat → UInt32) (hp : 255 < phones.length) (msgs : List Submit)
    (h : newSubmit gbEnc ac phones content seq opts g clock seqs = some msgs) :
    ∀ m ∈ msgs, m.encode = some [] := by
  have key : ∀ m : Submit, m.destTermID = phones → m.destTermIDCount = UInt8.ofNat phones.length →
      m.encode = some [] := by
    intro m h1 h2
    unfold Submit.encode
    rw [if_pos]
    rw [h1, h2]
    have := (UInt8.ofNat phones.length).toNat_lt
    omega
  unfold newSubmit at h
  cases hgb : gbEnc content with
  | none => simp only [hgb, Option.some.injEq] at h; subst h; simp
  | some data =>
    obtain ⟨slices, hsl, _, _⟩ := slices_fit g data 140 (by decide)
    simp only [hgb, hsl, Option.map_some, Option.some.injEq] at h
    subst h
    match slices with
    | [] => simp
    | [s] =>
      intro m hm
      simp only [List.mem_singleton] at hm
      subst hm
      exact key _ rfl rfl
    | s1 :: s2 :: rest =>
      intro m hm
      obtain ⟨i, hi, rfl⟩ := List.getElem_of_mem hm
      rw [List.getElem_mapIdx]
      exact key _ rfl rfl

/-- C34 end to end for a message that needs one packet: every recipient and the text given to
`NewSubmit` arrive. -/
theorem smgp_newSubmit_delivered (gbEnc gbDec : Bytes → Option Bytes)
    (hgb : ∀ x b, gbEnc x = some b → gbDec b = some x) (ac : AuthConf) (phones : List Bytes)
    (content data : Bytes) (seq : UInt32) (opts : List OptionFunc) (g : UInt8) (clock : Clock)
    (seqs : Nat → UInt32) (spare : Bytes) (hp : phones.length ≤ 255)
    (hph : ∀ p ∈ phones, Spec.Fits 21 p) (he : gbEnc content = some data)
    (hlen : data.length < 140) (hplain : Spec.Cmpp.Plain data) :
    ∃ m frame r, newSubmit gbEnc ac phones content seq opts g clock seqs = some [m] ∧
      m.encode = some frame ∧ recv (Submit.decode gbDec ac.version) frame spare = some r ∧
      r.hdr.sequenceId = seq ∧ r.destTermID = phones ∧ r.msgContent = content := by
  obtain ⟨msgs, slices, h1, h2, _, h3, h4⟩ :=
    smgp_newSubmit gbEnc ac phones content data seq opts g clock seqs hp he
  rw [short_message_unchanged g data 140 hlen, Option.some.injEq] at h2
  subst h2
  match msgs, h3 with
  | [m], _ =>
    obtain ⟨hok, htl, hv, _, hseq, hdest, hc, _⟩ := h4 0 (by simp) (by simp)
    simp only [List.getElem_cons_zero, List.length_singleton, if_true] at hok htl hv hseq hdest hc
    have hp1 : partTlvs 1 0 = [] := rfl
    rw [hp1] at hok
    obtain ⟨e1, e2⟩ := submit_recv gbDec m [] spare data content hok (Or.inl ⟨htl, rfl⟩) (by simp)
      (by rw [hc]; exact strippedContent_plain hplain) (hgb _ _ he)
    rw [hv] at e2
    refine ⟨m, _, _, h1, e1, e2, hseq, ?_, rfl⟩
    show m.destTermID.map (Spec.slot 21) = phones
    rw [hdest]
    conv => rhs; rw [← List.map_id phones]
    exact List.map_congr_left fun t ht => Spec.slot_fits (hph t ht)

/-- The coder that leaves ASCII alone meets the round-trip hypothesis (GB18030 does so on ASCII). -/
example : ∃ gbEnc gbDec : Bytes → Option Bytes, (∀ x b, gbEnc x = some b → gbDec b = some x) ∧
    gbEnc (ascii "hi") = some (ascii "hi") ∧ (ascii "hi").length < 140 ∧ Spec.Cmpp.Plain (ascii "hi") :=
  ⟨some, some, fun _ _ h => h.symm ▸ rfl, rfl, by decide, by decide⟩

/-! ## C66, SMGP part -/

/-- The parts of a long SMGP message do not number themselves 1..n: the number in the optional parameter
counts from 0 and so never agrees with the number in the part's concatenation header. -/
theorem smgp_part_numbers_fail (gbEnc : Bytes → Option Bytes) (ac : AuthConf) (phones : List Bytes)
    (content data : Bytes) (seq : UInt32) (opts : List OptionFunc) (g : UInt8) (clock : Clock)
    (seqs : Nat → UInt32) (hp : phones.length ≤ 255) (hgb : gbEnc content = some data)
    (hlong : 140 ≤ data.length) :
    ∃ msgs, newSubmit gbEnc ac phones content seq opts g clock seqs = some msgs ∧ 2 ≤ msgs.length ∧
      ∀ i (hi : i < msgs.length), ∃ u, Spec.parseUdh msgs[i].msgContent = some u ∧
        u.number = UInt8.ofNat (i + 1) ∧
        msgs[i].tlvList.bind (tlvGet · 10) = some (Tlv.new 10 [UInt8.ofNat i]) ∧
        u.number ≠ UInt8.ofNat i := by
  obtain ⟨msgs, slices, h1, h2, _, h3, h4⟩ :=
    smgp_newSubmit gbEnc ac phones content data seq opts g clock seqs hp hgb
  obtain ⟨sl, h5, h6, h7⟩ := long_message_slices_wellformed g data 140 (by decide) hlong
  rw [h2] at h5
  obtain rfl := Option.some.inj h5
  have hn : 2 ≤ slices.length := by omega
  refine ⟨msgs, h1, by omega, fun i hi => ?_⟩
  obtain ⟨_, htl, _, _, _, _, hc, _⟩ := h4 i hi (by omega)
  rw [if_neg (by omega)] at htl
  obtain ⟨_, total, number, body, hp1, _, hnum, _⟩ := h7 i (by omega)
  refine ⟨_, by rw [hc]; exact hp1, hnum, ?_, ?_⟩
  · rw [htl, partTlvs, if_neg (by omega)]
    rfl
  · rw [hnum]
    intro e
    have := congrArg UInt8.toNat e
    simp only [UInt8.toNat_ofNat'] at this
    omega

example : 140 ≤ (List.replicate 200 (0x61 : UInt8)).length := by
  rw [List.length_replicate]; decide

end Gosms.Smgp
