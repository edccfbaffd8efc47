import Verif.Lemmas.Cmpp
import Verif.Props.Utils
import Verif.Props.Slices

/-!
# C27, C28 (and the CMPP part of C22, C40): CMPP submit
-/

namespace Gosms.Cmpp
open Gosms.Rd

theorem decodedContent_plain {c : Bytes} (h : Spec.Cmpp.Plain c) : decodedContent c = some c := by
  obtain ⟨h1, h2⟩ := h
  match c with
  | [] => exact absurd List.nil_prefix h1
  | [a] =>
    by_cases ha : a = 0x05
    · subst ha; exact absurd ⟨[0x00, 0x03], rfl⟩ h1
    · simp [decodedContent, ha]
  | [a, b] =>
    by_cases ha : a = 0x05
    · by_cases hb : b = 0x00
      · subst ha hb; exact absurd ⟨[0x03], rfl⟩ h1
      · simp [decodedContent, hb]
    · simp [decodedContent, ha]
  | a :: b :: d :: r =>
    by_cases ha : a = 0x05
    · by_cases hb : b = 0x00
      · by_cases hd : d = 0x03
        · subst ha hb hd; exact absurd ⟨r, rfl⟩ h2
        · simp [decodedContent, hd]
      · simp [decodedContent, hb]
    · simp [decodedContent, ha]

theorem decodedContent_udh (g t n : UInt8) (body : Bytes) :
    decodedContent (Spec.udhHeader g t n ++ body) = some (ucs2ToUtf8 body) := by
  simp [decodedContent, Spec.udhHeader]

theorem total_u32 {t : UInt32} {n : Nat} (h : t.toNat = 12 + n) : (12 : UInt32) + UInt32.ofNat n = t := by
  have := t.toNat_lt
  apply UInt32.toNat_inj.1
  have e12 : (12 : UInt32).toNat = 12 := rfl
  rw [UInt32.toNat_add, e12, UInt32.toNat_ofNat', h]
  omega

theorem length_submitBody (s : Submit) : (Spec.Cmpp.submitBody s).length =
    (if Spec.major s.version = 3 then 151 else 126) + s.termIds.length + s.msgContent.length := by
  unfold Spec.Cmpp.submitBody
  by_cases h : Spec.major s.version = 3
  · simp [h]; omega
  · simp [h]; omega

/-- The general form: whatever the strings are, the server decodes the submit with each string cut to
its slot and nothing else disturbed. -/
theorem submit_recv (s : Submit) (spare c : Bytes) (hok : Spec.Cmpp.SubmitOk s)
    (hwrap : Spec.major s.version = 3 ∨ s.destUsrTl.toNat ≤ 12)
    (hc : decodedContent s.msgContent = some c) :
    s.encode = some (Spec.header12 s.hdr.totalLength s.hdr.commandId s.hdr.sequenceId ++
      Spec.Cmpp.submitBody s) ∧
    recv (Submit.decode s.version) (Spec.header12 s.hdr.totalLength s.hdr.commandId s.hdr.sequenceId ++
      Spec.Cmpp.submitBody s) spare = some { Spec.Cmpp.submitReceived s with msgContent := c } := by
  refine ⟨submit_encode s hok.total, ?_⟩
  rw [recv_header12, submit_reads s _ spare c hok hwrap hc, total_u32 hok.total]
  rfl

theorem submitReceived_of_fits (s : Submit) (h : Spec.Cmpp.SubmitFits s) (h3 : Spec.major s.version = 3) :
    Spec.Cmpp.submitReceived s =
      { s with msgId := 0, hdr := ⟨s.hdr.totalLength, 4, s.hdr.sequenceId⟩,
               destTerminalId := s.termIds.takeWhile (· ≠ 0) } := by
  unfold Spec.Cmpp.submitReceived
  simp only [h3, if_true, Spec.slot_fits h.serviceId, Spec.slot_fits h.feeTerminalId,
    Spec.slot_fits h.msgSrc, Spec.slot_fits h.feeType, Spec.slot_fits h.feeCode,
    Spec.slot_fits h.validTime, Spec.slot_fits h.atTime, Spec.slot_fits h.srcId, Spec.slot_fits h.linkID]

/-! ## C27 -/

/-- CMPP 3.x submit: the frame is the CMPP_SUBMIT layout, as long as it declares, and the server decodes
exactly the submit that was sent, with any number of recipients (0-255). Partial: the content must not
start like a concatenation header and must not be empty (see the next theorems). -/
theorem cmpp3_submit_roundtrip_partial (s : Submit) (spare : Bytes) (h3 : Spec.major s.version = 3)
    (hok : Spec.Cmpp.SubmitOk s) (hfit : Spec.Cmpp.SubmitFits s) (hplain : Spec.Cmpp.Plain s.msgContent) :
    ∃ frame, s.encode = some frame ∧
      frame = Spec.header12 s.hdr.totalLength s.hdr.commandId s.hdr.sequenceId ++ Spec.Cmpp.submitBody s ∧
      Spec.SelfDelimiting frame ∧
      recv (Submit.decode s.version) frame spare =
        some { s with msgId := 0, hdr := ⟨s.hdr.totalLength, 4, s.hdr.sequenceId⟩,
                      destTerminalId := s.termIds.takeWhile (· ≠ 0) } := by
  obtain ⟨h1, h2⟩ := submit_recv s spare s.msgContent hok (Or.inl h3) (decodedContent_plain hplain)
  refine ⟨_, h1, rfl, selfDelimiting_header12 hok.total, ?_⟩
  rw [h2, submitReceived_of_fits s hfit h3]

/-- A concatenated slice (3.x, UCS2): the header is stripped and the text of the slice arrives. -/
theorem cmpp3_submit_long_text (s : Submit) (spare : Bytes) (h3 : Spec.major s.version = 3)
    (hok : Spec.Cmpp.SubmitOk s) (hfit : Spec.Cmpp.SubmitFits s) (g t n : UInt8) (text : List Char)
    (htext : s.msgContent = Spec.udhHeader g t n ++ (text.map Char.toNat).flatMap utf16Enc) :
    ∃ frame, s.encode = some frame ∧
      recv (Submit.decode s.version) frame spare =
        some { s with msgId := 0, hdr := ⟨s.hdr.totalLength, 4, s.hdr.sequenceId⟩,
                      destTerminalId := s.termIds.takeWhile (· ≠ 0), msgContent := utf8 text } := by
  have hc : decodedContent s.msgContent = some (utf8 text) := by
    rw [htext, decodedContent_udh]
    rw [ucs2ToUtf8, List.flatMap_map, decode16_utf16, List.flatMap_map]
    rfl
  obtain ⟨h1, h2⟩ := submit_recv s spare _ hok (Or.inl h3) hc
  refine ⟨_, h1, ?_⟩
  rw [h2, submitReceived_of_fits s hfit h3]

/-- A concrete 3.x submit with two recipients. -/
def exampleSubmit3 : Submit :=
  { hdr := ⟨12 + 151 + 64 + 2, 4, 77⟩, pkTotal := 1, pkNumber := 1, registeredDel := 1, msgLevel := 9,
    serviceId := ascii "SVC", msgSrc := ascii "901234", feeType := ascii "02", feeCode := ascii "10",
    srcId := ascii "1069", destUsrTl := 2,
    termIds := pad 32 (ascii "13800138000") ++ pad 32 (ascii "13900139000"),
    msgLength := 2, msgContent := ascii "hi", version := 0x30 }

example : Spec.major exampleSubmit3.version = 3 ∧ Spec.Cmpp.SubmitOk exampleSubmit3 ∧
    Spec.Cmpp.SubmitFits exampleSubmit3 ∧ Spec.Cmpp.Plain exampleSubmit3.msgContent :=
  ⟨by decide, ⟨by decide, by decide, by simp only [length_submitBody]; decide⟩,
   ⟨by decide, by decide, by decide, by decide, by decide, by decide, by decide, by decide, by decide⟩,
   by decide⟩

/-- A slice of a long ASCII text. -/
def exampleSlice3 : Submit :=
  { exampleSubmit3 with
    hdr := ⟨12 + 151 + 64 + 8, 4, 77⟩
    msgLength := 8
    msgContent := Spec.udhHeader 1 2 1 ++ ascii "ab" }

/-- The full statement fails: an empty message makes the server's decoder panic, in both versions and
whatever the other fields are. -/
theorem cmpp_submit_empty_content_fails (s : Submit) (spare : Bytes) (hok : Spec.Cmpp.SubmitOk s)
    (hwrap : Spec.major s.version = 3 ∨ s.destUsrTl.toNat ≤ 12) (he : s.msgContent = []) :
    ∃ frame, s.encode = some frame ∧ recv (Submit.decode s.version) frame spare = none := by
  refine ⟨_, submit_encode s hok.total, ?_⟩
  rw [recv_header12]
  exact submit_fails s _ spare hok hwrap (by rw [he]; rfl)

example : Spec.Cmpp.SubmitOk { exampleSubmit3 with hdr := ⟨12 + 151 + 64, 4, 77⟩, msgLength := 0, msgContent := [] } :=
  ⟨by decide, by decide, by simp only [length_submitBody]; decide⟩

/-- ... and an ASCII concatenation slice, as `NewSubmit` produces for a long ASCII text, arrives as
different text: its bytes are decoded as UCS2. -/
theorem cmpp3_submit_ascii_slice_fails : ∃ s : Submit, Spec.Cmpp.SubmitOk s ∧ Spec.Cmpp.SubmitFits s ∧
    Spec.major s.version = 3 ∧ s.msgFmt = 0 ∧
    s.msgContent = Spec.udhHeader 1 2 1 ++ ascii "ab" ∧
    ∀ spare, ∃ frame r, s.encode = some frame ∧ recv (Submit.decode s.version) frame spare = some r ∧
      r.msgContent = utf8 ['慢'] := by
  refine ⟨exampleSlice3,
    ⟨by decide, by decide, by simp only [length_submitBody]; decide⟩,
    ⟨by decide, by decide, by decide, by decide, by decide, by decide, by decide, by decide, by decide⟩,
    by decide, rfl, rfl, fun spare => ?_⟩
  obtain ⟨frame, h1, h2⟩ := cmpp3_submit_long_text exampleSlice3 spare (by decide)
      ⟨by decide, by decide, by simp only [length_submitBody]; decide⟩
      ⟨by decide, by decide, by decide, by decide, by decide, by decide, by decide, by decide, by decide⟩
      1 2 1 ['慢'] (by decide)
  exact ⟨frame, _, h1, h2, rfl⟩

/-! ## C28 -/

/-- CMPP 2.x submit, up to 12 recipients. Partial: for more recipients the decoder fails (next
theorem); the content restrictions are those of 3.x. 2.x packets carry no number types and no LinkID. -/
theorem cmpp2_submit_roundtrip_partial (s : Submit) (spare : Bytes) (h2 : Spec.major s.version ≠ 3)
    (hok : Spec.Cmpp.SubmitOk s) (hfit : Spec.Cmpp.SubmitFits s) (hplain : Spec.Cmpp.Plain s.msgContent)
    (hrcpt : s.destUsrTl.toNat ≤ 12) :
    ∃ frame, s.encode = some frame ∧
      frame = Spec.header12 s.hdr.totalLength s.hdr.commandId s.hdr.sequenceId ++ Spec.Cmpp.submitBody s ∧
      Spec.SelfDelimiting frame ∧
      recv (Submit.decode s.version) frame spare =
        some { s with msgId := 0, hdr := ⟨s.hdr.totalLength, 4, s.hdr.sequenceId⟩,
                      destTerminalId := s.termIds.takeWhile (· ≠ 0),
                      feeTerminalType := 0, destTerminalType := 0, linkID := [] } := by
  obtain ⟨h1, h3⟩ := submit_recv s spare s.msgContent hok (Or.inr hrcpt) (decodedContent_plain hplain)
  refine ⟨_, h1, rfl, selfDelimiting_header12 hok.total, ?_⟩
  rw [h3]
  unfold Spec.Cmpp.submitReceived
  simp only [h2, if_false, Spec.slot_fits hfit.serviceId, Spec.slot_fits hfit.feeTerminalId,
    Spec.slot_fits hfit.msgSrc, Spec.slot_fits hfit.feeType, Spec.slot_fits hfit.feeCode,
    Spec.slot_fits hfit.validTime, Spec.slot_fits hfit.atTime, Spec.slot_fits hfit.srcId]

/-- A concrete 2.x submit. -/
def exampleSubmit2 : Submit :=
  { exampleSubmit3 with
    hdr := ⟨12 + 126 + 42 + 2, 4, 77⟩,
    termIds := pad 21 (ascii "13800138000") ++ pad 21 (ascii "13900139000"), version := 0x20 }

example : Spec.major exampleSubmit2.version ≠ 3 ∧ Spec.Cmpp.SubmitOk exampleSubmit2 ∧
    Spec.Cmpp.SubmitFits exampleSubmit2 ∧ Spec.Cmpp.Plain exampleSubmit2.msgContent ∧
    exampleSubmit2.destUsrTl.toNat ≤ 12 :=
  ⟨by decide, ⟨by decide, by decide, by simp only [length_submitBody]; decide⟩,
   ⟨by decide, by decide, by decide, by decide, by decide, by decide, by decide, by decide, by decide⟩,
   by decide, by decide⟩

theorem decode2_termIds (v : UInt8) (seq : UInt32) (f : Buf) (r : Submit) (h2 : Spec.major v ≠ 3)
    (hr : Submit.decode v seq f = some r) : r.termIds.length < 256 := by
  have h : ¬ v3 v = true := fun e => h2 ((v3_iff _).1 e)
  unfold Submit.decode at hr
  refine run_post (Φ := fun r : Submit => r.termIds.length < 256) ?_ hr
  simp only [h, if_false, Bool.false_eq_true]
  refine post_bind' fun _ => ?_
  refine post_bind' fun _ => ?_
  refine post_bind' fun _ => ?_
  refine post_bind' fun _ => ?_
  refine post_bind' fun _ => ?_
  refine post_bind' fun _ => ?_
  refine post_bind' fun _ => ?_
  refine post_bind' fun _ => ?_
  refine post_bind' fun _ => ?_
  refine post_bind' fun _ => ?_
  refine post_bind' fun _ => ?_
  refine post_bind' fun _ => ?_
  refine post_bind' fun _ => ?_
  refine post_bind' fun _ => ?_
  refine post_bind' fun _ => ?_
  refine post_bind' fun _ => ?_
  refine post_bind' fun _ => ?_
  refine post_bind' fun _ => ?_
  refine post_bind' fun _ => ?_
  refine post_bind' fun n => ?_
  refine post_bind (post_slice _) fun t ht => ?_
  refine post_bind' fun _ => ?_
  refine post_bind' fun _ => ?_
  refine post_bind' fun _ => ?_
  refine post_bind' fun _ => ?_
  refine post_bind' fun _ => ?_
  refine post_pure ?_
  show t.length < 256
  rw [ht]
  exact UInt8.toNat_lt _

/-- The full statement fails for every 2.x submit with 13 or more recipients: whatever the decoder
returns, it is not the recipient list (the 8-bit product wraps around). -/
theorem cmpp2_submit_many_recipients_fails (s : Submit) (spare : Bytes) (h2 : Spec.major s.version ≠ 3)
    (hok : Spec.Cmpp.SubmitOk s) (hrcpt : 13 ≤ s.destUsrTl.toNat) :
    ∃ frame, s.encode = some frame ∧
      ∀ r, recv (Submit.decode s.version) frame spare = some r → r.termIds ≠ s.termIds := by
  refine ⟨_, submit_encode s hok.total, fun r hr => ?_⟩
  rw [recv_header12] at hr
  have h1 := decode2_termIds _ _ _ _ h2 hr
  intro e
  have := hok.recipients
  rw [Spec.Cmpp.numberWidth, if_neg h2] at this
  rw [e, this] at h1
  omega

/-- Such a submit exists: 13 recipients. -/
example : Spec.major ({ exampleSubmit2 with hdr := ⟨12 + 126 + 273 + 2, 4, 77⟩, destUsrTl := 13, termIds := zeros 273 } : Submit).version ≠ 3 ∧
    Spec.Cmpp.SubmitOk { exampleSubmit2 with hdr := ⟨12 + 126 + 273 + 2, 4, 77⟩, destUsrTl := 13, termIds := zeros 273 } :=
  ⟨by decide, ⟨by simp only [zeros, List.length_replicate]; decide, by decide,
    by simp only [length_submitBody, zeros, List.length_replicate]; decide⟩⟩

/-! ## C40, CMPP part -/

/-- Over-long strings: in both versions every string field is cut to its slot and every other field
arrives unchanged. (`submitReceived` lists the fields.) -/
theorem cmpp_submit_overlong_isolated (s : Submit) (spare : Bytes) (hok : Spec.Cmpp.SubmitOk s)
    (hwrap : Spec.major s.version = 3 ∨ s.destUsrTl.toNat ≤ 12) (hplain : Spec.Cmpp.Plain s.msgContent) :
    ∃ frame, s.encode = some frame ∧
      recv (Submit.decode s.version) frame spare = some (Spec.Cmpp.submitReceived s) := by
  obtain ⟨h1, h2⟩ := submit_recv s spare s.msgContent hok hwrap (decodedContent_plain hplain)
  exact ⟨_, h1, h2⟩

/-- An over-long service id does not change what arrives in any other field. -/
example : (Spec.Cmpp.submitReceived { exampleSubmit3 with serviceId := ascii "01234567890123" }) =
    { Spec.Cmpp.submitReceived exampleSubmit3 with serviceId := ascii "0123456789" } := by
  decide

/-! ## NewSubmit: C22 and the recipients -/

theorem layout_phones (w : Nat) (phones : List Bytes) (p : Nat) :
    layout (phones.map fun x => .str w x) p = phones.flatMap (pad w) := by
  induction phones generalizing p with
  | nil => rfl
  | cons a l ih => simp [layout, WOp.out, ih, List.flatMap_cons]

theorem allOk_phones (w : Nat) (phones : List Bytes) (p : Nat) :
    AllOk (phones.map fun x => .str w x) p := by
  induction phones generalizing p with
  | nil => trivial
  | cons a l ih => exact ⟨trivial, ih _⟩

theorem length_flatMap_pad (w : Nat) (phones : List Bytes) :
    (phones.flatMap (pad w)).length = w * phones.length := by
  induction phones with
  | nil => rfl
  | cons a l ih => rw [List.flatMap_cons, List.length_append, ih, length_pad, List.length_cons, Nat.mul_succ]; omega

theorem fillTermIds_eq (w : Nat) (phones : List Bytes) (h : phones.length ≤ 255) :
    fillTermIds w (UInt8.ofNat phones.length) phones = some (phones.flatMap (pad w)) := by
  have hn : (UInt8.ofNat phones.length).toNat = phones.length := u8_ofNat_toNat (by omega)
  unfold fillTermIds
  have := runW_layout (phones.map fun x => .str w x) [] (w * (UInt8.ofNat phones.length).toNat)
    (allOk_phones w phones _) (by rw [layout_phones, length_flatMap_pad, hn]; omega)
  simp only [List.nil_append, List.length_nil] at this
  rw [this, layout_phones, length_flatMap_pad, hn]
  simp

/-- `NewSubmit` succeeds for up to 255 recipients, and every packet it returns (one per slice) is
consistent: right declared length, all recipients in order, each in its slot, one slice of the text as
content, in order; the first packet has the given sequence number. -/
theorem cmpp_newSubmit (ac : AuthConf) (phones : List Bytes) (content : Bytes) (seq : UInt32)
    (opts : List OptionFunc) (g : UInt8) (expiry : Clock) (seqs : Nat → UInt32)
    (hp : phones.length ≤ 255) :
    ∃ msgs slices, newSubmit ac phones content seq opts g expiry seqs = some msgs ∧
      msgSlices g (Gosms.msgFmt content) content = some slices ∧
      msgs.length = slices.length ∧
      ∀ i (hi : i < msgs.length) (hs : i < slices.length),
        Spec.Cmpp.SubmitOk msgs[i] ∧
        msgs[i].version = ac.version ∧ msgs[i].hdr.commandId = 4 ∧
        msgs[i].hdr.sequenceId = (if i = 0 then seq else seqs i) ∧
        msgs[i].termIds = phones.flatMap (pad (Spec.Cmpp.numberWidth ac.version)) ∧
        msgs[i].destUsrTl.toNat = phones.length ∧
        msgs[i].msgContent = slices[i] ∧ msgs[i].msgFmt = Gosms.msgFmt content ∧
        msgs[i].pkTotal = UInt8.ofNat slices.length ∧ msgs[i].pkNumber = UInt8.ofNat (i + 1) ∧
        msgs[i].tpUdhi = (if slices.length = 1 then 0 else 1) ∧
        msgs[i].msgSrc = ac.smsDisplayNo ∧ msgs[i].destTerminalType = 0 ∧ msgs[i].tpPid = 0 := by
  obtain ⟨slices, hsl, hfit⟩ := msgSlices_fit g (Gosms.msgFmt content) content
  have hn : (UInt8.ofNat phones.length).toNat = phones.length := u8_ofNat_toNat (by omega)
  have hw : (if v3 ac.version = true then 32 else 21) = Spec.Cmpp.numberWidth ac.version := by
    unfold Spec.Cmpp.numberWidth
    by_cases h : v3 ac.version = true
    · simp [h, (v3_iff _).1 h]
    · have h' : ¬ Spec.major ac.version = 3 := fun e => h ((v3_iff _).2 e)
      simp [h, h']
  have hbase : (if v3 ac.version = true then 163 else 138) =
      12 + (if Spec.major ac.version = 3 then 151 else 126) := by
    by_cases h : v3 ac.version = true
    · simp [h, (v3_iff _).1 h]
    · have h' : ¬ Spec.major ac.version = 3 := fun e => h ((v3_iff _).2 e)
      simp [h, h']
  have hwle : Spec.Cmpp.numberWidth ac.version ≤ 32 := by
    unfold Spec.Cmpp.numberWidth; split <;> omega
  have hslen : ∀ s ∈ slices, s.length ≤ 160 := fun s hs => by
    have := hfit s hs; split at this <;> omega
  -- the packets, for any record with the right recipients and content
  have hOk : ∀ (m : Submit) (s : Bytes), s ∈ slices → m.version = ac.version →
      m.termIds = phones.flatMap (pad (Spec.Cmpp.numberWidth ac.version)) →
      m.destUsrTl = UInt8.ofNat phones.length → m.msgContent = s → m.msgLength = UInt8.ofNat s.length →
      m.hdr.totalLength = UInt32.ofNat (12 + (if Spec.major ac.version = 3 then 151 else 126) +
        (phones.flatMap (pad (Spec.Cmpp.numberWidth ac.version))).length + s.length) →
      Spec.Cmpp.SubmitOk m := by
    intro m s hs h1 h2 h3 h4 h5 h6
    have hl := hslen s hs
    refine ⟨?_, ?_, ?_⟩
    · rw [h2, h3, hn, h1, length_flatMap_pad]
    · rw [h4, h5, u8_ofNat_toNat (by omega)]
    · rw [h6, length_submitBody, h1, h2, h4, length_flatMap_pad, UInt32.toNat_ofNat']
      have : Spec.Cmpp.numberWidth ac.version * phones.length ≤ 32 * 255 :=
        Nat.mul_le_mul hwle hp
      split <;> omega
  have hfill := fillTermIds_eq (Spec.Cmpp.numberWidth ac.version) phones hp
  unfold newSubmit
  simp only [setOptions, hw, hbase, hfill, Option.bind_some, hsl, Option.map_some]
  match hsls : slices with
  | [] =>
    exact ⟨_, _, rfl, rfl, by simp, fun i hi => by simp at hi⟩
  | [s] =>
    refine ⟨_, _, rfl, rfl, by simp, fun i hi hs => ?_⟩
    simp only [List.length_singleton] at hi
    have : i = 0 := by omega
    subst this
    refine ⟨hOk _ s (by simp) rfl rfl rfl rfl rfl rfl, ?_⟩
    simp [hn]
    decide
  | s1 :: s2 :: rest =>
    refine ⟨_, _, rfl, rfl, by simp, fun i hi hs => ?_⟩
    simp only [List.getElem_mapIdx]
    refine ⟨hOk _ _ (List.getElem_mem hs) rfl rfl rfl rfl rfl rfl, ?_⟩
    by_cases h0 : i = 0 <;> simp [h0, hn] <;> decide

/-- With more than 255 recipients `NewSubmit` panics. -/
theorem cmpp_newSubmit_too_many (ac : AuthConf) (phones : List Bytes) (content : Bytes) (seq : UInt32)
    (opts : List OptionFunc) (g : UInt8) (expiry : Clock) (seqs : Nat → UInt32)
    (hp : 255 < phones.length) :
    newSubmit ac phones content seq opts g expiry seqs = none := by
  have key : ∀ (w : Nat), ∀ (ps : List Bytes) (f : Bytes) (i : Nat), ps ≠ [] →
      f.length < i + w * ps.length → runW (ps.map fun x => .str w x) f i = none := by
    intro w ps
    induction ps with
    | nil => intro f i h; exact absurd rfl h
    | cons a l ih =>
      intro f i _ h
      simp only [List.map_cons, runW, WOp.exec]
      by_cases hi : i + w ≤ f.length
      · rw [if_pos hi, Option.bind_some]
        rw [List.length_cons, Nat.mul_succ] at h
        refine ih _ _ ?_ ?_
        · rintro rfl; simp at h; omega
        · have : (overwrite f i (List.take w a)).length = f.length := by
            simp only [overwrite, List.length_append, List.length_take, List.length_drop]
            omega
          show (overwrite f i (List.take w a)).length < _
          omega
      · rw [if_neg hi, Option.bind_none]
  have hfill : ∀ w, 0 < w → fillTermIds w (UInt8.ofNat phones.length) phones = none := by
    intro w hw
    unfold fillTermIds
    rw [key w phones _ _ (by rintro rfl; simp at hp) ?_]
    · rfl
    · have h1 : (UInt8.ofNat phones.length).toNat < phones.length := by
        have := (UInt8.ofNat phones.length).toNat_lt; omega
      have := Nat.mul_lt_mul_of_pos_left h1 hw
      simpa using this
  unfold newSubmit
  simp only [setOptions]
  rw [hfill _ (by split <;> omega)]
  rfl

/-! ## C66, CMPP part -/

/-- The parts of a long CMPP message number themselves 1..n twice, in the packet and in the concatenation
header of the content, and the two agree: the same total, the same number, one reference for all parts.
(The fields are bytes; up to 255 parts the numbers are exact.) -/
theorem cmpp_part_numbers (ac : AuthConf) (phones : List Bytes) (content : Bytes) (seq : UInt32)
    (opts : List OptionFunc) (g : UInt8) (expiry : Clock) (seqs : Nat → UInt32) (hp : phones.length ≤ 255) :
    ∃ msgs, newSubmit ac phones content seq opts g expiry seqs = some msgs ∧ 1 ≤ msgs.length ∧
      ∀ i (hi : i < msgs.length),
        msgs[i].pkTotal = UInt8.ofNat msgs.length ∧ msgs[i].pkNumber = UInt8.ofNat (i + 1) ∧
        (msgs.length ≤ 255 → msgs[i].pkTotal.toNat = msgs.length ∧ msgs[i].pkNumber.toNat = i + 1) ∧
        (msgs.length = 1 → msgs[i].tpUdhi = 0) ∧
        (2 ≤ msgs.length → msgs[i].tpUdhi = 1 ∧ ∃ u, Spec.parseUdh msgs[i].msgContent = some u ∧
          u.ref = g ∧ u.total = msgs[i].pkTotal ∧ u.number = msgs[i].pkNumber) := by
  obtain ⟨msgs, slices, h1, h2, h3, h4⟩ := cmpp_newSubmit ac phones content seq opts g expiry seqs hp
  have key : ∀ (c : Bytes) (pkg : Nat), 6 < pkg → toTPUDHISlices g c pkg = some slices →
      1 ≤ slices.length ∧ (2 ≤ slices.length → ∀ i (hi : i < slices.length),
        ∃ u, Spec.parseUdh slices[i] = some u ∧ u.ref = g ∧ u.total = UInt8.ofNat slices.length ∧
          u.number = UInt8.ofNat (i + 1)) := by
    intro c pkg hpkg hsl
    by_cases hc : c.length < pkg
    · rw [short_message_unchanged g c pkg hc] at hsl
      obtain rfl := Option.some.inj hsl
      exact ⟨by simp, fun h => absurd h (by simp)⟩
    · obtain ⟨sl, k1, k2, k3⟩ := long_message_slices_wellformed g c pkg hpkg (by omega)
      rw [hsl] at k1
      obtain rfl := Option.some.inj k1
      refine ⟨?_, fun _ i hi => ?_⟩
      · rw [k2]
        exact (Nat.le_div_iff_mul_le (by omega)).2 (by omega)
      · obtain ⟨_, t, n, b, e1, e2, e3, _⟩ := k3 i hi
        exact ⟨_, e1, rfl, e2, e3⟩
  have key : 1 ≤ slices.length ∧ (2 ≤ slices.length → ∀ i (hi : i < slices.length),
        ∃ u, Spec.parseUdh slices[i] = some u ∧ u.ref = g ∧ u.total = UInt8.ofNat slices.length ∧
          u.number = UInt8.ofNat (i + 1)) := by
    unfold msgSlices at h2
    split at h2
    · exact key _ 140 (by decide) h2
    · exact key _ 160 (by decide) h2
  refine ⟨msgs, h1, by omega, fun i hi => ?_⟩
  obtain ⟨_, _, _, _, _, _, hc, _, ht, hn, hu, _⟩ := h4 i hi (by omega)
  rw [h3]
  refine ⟨ht, hn, fun h => ?_, fun h => ?_, fun h => ?_⟩
  · rw [ht, hn]
    exact ⟨u8_ofNat_toNat (by omega), u8_ofNat_toNat (by omega)⟩
  · rw [hu, if_pos h]
  · refine ⟨by rw [hu, if_neg (by omega)], ?_⟩
    obtain ⟨u, e1, e2, e3, e4⟩ := key.2 h i (by omega)
    exact ⟨u, by rw [hc]; exact e1, e2, by rw [e3, ht], by rw [e4, hn]⟩

/-- A text of 400 ASCII letters needs three packets. -/
example : (sliceCount (List.replicate 400 (0x61 : UInt8)).length 154) = 3 := by
  rw [List.length_replicate]; decide

end Gosms.Cmpp
