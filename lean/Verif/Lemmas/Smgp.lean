import Verif.Spec.Smgp
import Verif.Lemmas.Cmpp
import Verif.Props.Tlv
import Verif.Props.CmppSubmit

/-!
# Lemmas for the SMGP codec
-/

namespace Gosms.Smgp
open Gosms.Rd

theorem majorMatch_iff (a b : UInt8) : majorMatch a b = true ↔ Spec.major a = Spec.major b :=
  Cmpp.majorMatch_iff a b

theorem login_reads (l : Login) (seq : UInt32) (h16 : l.authenticatorClient.length = 16) (Q : Bytes) :
    Login.decode seq ⟨Spec.Smgp.loginBody l ++ Q, 30⟩ =
      some { l with hdr := ⟨42, LOGIN, seq⟩, clientID := pad 8 l.clientID, secret := [] } := by
  unfold Login.decode Spec.Smgp.loginBody
  refine reads_length_then ?_ Q (by simp)
  simp only [List.flatten_cons, List.flatten_nil]
  refine reads_bind (o1 := []) (reads_seek rfl) ?_
  refine reads_bind (reads_slice (by simp)) ?_
  refine reads_bind (o1 := []) (reads_seek (by simp)) ?_
  rw [pad_eq_self h16]
  refine reads_bind (reads_slice h16) ?_
  refine reads_bind (o1 := []) (reads_seek (by simp [h16])) ?_
  refine reads_bind (reads_byte _) ?_
  refine reads_bind (o1 := []) (reads_seek (by simp [h16])) ?_
  refine reads_bind (reads_u32 _) ?_
  refine reads_bind (o1 := []) (reads_seek (by simp [h16])) ?_
  refine reads_bind (reads_byte _) ?_
  exact reads_pure _

theorem login_encode (l : Login) (hl : l.hdr.totalLength = 42) :
    l.encode = some (Spec.header12 42 l.hdr.commandId l.hdr.sequenceId ++ Spec.Smgp.loginBody l) := by
  have h42 : l.hdr.totalLength.toNat = 42 := by rw [hl]; rfl
  unfold Login.encode
  have hcl : l.hdr.clamp = l.hdr := clamp_of_le (by omega)
  have henc := header_encode l.hdr
  have key := encodeWith_exact l.hdr [.seek 12, .str 8 l.clientID, .seek 20, .str 16 l.authenticatorClient,
        .seek 36, .byte l.loginMode, .seek 37, .str 4 (be32 l.timestamp), .seek 41, .byte l.version]
        (Spec.Smgp.loginBody l)
        (by simp [layout, WOp.out, Spec.Smgp.loginBody, pad_eq_self])
        (by simp [AllOk, WOp.Ok, WOp.out])
        (by simp [Spec.Smgp.loginBody, h42])
  unfold encodeWith at key
  rw [henc] at key ⊢
  simp only [Option.bind_some] at key ⊢
  rw [if_pos, key, hl]
  constructor
  · simp [hcl, h42]
  · rw [hcl, hl]

theorem loginRsp_encode (r : LoginRsp) (hl : r.hdr.totalLength = 33) :
    r.encode = some (Spec.header12 33 r.hdr.commandId r.hdr.sequenceId ++ Spec.Smgp.loginRspBody r) := by
  unfold LoginRsp.encode
  rw [← hl]
  exact encodeWith_exact _ _ _ (by simp [layout, WOp.out, Spec.Smgp.loginRspBody, pad_eq_self])
    (by simp [AllOk, WOp.Ok]) (by rw [hl]; simp [Spec.Smgp.loginRspBody])

theorem loginRsp_reads (r : LoginRsp) (seq : UInt32) (h16 : r.authenticatorServer.length = 16) (Q : Bytes) :
    LoginRsp.decode seq ⟨Spec.Smgp.loginRspBody r ++ Q, 21⟩ =
      some { r with hdr := ⟨33, LOGIN_RESP, seq⟩ } := by
  unfold LoginRsp.decode Spec.Smgp.loginRspBody
  refine reads_length_then ?_ Q (by simp)
  simp only [List.flatten_cons, List.flatten_nil]
  refine reads_bind (o1 := []) (reads_seek rfl) ?_
  refine reads_bind (reads_u32 _) ?_
  refine reads_bind (o1 := []) (reads_seek (by simp)) ?_
  rw [pad_eq_self h16]
  refine reads_bind (reads_slice h16) ?_
  refine reads_bind (reads_byte _) ?_
  exact reads_pure _

theorem rsp_encode (r : Rsp) (hl : r.hdr.totalLength = 26) :
    r.encode = some (Spec.header12 26 r.hdr.commandId r.hdr.sequenceId ++ Spec.Smgp.rspBody r) := by
  unfold Rsp.encode
  rw [← hl]
  exact encodeWith_exact _ _ _ (by simp [layout, WOp.out, Spec.Smgp.rspBody, pad_eq_self])
    (by simp [AllOk, WOp.Ok]) (by rw [hl]; simp [Spec.Smgp.rspBody])

theorem rsp_reads (cmd : UInt32) (r : Rsp) (seq : UInt32) (h10 : r.msgId.length = 10) (Q : Bytes) :
    Rsp.decode cmd r.version seq ⟨Spec.Smgp.rspBody r ++ Q, 14⟩ =
      some { r with hdr := ⟨26, cmd, seq⟩ } := by
  unfold Rsp.decode Spec.Smgp.rspBody
  refine reads_length_then ?_ Q (by simp)
  simp only [List.flatten_cons, List.flatten_nil]
  refine reads_bind (o1 := []) (reads_seek rfl) ?_
  rw [pad_eq_self h10]
  refine reads_bind (reads_slice h10) ?_
  refine reads_bind (o1 := []) (reads_seek (by simp [h10])) ?_
  refine reads_bind (reads_u32 _) ?_
  exact reads_pure _

/-! ## submit -/

theorem strippedContent_plain {c : Bytes} (h : Spec.Cmpp.Plain c) : strippedContent c = some c := by
  obtain ⟨h1, h2⟩ := h
  match c with
  | [] => exact absurd List.nil_prefix h1
  | [a] =>
    by_cases ha : a = 0x05
    · subst ha; exact absurd ⟨[0x00, 0x03], rfl⟩ h1
    · simp [strippedContent, ha]
  | [a, b] =>
    by_cases ha : a = 0x05
    · by_cases hb : b = 0x00
      · subst ha hb; exact absurd ⟨[0x03], rfl⟩ h1
      · simp [strippedContent, hb]
    · simp [strippedContent, ha]
  | a :: b :: d :: r =>
    by_cases ha : a = 0x05
    · by_cases hb : b = 0x00
      · by_cases hd : d = 0x03
        · subst ha hb hd; exact absurd ⟨r, rfl⟩ h2
        · simp [strippedContent, hd]
      · simp [strippedContent, hb]
    · simp [strippedContent, ha]

theorem strippedContent_udh (g t n : UInt8) (body : Bytes) :
    strippedContent (Spec.udhHeader g t n ++ body) = some body := by
  simp [strippedContent, Spec.udhHeader]

theorem length_submitBody (s : Submit) (tlvs : List (UInt16 × Bytes)) :
    (Spec.Smgp.submitBody s tlvs).length =
      114 + 21 * s.destTermID.length + s.msgContent.length + (Spec.tlvsWire tlvs).length := by
  have := Cmpp.length_flatMap_pad 21 s.destTermID
  simp [Spec.Smgp.submitBody, -List.length_flatMap]
  omega

theorem layout_append (a b : List WOp) (p : Nat) :
    layout (a ++ b) p = layout a p ++ layout b (p + (layout a p).length) := by
  induction a generalizing p with
  | nil => simp [layout]
  | cons op a ih => simp [layout, ih, Nat.add_assoc]

theorem allOk_append (a b : List WOp) (p : Nat) :
    AllOk (a ++ b) p ↔ AllOk a p ∧ AllOk b (p + (layout a p).length) := by
  induction a generalizing p with
  | nil => simp [layout, AllOk]
  | cons op a ih => simp [layout, AllOk, ih, Nat.add_assoc, and_assoc]

theorem reads_tlvTail {p len : Nat} (l : List (UInt16 × Bytes)) (hl : ∀ tv ∈ l, tv.2.length < 65536)
    (h : p + (Spec.tlvsWire l).length = len) :
    Reads p (tlvTail len) (Spec.tlvsWire l) (some (tlvBuild l)) := by
  intro P Q n hP hn
  have := reads_tail h P Q n hP hn
  unfold tlvTail
  rw [if_pos (by omega), this]
  show some (some (tlvRead (Spec.tlvsWire l)).1, _) = _
  rw [(tlv_list_roundtrip l hl).2.1]

theorem submit_encode (s : Submit) (tlvs : List (UInt16 × Bytes)) (hok : Spec.Smgp.SubmitOk s tlvs)
    (htl : (s.tlvList = none ∧ tlvs = []) ∨
      (s.tlvList = some (tlvBuild tlvs) ∧ ∀ tv ∈ tlvs, tv.2.length < 65536)) :
    s.encode = some (Spec.header12 s.hdr.totalLength s.hdr.commandId s.hdr.sequenceId ++
      Spec.Smgp.submitBody s tlvs) := by
  unfold Submit.encode
  rw [if_neg (by simpa using hok.recipients)]
  have hc : pad s.msgLength.toNat s.msgContent = s.msgContent := pad_eq_self hok.content
  rcases htl with ⟨h, rfl⟩ | ⟨h, hlt⟩
  · rw [h]
    refine encodeWith_exact _ _ _ ?_ ?_ hok.total
    · simp [layout, layout_append, Cmpp.layout_phones, WOp.out, Spec.Smgp.submitBody, hc, Spec.tlvsWire]
    · simp [AllOk, allOk_append, Cmpp.allOk_phones, WOp.Ok]
  · rw [h]
    simp only [(tlv_list_roundtrip tlvs hlt).1]
    refine encodeWith_exact _ _ _ ?_ ?_ hok.total
    · simp [layout, layout_append, Cmpp.layout_phones, WOp.out, Spec.Smgp.submitBody, hc, pad_self]
    · simp [AllOk, allOk_append, Cmpp.allOk_phones, WOp.Ok]

theorem submit_reads (gbDec : Bytes → Option Bytes) (s : Submit) (tlvs : List (UInt16 × Bytes))
    (seq : UInt32) (Q c : Bytes) (hok : Spec.Smgp.SubmitOk s tlvs) (hlt : ∀ tv ∈ tlvs, tv.2.length < 65536)
    (hc : strippedContent s.msgContent = some c) :
    Submit.decode gbDec s.version seq
        ⟨Spec.Smgp.submitBody s tlvs ++ Q, (Spec.Smgp.submitBody s tlvs).length⟩ =
      some { Spec.Smgp.submitReceived s ((gbDec c).getD []) with
        hdr := ⟨12 + UInt32.ofNat (Spec.Smgp.submitBody s tlvs).length, SUBMIT, seq⟩
        tlvList := some (tlvBuild tlvs) } := by
  have hrec := hok.recipients
  have hcon := hok.content
  have hlen := length_submitBody s tlvs
  have hph := Cmpp.length_flatMap_pad 21 s.destTermID
  unfold Submit.decode
  refine reads_length_then ?_ Q (Nat.le_refl _)
  rw [hlen]
  unfold Spec.Smgp.submitBody
  simp only [List.flatten_cons, List.flatten_nil]
  refine reads_bind (reads_byte _) ?_
  refine reads_bind (reads_byte _) ?_
  refine reads_bind (reads_byte _) ?_
  refine reads_bind (reads_str _) ?_
  refine reads_bind (reads_str _) ?_
  refine reads_bind (reads_str _) ?_
  refine reads_bind (reads_str _) ?_
  refine reads_bind (reads_byte _) ?_
  refine reads_bind (reads_str _) ?_
  refine reads_bind (reads_str _) ?_
  refine reads_bind (reads_str _) ?_
  refine reads_bind (reads_str _) ?_
  refine reads_bind (reads_byte _) ?_
  rw [← hrec]
  refine reads_bind (reads_times (enc := pad 21) (val := Spec.slot 21) (fun b p => reads_str b) s.destTermID _) ?_
  refine reads_bind (reads_byte _) ?_
  refine reads_bind (reads_slice hcon) ?_
  refine reads_bind (o1 := []) (reads_lift hc) ?_
  refine reads_bind (reads_str _) ?_
  refine reads_bind (reads_tlvTail tlvs hlt (by simp [hph, -List.length_flatMap]; omega)) ?_
  exact reads_pure _

/-! ## report, deliver -/

theorem length_hexBytes (b : Bytes) : (hexBytes b).length = 2 * b.length := by
  induction b with
  | nil => rfl
  | cons a b ih =>
    show (hexLoop a.toNat 1 ++ hexBytes b).length = _
    rw [List.length_append, ih, List.length_cons]
    have : (hexLoop a.toNat 1).length = 2 := rfl
    omega

theorem length_reportBody {r : Report} (h : Spec.Smgp.ReportFits r) :
    (Spec.Smgp.reportBody r).length = 122 := by
  simp only [Spec.Smgp.reportBody, List.length_flatten, List.map_cons, List.map_nil, h.id, h.sub, h.dlvrd,
    h.submitDate, h.doneDate, h.stat, h.err, length_zeros]
  decide

theorem report_encode (r : Report) (h : Spec.Smgp.ReportFits r) :
    r.encode = some (Spec.Smgp.reportBody r) := by
  have hhex := length_hexBytes r.id
  rw [h.id] at hhex
  have hpre : (ascii "id:" ++ hexBytes r.id).length = 23 := by
    rw [List.length_append, hhex]; rfl
  obtain ⟨rest, hrest⟩ : ∃ rest : Bytes, rest = ascii " sub:" ++ (r.sub ++ (ascii " dlvrd:" ++ (r.dlvrd ++
    (ascii " submit date:" ++ (r.submitDate ++ (ascii " done date:" ++ (r.doneDate ++
    (ascii " stat:" ++ (r.stat ++ (ascii " err:" ++ (r.err ++ ascii " text:"))))))))))) := ⟨_, rfl⟩
  have hlen : rest.length = 89 := by
    rw [hrest]
    simp only [List.length_append, h.sub, h.dlvrd, h.submitDate, h.doneDate, h.stat, h.err]
    decide
  have hs : r.string = (ascii "id:" ++ hexBytes r.id) ++ (rest ++ hexBytes r.txt) := by
    rw [hrest]; simp [Report.string]
  have hd : r.string.drop 23 = rest ++ hexBytes r.txt := by
    rw [hs, ← hpre, List.drop_left]
  have hl : ¬ r.string.length < 23 := by rw [hs, List.length_append, hpre]; omega
  have hb : Spec.Smgp.reportBody r = ascii "id:" ++ (r.id ++ (rest ++ zeros 20)) := by
    rw [hrest]; simp [Spec.Smgp.reportBody]
  have hp : pad 89 (rest ++ hexBytes r.txt) = rest := by
    rw [pad, ← hlen, List.take_left]
    simp [zeros]
  unfold Report.encode
  rw [if_neg hl, hd]
  have := runW_layout [.str 3 (ascii "id:"), .str 10 r.id, .str 89 (rest ++ hexBytes r.txt)] [] 122
    (by simp [AllOk, WOp.Ok]) (by simp [layout, WOp.out])
  simp only [List.nil_append, List.length_nil] at this
  rw [this, hb]
  simp only [layout, WOp.out, hp, pad_eq_self h.id, (by decide : pad 3 (ascii "id:") = ascii "id:"),
    Option.map_some, List.length_append, h.id, hlen, List.append_nil]
  simp
  decide

theorem report_reads (r : Report) (h : Spec.Smgp.ReportFits r) (Q : Bytes) :
    Rd.run reportDecode ⟨Spec.Smgp.reportBody r ++ Q, 122⟩ = some { r with txt := [] } := by
  unfold reportDecode Spec.Smgp.reportBody
  have e : ascii " text:" ++ (zeros 20 ++ ([] : Bytes)) = ascii " text:" ++ zeros 20 := by simp
  simp only [List.flatten_cons, List.flatten_nil, e]
  have e2 : ∀ X : Bytes, ascii "id:" ++ (r.id ++ (ascii " sub:" ++ (r.sub ++ (ascii " dlvrd:" ++ (r.dlvrd ++
    (ascii " submit date:" ++ (r.submitDate ++ (ascii " done date:" ++ (r.doneDate ++
    (ascii " stat:" ++ (r.stat ++ (ascii " err:" ++ (r.err ++ X))))))))))))) ++ Q =
    ascii "id:" ++ (r.id ++ (ascii " sub:" ++ (r.sub ++ (ascii " dlvrd:" ++ (r.dlvrd ++
    (ascii " submit date:" ++ (r.submitDate ++ (ascii " done date:" ++ (r.doneDate ++
    (ascii " stat:" ++ (r.stat ++ (ascii " err:" ++ (r.err ++ []))))))))))))) ++ (X ++ Q) := by
    intro X; simp
  rw [e2]
  refine run_of_reads ?_ _ 122 ?_
  · refine reads_bind (reads_skip (o := ascii "id:") rfl) ?_
    refine reads_bind (reads_slice h.id) ?_
    refine reads_bind (reads_skip (o := ascii " sub:") rfl) ?_
    refine reads_bind (reads_slice h.sub) ?_
    refine reads_bind (reads_skip (o := ascii " dlvrd:") rfl) ?_
    refine reads_bind (reads_slice h.dlvrd) ?_
    refine reads_bind (reads_skip (o := ascii " submit date:") rfl) ?_
    refine reads_bind (reads_slice h.submitDate) ?_
    refine reads_bind (reads_skip (o := ascii " done date:") rfl) ?_
    refine reads_bind (reads_slice h.doneDate) ?_
    refine reads_bind (reads_skip (o := ascii " stat:") rfl) ?_
    refine reads_bind (reads_slice h.stat) ?_
    refine reads_bind (reads_skip (o := ascii " err:") rfl) ?_
    refine reads_bind (reads_slice h.err) ?_
    exact reads_pure _
  · simp only [List.length_append, h.id, h.sub, h.dlvrd, h.submitDate, h.doneDate, h.stat, h.err,
      List.length_nil]
    decide

theorem length_deliverBody (d : Delivery) (c : Bytes) :
    (Spec.Smgp.deliverBody d c).length = 77 + c.length := by
  simp [Spec.Smgp.deliverBody]; omega

theorem deliver_encode_text (d : Delivery) (hr : d.isReport ≠ 1)
    (hc : d.msgBytes.length = d.msgLength.toNat)
    (hl : d.hdr.totalLength.toNat = 89 + d.msgLength.toNat) :
    d.encode = some (Spec.header12 d.hdr.totalLength d.hdr.commandId d.hdr.sequenceId ++
      Spec.Smgp.deliverBody d d.msgBytes) := by
  have hb : (d.isReport == 1) = false := by simpa using hr
  unfold Delivery.encode
  simp only [hb]
  refine encodeWith_exact _ _ _ ?_ ?_ ?_
  · simp [layout, WOp.out, Spec.Smgp.deliverBody, pad_eq_self hc]
  · simp [AllOk, WOp.Ok]
  · rw [length_deliverBody, hl, hc]; omega

theorem deliver_encode_report (d : Delivery) (r : Report) (hr : d.isReport = 1) (h : d.report = some r)
    (hf : Spec.Smgp.ReportFits r) (hl : d.hdr.totalLength.toNat = 211) :
    d.encode = some (Spec.header12 d.hdr.totalLength d.hdr.commandId d.hdr.sequenceId ++
      Spec.Smgp.deliverBody d (Spec.Smgp.reportBody r)) := by
  have hb : (d.isReport == 1) = true := by simpa using hr
  unfold Delivery.encode
  simp only [hb, h, report_encode r hf, Option.bind_some]
  refine encodeWith_exact _ _ _ ?_ ?_ ?_
  · simp [layout, WOp.out, Spec.Smgp.deliverBody, pad_eq_self (length_reportBody hf)]
  · simp [AllOk, WOp.Ok]
  · rw [length_deliverBody, hl, length_reportBody hf]

theorem deliver_reads_text (gbDec : Bytes → Option Bytes) (d : Delivery) (seq : UInt32) (Q : Bytes)
    (hr : d.isReport ≠ 1) (hid : d.msgId.length = 10) (hc : d.msgBytes.length = d.msgLength.toNat) :
    Delivery.decode gbDec d.version seq
        ⟨Spec.Smgp.deliverBody d d.msgBytes ++ Q, (Spec.Smgp.deliverBody d d.msgBytes).length⟩ =
      some ((gbDec d.msgBytes).map fun t =>
        { Spec.Smgp.deliverReceived d with
          msgContent := t
          report := none
          hdr := ⟨12 + UInt32.ofNat (Spec.Smgp.deliverBody d d.msgBytes).length, DELIVER, seq⟩ }) := by
  have hsplit : Spec.Smgp.deliverBody d d.msgBytes ++ Q =
      [pad 10 d.msgId, [d.isReport], [d.msgFormat], pad 14 d.recvTime, pad 21 d.srcTermID,
       pad 21 d.destTermID, [d.msgLength], d.msgBytes].flatten ++ (pad 8 d.reserve ++ Q) := by
    simp [Spec.Smgp.deliverBody]
  rw [hsplit]
  unfold Delivery.decode deliverContent
  refine reads_length_then ?_ _ (by rw [length_deliverBody]; simp; omega)
  simp only [List.flatten_cons, List.flatten_nil]
  rw [pad_eq_self hid]
  refine reads_bind (reads_slice hid) ?_
  refine reads_bind (reads_byte _) ?_
  refine reads_bind (reads_byte _) ?_
  refine reads_bind (reads_str _) ?_
  refine reads_bind (reads_str _) ?_
  refine reads_bind (reads_str _) ?_
  refine reads_bind (reads_byte _) ?_
  rw [if_neg hr]
  refine reads_bind (o2 := []) (o1 := d.msgBytes) ?_ (reads_done ?_) (a := (gbDec d.msgBytes).map fun t => (none, t))
  · rw [← List.append_nil d.msgBytes]
    exact reads_bind (by simpa using reads_slice hc) (reads_pure _)
  · rw [Option.map_map]; rfl

theorem deliver_reads_report (gbDec : Bytes → Option Bytes) (d : Delivery) (r : Report) (seq : UInt32)
    (Q : Bytes) (hr : d.isReport = 1) (hid : d.msgId.length = 10) (hf : Spec.Smgp.ReportFits r) :
    Delivery.decode gbDec d.version seq
        ⟨Spec.Smgp.deliverBody d (Spec.Smgp.reportBody r) ++ Q, 199⟩ =
      some (some { Spec.Smgp.deliverReceived d with
          msgContent := []
          report := some { r with txt := [] }
          hdr := ⟨211, DELIVER, seq⟩ }) := by
  have hlb := length_reportBody hf
  have hsplit : Spec.Smgp.deliverBody d (Spec.Smgp.reportBody r) ++ Q =
      [pad 10 d.msgId, [d.isReport], [d.msgFormat], pad 14 d.recvTime, pad 21 d.srcTermID,
       pad 21 d.destTermID, [d.msgLength], Spec.Smgp.reportBody r ++ []].flatten ++ (pad 8 d.reserve ++ Q) := by
    simp [Spec.Smgp.deliverBody]
  rw [hsplit]
  unfold Delivery.decode deliverContent
  refine reads_length_then ?_ _ (by simp [hlb])
  simp only [List.flatten_cons, List.flatten_nil]
  rw [pad_eq_self hid]
  refine reads_bind (reads_slice hid) ?_
  refine reads_bind (reads_byte _) ?_
  refine reads_bind (reads_byte _) ?_
  refine reads_bind (reads_str _) ?_
  refine reads_bind (reads_str _) ?_
  refine reads_bind (reads_str _) ?_
  refine reads_bind (reads_byte _) ?_
  rw [if_pos hr]
  refine reads_bind (o2 := []) (o1 := Spec.Smgp.reportBody r ++ []) ?_ (reads_done rfl)
    (a := some (some { r with txt := [] }, []))
  refine reads_sub_bind hlb fun rest => ?_
  exact reads_bind (o1 := []) (reads_lift (report_reads r hf rest)) (reads_pure _)

end Gosms.Smgp
