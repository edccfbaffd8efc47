import Verif.Model.Sgip
import Verif.Spec.Sgip
import Verif.Lemmas.Smgp

/-!
# Lemmas about the SGIP encoders and decoders
-/

namespace Gosms

theorem Rd.reads_u32Tail {p : Nat} (x : UInt32) : Rd.Reads p Rd.u32Tail (be32 x) x := by
  intro P Q len hP h
  have h4 : p + 4 ≤ len := by simpa using h
  unfold Rd.u32Tail
  rw [if_pos h4]
  exact Rd.reads_u32 x P Q len hP h

theorem unpackHead_header20 (l c s0 s1 s2 : UInt32) (body : Bytes) :
    unpackHead (Spec.header20 l c s0 s1 s2 ++ body) = (l, c, s0) := by
  have e : Spec.header20 l c s0 s1 s2 ++ body =
      Spec.header12 l c s0 ++ (be32 s1 ++ (be32 s2 ++ body)) := by
    simp [Spec.header20, Spec.header12]
  rw [e, unpackHead_header12]

/-- The part of an SGIP packet a decoder gets: the last two sequence words and the body. -/
theorem recv_header20 {α : Type} (dec : UInt32 → Buf → Option α) (l c s0 s1 s2 : UInt32)
    (body spare : Bytes) :
    recv dec (Spec.header20 l c s0 s1 s2 ++ body) spare =
      dec s0 ⟨[be32 s1, be32 s2, body].flatten ++ spare, 8 + body.length⟩ := by
  have e : Spec.header20 l c s0 s1 s2 ++ body =
      Spec.header12 l c s0 ++ [be32 s1, be32 s2, body].flatten := by
    simp [Spec.header20, Spec.header12]
  rw [e, recv_header12]
  congr 2
  simp; omega

theorem total20_u32 {l : UInt32} {n : Nat} (h : l.toNat = 20 + n) : 12 + UInt32.ofNat (8 + n) = l := by
  apply UInt32.toNat_inj.1
  have e : (12 : UInt32).toNat = 12 := rfl
  have := l.toNat_lt
  rw [UInt32.toNat_add, UInt32.toNat_ofNat', e]
  omega

end Gosms

namespace Gosms.Sgip
open Gosms.Rd

theorem length_bindBody (b : Bind) : (Spec.Sgip.bindBody b).length = 41 := by
  simp [Spec.Sgip.bindBody]

theorem bind_encode (b : Bind) (hl : b.hdr.packetLength = 61) :
    b.encode = some (Spec.header20 61 b.hdr.commandId b.hdr.seq0 b.hdr.seq1 b.hdr.seq2 ++
      Spec.Sgip.bindBody b) := by
  have hc : b.hdr.clamp = b.hdr := sclamp_of_le (by rw [hl]; decide)
  have henc := sheader_encode b.hdr
  rw [hc, hl] at henc
  have hkey := encodeWithS_layout b.hdr
    [.seek 20, .byte b.loginType, .str 16 b.loginName, .str 16 b.loginPassword]
    (by simp [AllOk, WOp.Ok]) (by rw [hl]; simp [layout, WOp.out])
  unfold Bind.encode
  unfold encodeWithS at hkey
  rw [henc] at hkey ⊢
  rw [Option.bind_some] at hkey ⊢
  rw [if_pos ⟨by simp, by rw [hc, hl]⟩, hkey, hl]
  simp [layout, WOp.out, Spec.Sgip.bindBody]

theorem bind_reads (b : Bind) (cid s1 s2 : UInt32) (Q : Bytes) :
    Bind.decode cid ⟨[be32 s1, be32 s2, Spec.Sgip.bindBody b].flatten ++ Q, 49⟩ =
      some { b with
        hdr := ⟨61, BIND, cid, s1, s2⟩
        loginName := Spec.slot 16 b.loginName
        loginPassword := Spec.slot 16 b.loginPassword } := by
  have e : [be32 s1, be32 s2, Spec.Sgip.bindBody b].flatten ++ Q =
      [be32 s1, be32 s2, [b.loginType], pad 16 b.loginName, pad 16 b.loginPassword].flatten ++
        (zeros 8 ++ Q) := by
    simp [Spec.Sgip.bindBody]
  rw [e]
  unfold Bind.decode
  refine reads_length_then ?_ _ (by simp)
  simp only [List.flatten_cons, List.flatten_nil]
  refine reads_bind (reads_u32 _) ?_
  refine reads_bind (reads_u32 _) ?_
  refine reads_bind (reads_byte _) ?_
  refine reads_bind (reads_str _) ?_
  refine reads_bind (reads_str _) ?_
  exact reads_pure _

theorem bindRsp_encode (r : Rsp) (hl : r.hdr.packetLength = 21) :
    bindRspEncode r = some (Spec.header20 21 r.hdr.commandId r.hdr.seq0 r.hdr.seq1 r.hdr.seq2 ++
      [r.status]) := by
  have hc : r.hdr.clamp = r.hdr := sclamp_of_le (by rw [hl]; decide)
  have henc := sheader_encode r.hdr
  rw [hc, hl] at henc
  have hkey := encodeWithS_exact r.hdr [.seek 20, .byte r.status] [r.status]
    (by simp [layout, WOp.out]) (by simp [AllOk, WOp.Ok]) (by rw [hl]; simp)
  unfold bindRspEncode
  unfold encodeWithS at hkey
  rw [henc] at hkey ⊢
  rw [Option.bind_some] at hkey ⊢
  rw [if_pos ⟨by simp, by rw [hc, hl]⟩, hkey, hl]

theorem bindRsp_reads (st : UInt8) (cid s1 s2 : UInt32) (Q : Bytes) :
    bindRspDecode cid ⟨[be32 s1, be32 s2, [st]].flatten ++ Q, 9⟩ =
      some { hdr := ⟨21, BIND_RESP, cid, s1, s2⟩, status := st } := by
  unfold bindRspDecode
  refine reads_length_then ?_ _ (by simp)
  simp only [List.flatten_cons, List.flatten_nil]
  refine reads_bind (reads_u32 _) ?_
  refine reads_bind (reads_u32 _) ?_
  refine reads_bind (reads_byte _) ?_
  exact reads_pure _

theorem rsp_encode (r : Rsp) (hl : r.hdr.packetLength = 29) :
    r.encode = some (Spec.header20 29 r.hdr.commandId r.hdr.seq0 r.hdr.seq1 r.hdr.seq2 ++
      Spec.Sgip.rspBody r) := by
  unfold Rsp.encode
  rw [encodeWithS_layout _ _ (by simp [AllOk, WOp.Ok]) (by rw [hl]; simp [layout, WOp.out]), hl]
  simp [layout, WOp.out, Spec.Sgip.rspBody]

theorem rsp_reads (cmd : UInt32) (r : Rsp) (cid s1 s2 : UInt32) (Q : Bytes) :
    Rsp.decode cmd cid ⟨[be32 s1, be32 s2, Spec.Sgip.rspBody r].flatten ++ Q, 17⟩ =
      some { hdr := ⟨29, cmd, cid, s1, s2⟩, status := r.status } := by
  have e : [be32 s1, be32 s2, Spec.Sgip.rspBody r].flatten ++ Q =
      [be32 s1, be32 s2, [r.status]].flatten ++ (zeros 8 ++ Q) := by
    simp [Spec.Sgip.rspBody]
  rw [e]
  unfold Rsp.decode
  refine reads_length_then ?_ _ (by simp)
  simp only [List.flatten_cons, List.flatten_nil]
  refine reads_bind (o1 := []) (reads_seek rfl) ?_
  refine reads_bind (reads_u32 _) ?_
  refine reads_bind (o1 := []) (reads_seek (by simp)) ?_
  refine reads_bind (reads_u32 _) ?_
  refine reads_bind (o1 := []) (reads_seek (by simp)) ?_
  refine reads_bind (reads_byte _) ?_
  exact reads_pure _

theorem layout_words (l : List UInt32) (p : Nat) :
    layout (l.map fun s => WOp.str 4 (be32 s)) p = l.flatMap be32 := by
  induction l generalizing p with
  | nil => rfl
  | cons a l ih => simp [layout, WOp.out, ih, pad_eq_self]

theorem allOk_words (l : List UInt32) (p : Nat) : AllOk (l.map fun s => WOp.str 4 (be32 s)) p := by
  induction l generalizing p with
  | nil => trivial
  | cons a l ih => exact ⟨trivial, ih _⟩

theorem layout_free21 (l : List Bytes) (p : Nat) :
    layout (l.map fun s => WOp.free 21 s) p = l.flatMap (pad 21) := by
  induction l generalizing p with
  | nil => rfl
  | cons a l ih => simp [layout, WOp.out, ih]

theorem allOk_free21 (l : List Bytes) (p : Nat) (h : ∀ s ∈ l, s.length ≤ 21) :
    AllOk (l.map fun s => WOp.free 21 s) p := by
  induction l generalizing p with
  | nil => trivial
  | cons a l ih => exact ⟨h a (by simp), ih _ fun s hs => h s (by simp [hs])⟩

theorem length_reportBody (r : Report) :
    (Spec.Sgip.reportBody r).length = 4 * r.mtSequence.length + 32 := by
  have : (r.mtSequence.flatMap be32).length = 4 * r.mtSequence.length := by
    induction r.mtSequence with
    | nil => rfl
    | cons a l ih => rw [List.flatMap_cons, List.length_append, length_be32, ih, List.length_cons]; omega
  simp [Spec.Sgip.reportBody, -List.length_flatMap, this]

theorem report_encode (r : Report) (hf : Spec.Sgip.ReportFits r) (hl : r.hdr.packetLength = 64) :
    r.encode = some (Spec.header20 64 r.hdr.commandId r.hdr.seq0 r.hdr.seq1 r.hdr.seq2 ++
      Spec.Sgip.reportBody r) := by
  unfold Report.encode
  rw [← hl]
  refine encodeWithS_exact _ _ _ ?_ ?_ ?_
  · simp [layout, Smgp.layout_append, layout_words, WOp.out, Spec.Sgip.reportBody]
  · simp [AllOk, Smgp.allOk_append, allOk_words, WOp.Ok, hf.userNumber.1, hf.reserve]
  · rw [length_reportBody, hf.mtSequence, hl]; rfl

theorem report_reads (r : Report) (hf : Spec.Sgip.ReportFits r) (cid s1 s2 : UInt32) (Q : Bytes) :
    Report.decode cid ⟨[be32 s1, be32 s2, Spec.Sgip.reportBody r].flatten ++ Q, 52⟩ =
      some { r with hdr := ⟨64, REPORT, cid, s1, s2⟩, reserve := [] } := by
  have h3 := hf.mtSequence
  match hm : r.mtSequence with
  | [m0, m1, m2] =>
    have e : [be32 s1, be32 s2, Spec.Sgip.reportBody r].flatten ++ Q =
        [be32 s1, be32 s2, be32 m0, be32 m1, be32 m2, [r.reportType], pad 21 r.userNumber, [r.state],
          [r.errorCode]].flatten ++ (pad 8 r.reserve ++ Q) := by
      simp [Spec.Sgip.reportBody, hm]
    rw [e]
    unfold Report.decode
    refine reads_length_then ?_ _ (by simp)
    simp only [List.flatten_cons, List.flatten_nil]
    refine reads_bind (reads_u32Tail _) ?_
    refine reads_bind (reads_u32Tail _) ?_
    refine reads_bind (reads_u32Tail _) ?_
    refine reads_bind (reads_u32Tail _) ?_
    refine reads_bind (reads_u32Tail _) ?_
    refine reads_bind (reads_byte _) ?_
    refine reads_bind (reads_str _) ?_
    refine reads_bind (reads_byte _) ?_
    refine reads_bind (reads_byte _) ?_
    rw [Spec.slot_fits hf.userNumber, ← hm]
    exact reads_pure _
  | [] | [_] | [_, _] | _ :: _ :: _ :: _ :: _ => rw [hm] at h3; simp at h3

theorem length_deliverBody (d : Deliver) :
    (Spec.Sgip.deliverBody d).length = 57 + d.messageContent.length := by
  simp [Spec.Sgip.deliverBody]; omega

theorem deliver_encode (d : Deliver) (hf : Spec.Sgip.DeliverFits d) :
    d.encode = some (Spec.header20 d.hdr.packetLength d.hdr.commandId d.hdr.seq0 d.hdr.seq1 d.hdr.seq2 ++
      Spec.Sgip.deliverBody d) := by
  unfold Deliver.encode
  refine encodeWithS_exact _ _ _ ?_ ?_ hf.total
  · simp [layout, WOp.out, Spec.Sgip.deliverBody, pad_eq_self]
  · simp [AllOk, WOp.Ok, hf.userNumber.1, hf.spNumber.1, hf.reserve]

theorem deliver_reads (d : Deliver) (hf : Spec.Sgip.DeliverFits d) (cid s1 s2 : UInt32) (Q : Bytes) :
    Deliver.decode cid ⟨[be32 s1, be32 s2, Spec.Sgip.deliverBody d].flatten ++ Q,
        8 + (Spec.Sgip.deliverBody d).length⟩ =
      some { d with hdr := ⟨d.hdr.packetLength, DELIVER, cid, s1, s2⟩, reserve := [] } := by
  have hcon := hf.content
  have ht := total20_u32 hf.total
  have e : [be32 s1, be32 s2, Spec.Sgip.deliverBody d].flatten ++ Q =
      [be32 s1, be32 s2, pad 21 d.userNumber, pad 21 d.spNumber, [d.tpPid], [d.tpUdhi],
        [d.messageCoding], be32 d.messageLength, d.messageContent].flatten ++ (pad 8 d.reserve ++ Q) := by
    simp [Spec.Sgip.deliverBody]
  rw [e]
  unfold Deliver.decode
  refine reads_length_then ?_ _ (by rw [length_deliverBody]; simp; omega)
  rw [ht]
  simp only [List.flatten_cons, List.flatten_nil]
  refine reads_bind (reads_u32Tail _) ?_
  refine reads_bind (reads_u32Tail _) ?_
  refine reads_bind (reads_str _) ?_
  refine reads_bind (reads_str _) ?_
  refine reads_bind (reads_byte _) ?_
  refine reads_bind (reads_byte _) ?_
  refine reads_bind (reads_byte _) ?_
  refine reads_bind (reads_u32Tail _) ?_
  refine reads_bind (reads_slice hcon) ?_
  rw [Spec.slot_fits hf.userNumber, Spec.slot_fits hf.spNumber]
  exact reads_pure _

theorem length_submitBody (s : Submit) :
    (Spec.Sgip.submitBody s).length = 123 + s.userNumber.length * 21 + s.messageContent.length := by
  have := Cmpp.length_flatMap_pad 21 s.userNumber
  simp [Spec.Sgip.submitBody, -List.length_flatMap, this]
  omega

theorem submit_encode (s : Submit) (hok : Spec.Sgip.SubmitOk s) (hf : Spec.Sgip.SubmitFits s) :
    s.encode = some (Spec.header20 s.hdr.packetLength s.hdr.commandId s.hdr.seq0 s.hdr.seq1 s.hdr.seq2 ++
      Spec.Sgip.submitBody s) := by
  unfold Submit.encode Submit.ops
  refine encodeWithS_exact _ _ _ ?_ ?_ hok.total
  · simp [layout, Smgp.layout_append, layout_free21, WOp.out, Spec.Sgip.submitBody, pad_eq_self]
  · simp [AllOk, Smgp.allOk_append, WOp.Ok, hf.spNumber.1, hf.chargeNumber.1, hf.corpId.1,
      hf.serviceType.1, hf.feeValue.1, hf.givenValue.1, hf.expireTime.1, hf.scheduleTime.1, hf.reserve,
      allOk_free21 _ _ fun t ht => (hf.userNumber t ht).1]

theorem submit_reads (s : Submit) (hok : Spec.Sgip.SubmitOk s) (hf : Spec.Sgip.SubmitFits s)
    (cid s1 s2 : UInt32) (Q text : Bytes) (hc : decodedContent s.messageContent = some text) :
    Submit.decode cid ⟨[be32 s1, be32 s2, Spec.Sgip.submitBody s].flatten ++ Q,
        8 + (Spec.Sgip.submitBody s).length⟩ =
      some { s with
        hdr := ⟨s.hdr.packetLength, SUBMIT, cid, s1, s2⟩, messageContent := text, reserve := [] } := by
  have hcon := hok.content
  have hrec := hok.recipients
  have ht := total20_u32 hok.total
  have hd : s.userNumber.map (Spec.slot 21) = s.userNumber := by
    conv => rhs; rw [← List.map_id s.userNumber]
    exact List.map_congr_left fun t ht => Spec.slot_fits (hf.userNumber t ht)
  have hph := Cmpp.length_flatMap_pad 21 s.userNumber
  have e : [be32 s1, be32 s2, Spec.Sgip.submitBody s].flatten ++ Q =
      [be32 s1, be32 s2, pad 21 s.spNumber, pad 21 s.chargeNumber, [s.userCount],
        s.userNumber.flatMap (pad 21),
        pad 5 s.corpId, pad 10 s.serviceType, [s.feeType], pad 6 s.feeValue, pad 6 s.givenValue,
        [s.agentFlag], [s.morelatetoMTFlag], [s.priority], pad 16 s.expireTime, pad 16 s.scheduleTime,
        [s.reportFlag], [s.tpPid], [s.tpUdhi], [s.messageCoding], [s.messageType], be32 s.messageLength,
        s.messageContent].flatten ++ (pad 8 s.reserve ++ Q) := by
    simp [Spec.Sgip.submitBody]
  rw [e]
  unfold Submit.decode
  refine reads_length_then ?_ _ (by rw [length_submitBody]; simp [-List.length_flatMap, hph]; omega)
  rw [ht]
  simp only [List.flatten_cons, List.flatten_nil]
  refine reads_bind (reads_u32Tail _) ?_
  refine reads_bind (reads_u32Tail _) ?_
  refine reads_bind (reads_str _) ?_
  refine reads_bind (reads_str _) ?_
  refine reads_bind (reads_byte _) ?_
  rw [← hrec]
  refine reads_bind (reads_times (enc := pad 21) (val := Spec.slot 21) (fun b p => reads_str b) s.userNumber _) ?_
  rw [hd]
  refine reads_bind (reads_str _) ?_
  refine reads_bind (reads_str _) ?_
  refine reads_bind (reads_byte _) ?_
  refine reads_bind (reads_str _) ?_
  refine reads_bind (reads_str _) ?_
  refine reads_bind (reads_byte _) ?_
  refine reads_bind (reads_byte _) ?_
  refine reads_bind (reads_byte _) ?_
  refine reads_bind (reads_str _) ?_
  refine reads_bind (reads_str _) ?_
  refine reads_bind (reads_byte _) ?_
  refine reads_bind (reads_byte _) ?_
  refine reads_bind (reads_byte _) ?_
  refine reads_bind (reads_byte _) ?_
  refine reads_bind (reads_byte _) ?_
  refine reads_bind (reads_u32Tail _) ?_
  refine reads_bind (reads_slice hcon) ?_
  refine reads_bind (o1 := []) (reads_lift hc) ?_
  refine reads_done ?_
  simp only [Spec.slot_fits hf.spNumber, Spec.slot_fits hf.chargeNumber, Spec.slot_fits hf.corpId,
    Spec.slot_fits hf.serviceType, Spec.slot_fits hf.feeValue, Spec.slot_fits hf.givenValue,
    Spec.slot_fits hf.expireTime, Spec.slot_fits hf.scheduleTime]

end Gosms.Sgip
