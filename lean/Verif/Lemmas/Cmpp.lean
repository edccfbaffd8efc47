import Verif.Spec.Cmpp
import Verif.Lemmas.Codec

/-!
# Lemmas for the CMPP codec: encoders are the layouts, decoders invert the layouts
-/

namespace Gosms.Cmpp
open Gosms.Rd

set_option maxRecDepth 4000 in
theorem and_f0 (x : UInt8) : (x &&& 0xf0).toNat = x.toNat / 16 * 16 := by
  have h : ∀ n : Fin 256, (UInt8.ofNat n.val &&& 0xf0).toNat = n.val / 16 * 16 := by decide
  have := h ⟨x.toNat, x.toNat_lt⟩
  simpa using this

theorem majorMatch_iff (a b : UInt8) : majorMatch a b = true ↔ Spec.major a = Spec.major b := by
  unfold majorMatch Spec.major
  rw [beq_iff_eq, ← UInt8.toNat_inj, and_f0, and_f0]
  omega

theorem v3_iff (v : UInt8) : v3 v = true ↔ Spec.major v = 3 := by
  unfold v3
  rw [majorMatch_iff]
  exact eq_comm

end Gosms.Cmpp

namespace Gosms

theorem unpackHead_header12 (l c s : UInt32) (body : Bytes) :
    unpackHead (Spec.header12 l c s ++ body) = (l, c, s) := by
  unfold unpackHead
  have h1 : (Spec.header12 l c s ++ body).take 4 = be32 l := by simp [Spec.header12]
  have h2 : ((Spec.header12 l c s ++ body).drop 4).take 4 = be32 c := by
    simp [Spec.header12]
  have h3 : ((Spec.header12 l c s ++ body).drop 8).take 4 = be32 s := by
    have h8 : List.drop 8 (be32 l) = [] := List.drop_eq_nil_of_le (by simp)
    simp [Spec.header12, List.drop_append, h8]
  rw [if_pos (by simp), h1, h2, h3]
  simp

theorem recv_header12 {α : Type} (dec : UInt32 → Buf → Option α) (l c s : UInt32) (body spare : Bytes) :
    recv dec (Spec.header12 l c s ++ body) spare = dec s ⟨body ++ spare, body.length⟩ := by
  unfold recv
  rw [unpackHead_header12, drop_header12]
  simp

end Gosms

namespace Gosms.Cmpp
open Gosms.Rd

theorem connect_reads (c : Connect) (seq : UInt32) (h16 : c.authenticatorSource.length = 16) (Q : Bytes) :
    Connect.decode seq ⟨Spec.Cmpp.connectBody c ++ Q, 27⟩ =
      some { hdr := ⟨39, CONNECT, seq⟩, sourceAddr := Spec.slot 6 c.sourceAddr,
             authenticatorSource := c.authenticatorSource, version := c.version,
             timestamp := c.timestamp } := by
  unfold Connect.decode Spec.Cmpp.connectBody
  refine run_of_reads ?_ Q 27 (by simp)
  refine reads_bind (o1 := []) (reads_seek rfl) ?_
  refine reads_bind (reads_str _) ?_
  refine reads_bind (o1 := []) (reads_seek (by simp)) ?_
  rw [pad_eq_self h16]
  refine reads_bind (reads_slice h16) ?_
  refine reads_bind (o1 := []) (reads_seek (by simp [h16])) ?_
  refine reads_bind (reads_byte _) ?_
  refine reads_bind (o1 := []) (reads_seek (by simp [h16])) ?_
  refine reads_bind (reads_u32 _) ?_
  exact reads_pure _

theorem connect_encode (c : Connect) (hl : c.hdr.totalLength = 39) :
    c.encode = some (Spec.header12 39 c.hdr.commandId c.hdr.sequenceId ++ Spec.Cmpp.connectBody c) := by
  have h39 : c.hdr.totalLength.toNat = 39 := by rw [hl]; rfl
  unfold Connect.encode
  have hcl : c.hdr.clamp = c.hdr := clamp_of_le (by omega)
  have henc := header_encode c.hdr
  have key := encodeWith_exact c.hdr [.seek 12, .str 6 c.sourceAddr, .seek 18, .str 16 c.authenticatorSource,
        .seek 34, .byte c.version, .seek 35, .str 4 (be32 c.timestamp)] (Spec.Cmpp.connectBody c)
        (by simp [layout, WOp.out, Spec.Cmpp.connectBody, pad_eq_self])
        (by simp [AllOk, WOp.Ok, WOp.out])
        (by simp [Spec.Cmpp.connectBody, h39])
  unfold encodeWith at key
  rw [henc] at key ⊢
  simp only [Option.bind_some] at key ⊢
  rw [if_pos, key, hl]
  constructor
  · simp [hcl, h39]
  · rw [hcl, hl]


theorem connectResp_encode (r : ConnectResp)
    (hl : r.hdr.totalLength.toNat = 12 + (Spec.Cmpp.connectRespBody r).length) :
    r.encode = some (Spec.header12 r.hdr.totalLength r.hdr.commandId r.hdr.sequenceId ++
      Spec.Cmpp.connectRespBody r) := by
  unfold ConnectResp.encode
  apply encodeWith_exact _ _ _ _ _ hl
  · by_cases h : v3 r.version = true
    · simp [layout, WOp.out, Spec.Cmpp.connectRespBody, pad_eq_self, h, (v3_iff _).1 h]
    · have h' : ¬ Spec.major r.version = 3 := fun e => h ((v3_iff _).2 e)
      simp [layout, WOp.out, Spec.Cmpp.connectRespBody, h, h']
  · by_cases h : v3 r.version = true <;> simp [AllOk, WOp.Ok, WOp.out, h]

theorem submit_layout (s : Submit) : ∃ ops, s.encode = encodeWith s.hdr ops ∧ AllOk ops 12 ∧
    ∃ k, layout ops 12 ++ zeros k = Spec.Cmpp.submitBody s := by
  refine ⟨_, rfl, ?_, ?_⟩
  · by_cases h : v3 s.version = true <;> simp [AllOk, WOp.Ok, WOp.out, h]
  · by_cases h : v3 s.version = true
    · refine ⟨0, ?_⟩
      simp [layout, WOp.out, Spec.Cmpp.submitBody, h, (v3_iff _).1 h, pad_self]
    · have h' : ¬ Spec.major s.version = 3 := fun e => h ((v3_iff _).2 e)
      refine ⟨8, ?_⟩
      simp [layout, WOp.out, Spec.Cmpp.submitBody, h, h', pad_self]

/-- Layout followed by zero bytes up to the declared length. -/
theorem encodeWith_of_layout {h : Header} {ops : List WOp} {body : Bytes} (hok : AllOk ops 12)
    {k : Nat} (hb : layout ops 12 ++ zeros k = body) (hk : h.totalLength.toNat = 12 + body.length) :
    encodeWith h ops = some (Spec.header12 h.totalLength h.commandId h.sequenceId ++ body) := by
  subst hb
  simp only [List.length_append, length_zeros] at hk
  rw [encodeWith_layout h ops hok (by omega)]
  have : h.totalLength.toNat - 12 - (layout ops 12).length = k := by omega
  rw [this, List.append_assoc]

theorem submit_encode (s : Submit) (hl : s.hdr.totalLength.toNat = 12 + (Spec.Cmpp.submitBody s).length) :
    s.encode = some (Spec.header12 s.hdr.totalLength s.hdr.commandId s.hdr.sequenceId ++
      Spec.Cmpp.submitBody s) := by
  obtain ⟨ops, h1, h2, k, h3⟩ := submit_layout s
  rw [h1]
  exact encodeWith_of_layout h2 h3 hl

/-- The decoder on a laid-out submit. -/
theorem submit_reads (s : Submit) (seq : UInt32) (Q : Bytes) (c : Bytes)
    (hok : Spec.Cmpp.SubmitOk s)
    (hwrap : Spec.major s.version = 3 ∨ s.destUsrTl.toNat ≤ 12)
    (hc : decodedContent s.msgContent = some c) :
    Submit.decode s.version seq ⟨Spec.Cmpp.submitBody s ++ Q, (Spec.Cmpp.submitBody s).length⟩ =
      some { Spec.Cmpp.submitReceived s with
        msgContent := c, hdr := ⟨12 + UInt32.ofNat (Spec.Cmpp.submitBody s).length, SUBMIT, seq⟩ } := by
  have hrec := hok.recipients
  have hcon := hok.content
  unfold Submit.decode
  by_cases h : v3 s.version = true
  · have h' := (v3_iff _).1 h
    have hw : s.termIds.length = s.destUsrTl.toNat <<< 5 := by
      rw [hrec, Spec.Cmpp.numberWidth, if_pos h', Nat.shiftLeft_eq]; omega
    refine reads_length_then ?_ Q (Nat.le_refl _)
    simp only [h, if_true]
    unfold Spec.Cmpp.submitBody
    simp only [h', if_true, List.flatten_cons, List.flatten_nil]
    refine reads_bind (reads_seek_over (o := zeros 8) (by simp)) ?_
    refine reads_bind (reads_byte _) ?_
    refine reads_bind (reads_byte _) ?_
    refine reads_bind (reads_byte _) ?_
    refine reads_bind (reads_byte _) ?_
    refine reads_bind (reads_str _) ?_
    refine reads_bind (reads_byte _) ?_
    refine reads_bind (reads_str _) ?_
    refine reads_bind (reads_byte _) ?_
    refine reads_bind (reads_byte _) ?_
    refine reads_bind (reads_byte _) ?_
    refine reads_bind (reads_byte _) ?_
    refine reads_bind (reads_str _) ?_
    refine reads_bind (reads_str _) ?_
    refine reads_bind (reads_str _) ?_
    refine reads_bind (reads_str _) ?_
    refine reads_bind (reads_str _) ?_
    refine reads_bind (reads_str _) ?_
    refine reads_bind (reads_byte _) ?_
    refine reads_bind (reads_slice hw) ?_
    refine reads_bind (reads_byte _) ?_
    refine reads_bind (reads_byte _) ?_
    refine reads_bind (reads_slice hcon) ?_
    refine reads_bind (o1 := []) (reads_lift hc) ?_
    refine reads_bind (reads_str _) ?_
    refine reads_done ?_
    simp [Spec.Cmpp.submitReceived, Spec.Cmpp.numberWidth, h', trimStr_eq_takeWhile]
  · have h' : ¬ Spec.major s.version = 3 := fun e => h ((v3_iff _).2 e)
    have h12 : s.destUsrTl.toNat ≤ 12 := hwrap.resolve_left h'
    have hw : s.termIds.length = (s.destUsrTl * 21).toNat := by
      have e21 : (21 : UInt8).toNat = 21 := rfl
      rw [hrec, Spec.Cmpp.numberWidth, if_neg h', UInt8.toNat_mul, e21]
      omega
    have hlen : (Spec.Cmpp.submitBody s).length = 126 + s.termIds.length + s.msgContent.length := by
      simp [Spec.Cmpp.submitBody, h']; omega
    have hsplit : Spec.Cmpp.submitBody s ++ Q =
        [zeros 8, [s.pkTotal], [s.pkNumber], [s.registeredDel], [s.msgLevel], pad 10 s.serviceId,
          [s.feeUsertype], pad 21 s.feeTerminalId, [],
          [s.tpPid], [s.tpUdhi], [s.msgFmt], pad 6 s.msgSrc, pad 2 s.feeType, pad 6 s.feeCode,
          pad 17 s.validTime, pad 17 s.atTime, pad 21 s.srcId, [s.destUsrTl], s.termIds,
          [], [s.msgLength], s.msgContent, [], []].flatten ++ (zeros 8 ++ Q) := by
      simp [Spec.Cmpp.submitBody, h']
    rw [hsplit]
    refine reads_length_then ?_ (zeros 8 ++ Q) (by rw [hlen]; simp; omega)
    simp only [h, if_false, List.flatten_cons, List.flatten_nil, Bool.false_eq_true]
    refine reads_bind (reads_seek_over (o := zeros 8) (by simp)) ?_
    refine reads_bind (reads_byte _) ?_
    refine reads_bind (reads_byte _) ?_
    refine reads_bind (reads_byte _) ?_
    refine reads_bind (reads_byte _) ?_
    refine reads_bind (reads_str _) ?_
    refine reads_bind (reads_byte _) ?_
    refine reads_bind (reads_str _) ?_
    refine reads_bind (o1 := []) (reads_pure _) ?_
    refine reads_bind (reads_byte _) ?_
    refine reads_bind (reads_byte _) ?_
    refine reads_bind (reads_byte _) ?_
    refine reads_bind (reads_str _) ?_
    refine reads_bind (reads_str _) ?_
    refine reads_bind (reads_str _) ?_
    refine reads_bind (reads_str _) ?_
    refine reads_bind (reads_str _) ?_
    refine reads_bind (reads_str _) ?_
    refine reads_bind (reads_byte _) ?_
    refine reads_bind (reads_slice hw) ?_
    refine reads_bind (o1 := []) (reads_pure _) ?_
    refine reads_bind (reads_byte _) ?_
    refine reads_bind (reads_slice hcon) ?_
    refine reads_bind (o1 := []) (reads_lift hc) ?_
    refine reads_bind (o1 := []) (reads_pure _) ?_
    refine reads_done ?_
    simp [Spec.Cmpp.submitReceived, Spec.Cmpp.numberWidth, h', trimStr_eq_takeWhile]


/-- The decoder panics on a laid-out submit whose content makes it index out of range. -/
theorem submit_fails (s : Submit) (seq : UInt32) (Q : Bytes)
    (hok : Spec.Cmpp.SubmitOk s)
    (hwrap : Spec.major s.version = 3 ∨ s.destUsrTl.toNat ≤ 12)
    (hc : decodedContent s.msgContent = none) :
    Submit.decode s.version seq ⟨Spec.Cmpp.submitBody s ++ Q, (Spec.Cmpp.submitBody s).length⟩ =
      none := by
  have hrec := hok.recipients
  have hcon := hok.content
  unfold Submit.decode
  by_cases h : v3 s.version = true
  · have h' := (v3_iff _).1 h
    have hw : s.termIds.length = s.destUsrTl.toNat <<< 5 := by
      rw [hrec, Spec.Cmpp.numberWidth, if_pos h', Nat.shiftLeft_eq]; omega
    refine fails_length_then ?_ Q (Nat.le_refl _)
    simp only [h, if_true]
    unfold Spec.Cmpp.submitBody
    simp only [h', if_true, List.flatten_cons, List.flatten_nil]
    refine fails_bind (reads_seek_over (o := zeros 8) (by simp)) ?_
    refine fails_bind (reads_byte _) ?_
    refine fails_bind (reads_byte _) ?_
    refine fails_bind (reads_byte _) ?_
    refine fails_bind (reads_byte _) ?_
    refine fails_bind (reads_str _) ?_
    refine fails_bind (reads_byte _) ?_
    refine fails_bind (reads_str _) ?_
    refine fails_bind (reads_byte _) ?_
    refine fails_bind (reads_byte _) ?_
    refine fails_bind (reads_byte _) ?_
    refine fails_bind (reads_byte _) ?_
    refine fails_bind (reads_str _) ?_
    refine fails_bind (reads_str _) ?_
    refine fails_bind (reads_str _) ?_
    refine fails_bind (reads_str _) ?_
    refine fails_bind (reads_str _) ?_
    refine fails_bind (reads_str _) ?_
    refine fails_bind (reads_byte _) ?_
    refine fails_bind (reads_slice hw) ?_
    refine fails_bind (reads_byte _) ?_
    refine fails_bind (reads_byte _) ?_
    refine fails_bind (reads_slice hcon) ?_
    exact fails_head (fails_lift hc)
  · have h' : ¬ Spec.major s.version = 3 := fun e => h ((v3_iff _).2 e)
    have h12 : s.destUsrTl.toNat ≤ 12 := hwrap.resolve_left h'
    have hw : s.termIds.length = (s.destUsrTl * 21).toNat := by
      have e21 : (21 : UInt8).toNat = 21 := rfl
      rw [hrec, Spec.Cmpp.numberWidth, if_neg h', UInt8.toNat_mul, e21]
      omega
    have hlen : (Spec.Cmpp.submitBody s).length = 126 + s.termIds.length + s.msgContent.length := by
      simp [Spec.Cmpp.submitBody, h']; omega
    have hsplit : Spec.Cmpp.submitBody s ++ Q =
        [zeros 8, [s.pkTotal], [s.pkNumber], [s.registeredDel], [s.msgLevel], pad 10 s.serviceId,
          [s.feeUsertype], pad 21 s.feeTerminalId, [],
          [s.tpPid], [s.tpUdhi], [s.msgFmt], pad 6 s.msgSrc, pad 2 s.feeType, pad 6 s.feeCode,
          pad 17 s.validTime, pad 17 s.atTime, pad 21 s.srcId, [s.destUsrTl], s.termIds,
          [], [s.msgLength], s.msgContent, [], []].flatten ++ (zeros 8 ++ Q) := by
      simp [Spec.Cmpp.submitBody, h']
    rw [hsplit]
    refine fails_length_then ?_ (zeros 8 ++ Q) (by rw [hlen]; simp; omega)
    simp only [h, if_false, List.flatten_cons, List.flatten_nil, Bool.false_eq_true]
    refine fails_bind (reads_seek_over (o := zeros 8) (by simp)) ?_
    refine fails_bind (reads_byte _) ?_
    refine fails_bind (reads_byte _) ?_
    refine fails_bind (reads_byte _) ?_
    refine fails_bind (reads_byte _) ?_
    refine fails_bind (reads_str _) ?_
    refine fails_bind (reads_byte _) ?_
    refine fails_bind (reads_str _) ?_
    refine fails_bind (o1 := []) (reads_pure _) ?_
    refine fails_bind (reads_byte _) ?_
    refine fails_bind (reads_byte _) ?_
    refine fails_bind (reads_byte _) ?_
    refine fails_bind (reads_str _) ?_
    refine fails_bind (reads_str _) ?_
    refine fails_bind (reads_str _) ?_
    refine fails_bind (reads_str _) ?_
    refine fails_bind (reads_str _) ?_
    refine fails_bind (reads_str _) ?_
    refine fails_bind (reads_byte _) ?_
    refine fails_bind (reads_slice hw) ?_
    refine fails_bind (o1 := []) (reads_pure _) ?_
    refine fails_bind (reads_byte _) ?_
    refine fails_bind (reads_slice hcon) ?_
    exact fails_head (fails_lift hc)


theorem connectResp_reads (r : ConnectResp) (seq : UInt32) (h16 : r.authenticatorISMG.length = 16)
    (Q : Bytes) :
    ConnectResp.decode r.version seq
        ⟨Spec.Cmpp.connectRespBody r ++ Q, (Spec.Cmpp.connectRespBody r).length⟩ =
      some { r with hdr := ⟨if Spec.major r.version = 3 then 33 else 30, CONNECT_RESP, seq⟩ } := by
  unfold ConnectResp.decode
  refine run_of_reads ?_ Q _ (Nat.le_refl _)
  unfold Spec.Cmpp.connectRespBody
  by_cases h : v3 r.version = true
  · have h' := (v3_iff _).1 h
    have hb : be32 r.status.toUInt32 = [0, 0, 0] ++ [r.status] := by
      have e : r.status.toUInt32.toNat = r.status.toNat := by simp
      have hlt := r.status.toNat_lt
      simp only [be32, e, toBE, List.nil_append, List.append_assoc]
      have h1 : r.status.toNat / 256 = 0 := by omega
      simp [h1]
    simp only [h, h', if_true, hb, List.flatten_cons, List.flatten_nil, List.append_assoc]
    refine reads_bind (reads_skip (o := [0, 0, 0]) rfl) ?_
    refine reads_bind (reads_byte _) ?_
    rw [pad_eq_self h16]
    refine reads_bind (reads_slice h16) ?_
    refine reads_bind (reads_byte _) ?_
    exact reads_pure _
  · have h' : ¬ Spec.major r.version = 3 := fun e => h ((v3_iff _).2 e)
    simp only [h, h', if_false, List.flatten_cons, List.flatten_nil, Bool.false_eq_true]
    refine reads_bind (reads_byte _) ?_
    rw [pad_eq_self h16]
    refine reads_bind (reads_slice h16) ?_
    refine reads_bind (reads_byte _) ?_
    exact reads_pure _

theorem rsp_encode (r : Rsp) (hl : r.hdr.totalLength.toNat = 12 + (Spec.Cmpp.rspBody r).length) :
    r.encode = some (Spec.header12 r.hdr.totalLength r.hdr.commandId r.hdr.sequenceId ++
      Spec.Cmpp.rspBody r) := by
  unfold Rsp.encode
  apply encodeWith_exact _ _ _ _ _ hl
  · by_cases h : v3 r.version = true
    · simp [layout, WOp.out, Spec.Cmpp.rspBody, pad_eq_self, h, (v3_iff _).1 h]
    · have h' : ¬ Spec.major r.version = 3 := fun e => h ((v3_iff _).2 e)
      simp [layout, WOp.out, Spec.Cmpp.rspBody, pad_eq_self, h, h']
  · by_cases h : v3 r.version = true <;> simp [AllOk, WOp.Ok, WOp.out, h]

theorem rsp_reads (cmd : UInt32) (r : Rsp) (seq : UInt32) (Q : Bytes) :
    Rsp.decode cmd r.version seq ⟨Spec.Cmpp.rspBody r ++ Q, (Spec.Cmpp.rspBody r).length⟩ =
      some { r with
        hdr := ⟨12 + UInt32.ofNat (Spec.Cmpp.rspBody r).length, cmd, seq⟩
        result := if Spec.major r.version = 3 then r.result else r.result.toUInt8.toUInt32 } := by
  unfold Rsp.decode
  refine reads_length_then ?_ Q (Nat.le_refl _)
  unfold Spec.Cmpp.rspBody
  by_cases h : v3 r.version = true
  · have h' := (v3_iff _).1 h
    simp only [h, h', if_true, List.flatten_cons, List.flatten_nil]
    refine reads_bind (o1 := []) (reads_seek rfl) ?_
    refine reads_bind (reads_u64 _) ?_
    refine reads_bind (o1 := []) (reads_seek (by simp)) ?_
    refine reads_bind (reads_u32 _) ?_
    exact reads_pure _
  · have h' : ¬ Spec.major r.version = 3 := fun e => h ((v3_iff _).2 e)
    simp only [h, h', if_false, List.flatten_cons, List.flatten_nil, Bool.false_eq_true]
    refine reads_bind (o1 := []) (reads_seek rfl) ?_
    refine reads_bind (reads_u64 _) ?_
    refine reads_bind (o1 := []) (reads_seek (by simp)) ?_
    refine reads_bind (o1 := [r.result.toUInt8]) (reads_bind (o2 := []) (reads_byte _) (reads_pure _)) ?_
    exact reads_pure _

theorem length_reportBody (r : Report) : (Spec.Cmpp.reportBody r).length = 60 := by
  simp [Spec.Cmpp.reportBody]

theorem report_encode (r : Report) : r.encode = some (Spec.Cmpp.reportBody r) := by
  unfold Report.encode
  have := runW_layout [.seek 0, .str 8 (be64 r.msgId), .seek 8, .str 7 r.stat, .seek 15, .str 10 r.submitTime,
    .seek 25, .str 10 r.doneTime, .seek 35, .str 21 r.destTerminalId,
    .seek 56, .str 4 (be32 r.smscSequence)] [] 60 (by simp [AllOk, WOp.Ok, WOp.out])
    (by simp [layout, WOp.out])
  simp only [List.nil_append, List.length_nil] at this
  rw [this]
  simp [layout, WOp.out, Spec.Cmpp.reportBody, pad_eq_self]

theorem report_reads (r : Report) :
    Reads 0 reportDecode (Spec.Cmpp.reportBody r) (Spec.Cmpp.reportReceived r) := by
  unfold reportDecode Spec.Cmpp.reportBody
  refine reads_bind (o1 := []) (reads_seek (by simp)) ?_
  refine reads_bind (reads_u64 _) ?_
  refine reads_bind (o1 := []) (reads_seek (by simp)) ?_
  refine reads_bind (reads_str _) ?_
  refine reads_bind (o1 := []) (reads_seek (by simp)) ?_
  refine reads_bind (reads_str _) ?_
  refine reads_bind (o1 := []) (reads_seek (by simp)) ?_
  refine reads_bind (reads_str _) ?_
  refine reads_bind (o1 := []) (reads_seek (by simp)) ?_
  refine reads_bind (reads_str _) ?_
  refine reads_bind (o1 := []) (reads_seek (by simp)) ?_
  refine reads_bind (reads_u32 _) ?_
  exact reads_pure _

theorem deliver_encode (d : Delivery) (g : UInt8) (content : Bytes) (hc : d.contentBytes g = some content)
    (hl : d.hdr.totalLength.toNat = 12 + (Spec.Cmpp.deliverBody d content).length) :
    d.encode g = some (Spec.header12 d.hdr.totalLength d.hdr.commandId d.hdr.sequenceId ++
      Spec.Cmpp.deliverBody d content) := by
  unfold Delivery.encode
  rw [hc, Option.bind_some]
  by_cases h : v3 d.version = true
  · apply encodeWith_of_layout (k := 0) _ _ hl
    · simp [AllOk, WOp.Ok, WOp.out, h]
    · simp [layout, WOp.out, Spec.Cmpp.deliverBody, h, (v3_iff _).1 h, pad_eq_self]
  · have h' : ¬ Spec.major d.version = 3 := fun e => h ((v3_iff _).2 e)
    apply encodeWith_of_layout (k := 8) _ _ hl
    · simp [AllOk, WOp.Ok, WOp.out, h]
    · simp [layout, WOp.out, Spec.Cmpp.deliverBody, h, h', pad_eq_self]

/-- What the decoder makes of a laid-out deliver (including that the destination number is replaced
by the service id). `rep`/`txt` are report and text found in the content slot. -/
theorem deliver_reads (d : Delivery) (seq : UInt32) (content : Bytes) (Q : Bytes)
    (rep : Option Report)
    (hrep : ∀ rest, (if d.registeredDelivery = 1 then
        (Rd.run reportDecode ⟨pad d.msgLength.toNat content ++ rest, d.msgLength.toNat⟩).map some
        else some none) = some rep) :
    Delivery.decode d.version seq ⟨Spec.Cmpp.deliverBody d content ++ Q,
        (Spec.Cmpp.deliverBody d content).length⟩ =
      some { d with
        hdr := ⟨12 + UInt32.ofNat (Spec.Cmpp.deliverBody d content).length, DELIVER, seq⟩
        destId := Spec.slot 10 d.serviceId
        serviceId := []
        srcTerminalId := Spec.slot (Spec.Cmpp.numberWidth d.version) d.srcTerminalId
        srcTerminalType := if Spec.major d.version = 3 then d.srcTerminalType else 0
        msgContent := if d.registeredDelivery = 1 then [] else Spec.slot d.msgLength.toNat content
        report := rep
        linkID := if Spec.major d.version = 3 then Spec.slot 20 d.linkID else [] } := by
  unfold Delivery.decode
  have hcont : ∀ rest : Bytes, trimStr (List.take d.msgLength.toNat (pad d.msgLength.toNat content ++ rest))
      = Spec.slot d.msgLength.toNat content := by
    intro rest
    have : List.take d.msgLength.toNat (pad d.msgLength.toNat content ++ rest) = pad d.msgLength.toNat content := by
      rw [List.take_append_of_le_length (by simp), List.take_of_length_le (by simp)]
    rw [this, trimStr_pad_slot]
  have hreport : ∀ (p : Nat) (rest : Bytes), Reads p (deliverReport d.registeredDelivery
      ⟨pad d.msgLength.toNat content ++ rest, d.msgLength.toNat⟩) [] rep := by
    intro p rest
    have := hrep rest
    unfold deliverReport
    by_cases h1 : d.registeredDelivery = 1
    · simp only [h1, if_true] at this ⊢
      exact reads_lift this
    · simp only [h1, if_false, Option.some.injEq] at this ⊢
      exact reads_done this
  by_cases h : v3 d.version = true
  · have h' := (v3_iff _).1 h
    refine reads_length_then ?_ Q (Nat.le_refl _)
    simp only [h, if_true]
    unfold Spec.Cmpp.deliverBody
    simp only [h', if_true, List.flatten_cons, List.flatten_nil]
    refine reads_bind (o1 := []) (reads_seek (by simp)) ?_
    refine reads_bind (reads_u64 _) ?_
    refine reads_bind (o1 := []) (reads_seek (by simp)) ?_
    refine reads_bind (reads_str _) ?_
    refine reads_bind (o1 := []) (reads_seek (by simp)) ?_
    refine reads_bind (reads_str _) ?_
    refine reads_bind (o1 := []) (reads_seek (by simp)) ?_
    refine reads_bind (reads_byte _) ?_
    refine reads_bind (o1 := []) (reads_seek (by simp)) ?_
    refine reads_bind (reads_byte _) ?_
    refine reads_bind (o1 := []) (reads_seek (by simp)) ?_
    refine reads_bind (reads_byte _) ?_
    refine reads_bind (o1 := []) (reads_seek (by simp)) ?_
    refine reads_bind (reads_str _) ?_
    refine reads_bind (reads_byte _) ?_
    refine reads_bind (reads_byte _) ?_
    refine reads_bind (reads_byte _) ?_
    refine reads_sub_bind (by simp) ?_
    intro rest
    refine reads_bind (o1 := []) (hreport _ _) ?_
    refine reads_bind (reads_str _) ?_
    refine reads_done ?_
    simp only [hcont]
    simp [Spec.Cmpp.numberWidth, h']
  · have h' : ¬ Spec.major d.version = 3 := fun e => h ((v3_iff _).2 e)
    have hlen : (Spec.Cmpp.deliverBody d content).length = 73 + d.msgLength.toNat := by
      simp [Spec.Cmpp.deliverBody, h']; omega
    have hsplit : Spec.Cmpp.deliverBody d content ++ Q =
        [be64 d.msgId, pad 21 d.destId, pad 10 d.serviceId, [d.tpPid], [d.tpUdhi], [d.msgFmt],
          pad 21 d.srcTerminalId, [], [d.registeredDelivery], [d.msgLength],
          pad d.msgLength.toNat content, [], []].flatten ++ (zeros 8 ++ Q) := by
      simp [Spec.Cmpp.deliverBody, h']
    rw [hsplit]
    refine reads_length_then ?_ (zeros 8 ++ Q) (by rw [hlen]; simp; omega)
    simp only [h, if_false, List.flatten_cons, List.flatten_nil, Bool.false_eq_true]
    refine reads_bind (o1 := []) (reads_seek (by simp)) ?_
    refine reads_bind (reads_u64 _) ?_
    refine reads_bind (o1 := []) (reads_seek (by simp)) ?_
    refine reads_bind (reads_str _) ?_
    refine reads_bind (o1 := []) (reads_seek (by simp)) ?_
    refine reads_bind (reads_str _) ?_
    refine reads_bind (o1 := []) (reads_seek (by simp)) ?_
    refine reads_bind (reads_byte _) ?_
    refine reads_bind (o1 := []) (reads_seek (by simp)) ?_
    refine reads_bind (reads_byte _) ?_
    refine reads_bind (o1 := []) (reads_seek (by simp)) ?_
    refine reads_bind (reads_byte _) ?_
    refine reads_bind (o1 := []) (reads_seek (by simp)) ?_
    refine reads_bind (reads_str _) ?_
    refine reads_bind (o1 := []) (reads_pure _) ?_
    refine reads_bind (reads_byte _) ?_
    refine reads_bind (reads_byte _) ?_
    refine reads_sub_bind (by simp) ?_
    intro rest
    refine reads_bind (o1 := []) (hreport _ _) ?_
    refine reads_bind (o1 := []) (reads_pure _) ?_
    refine reads_done ?_
    simp only [hcont]
    simp [Spec.Cmpp.numberWidth, h']

end Gosms.Cmpp
