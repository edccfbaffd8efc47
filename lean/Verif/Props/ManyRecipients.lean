import Verif.Spec.ManyRecipients
import Verif.Props.Backlog
import Verif.Props.CmppSubmit
import Verif.Props.SmgpSubmit
import Verif.Props.Sgip
import Verif.Props.Slices

/-!
# C140: texts to many recipients

`NewSubmit` (C22, C27, C28, C34, C38) with the server's check of the packet length (C43): to how many recipients a text can be sent.
-/

namespace Gosms
open Gosms.Spec

namespace Traffic

/-- A packet of at most 5120 bytes is taken, a longer one cuts the sender off. -/
theorem taken_or_cut (zeroAll : Bool) (p : Proto) (cmd : UInt32) (hk : Known p cmd) (frame : Bytes) (h12 : 12 < frame.length)
    (hd : declared frame = frame.length) (hc : command frame = cmd) :
    (frame.length ≤ 5120 → Taken zeroAll p frame) ∧ (5120 < frame.length → CutOff zeroAll p frame) := by
  constructor
  · intro hl closes c ho hb
    have hr := raw_of_head (b := frame) (by omega) (by omega) (by omega) (by omega)
    rw [hd, List.take_of_length_le (Nat.le_refl _)] at hr
    refine ⟨_, hr, ?_⟩
    have hlen : ((frame.drop 12).take (frame.length - 12)).length = frame.length - 12 := by
      rw [List.length_take, List.length_drop]; omega
    refine packet_progress_partial zeroAll p closes c ho frame _ [] ?_ (by rw [hc]; exact hk) (by rw [hlen]; omega) (.inr ?_)
    · rw [hb, List.nil_append, List.append_nil, hr]
    · intro e
      dsimp only at e
      rw [e] at hlen
      simp only [List.length_nil] at hlen
      omega
  · intro hl closes c ho hb
    exact (header_decision zeroAll p closes c ho frame frame (by rw [hb]; rfl)).2.1 (by omega) (.inr (.inl (by omega)))

theorem declared_header12 (l c s : UInt32) (x : Bytes) : declared (header12 l c s ++ x) = l.toNat := by
  have l1 : (be32 l).length = 4 := length_be32 _
  unfold declared header12
  rw [List.append_assoc, List.take_left' l1, ← rd32_toNat l1, rd32_be32]

theorem command_header12 (l c s : UInt32) (x : Bytes) : command (header12 l c s ++ x) = c := by
  have l1 : (be32 l).length = 4 := length_be32 _
  have l2 : (be32 c).length = 4 := length_be32 _
  unfold command header12
  rw [List.append_assoc, List.drop_left' l1, List.append_assoc, List.take_left' l2, rd32_be32]

end Traffic

open Traffic

namespace Cmpp

/-- **C140, CMPP, exactly.** Each packet of a text to up to 255 recipients has 163 bytes, 32 for each recipient and its content (138 and 21 in the old
versions); this library's server takes it if these are at most 5120 and cuts the sender off otherwise. -/
theorem cmpp_recipients (zeroAll : Bool) (ac : AuthConf) (phones : List Bytes) (content : Bytes) (seq : UInt32) (opts : List OptionFunc)
    (g : UInt8) (expiry : Clock) (seqs : Nat → UInt32) (hp : phones.length ≤ 255) (msgs : List Submit)
    (h : newSubmit ac phones content seq opts g expiry seqs = some msgs) (m : Submit) (hm : m ∈ msgs) :
    ∃ frame, m.encode = some frame ∧ m.msgContent.length ≤ 160 ∧
      frame.length = (if Spec.major ac.version = 3 then 163 + 32 * phones.length else 138 + 21 * phones.length) + m.msgContent.length ∧
      (frame.length ≤ 5120 → Taken zeroAll .cmpp frame) ∧ (5120 < frame.length → CutOff zeroAll .cmpp frame) := by
  obtain ⟨msgs', slices, h1, hsl, hl, h4⟩ := cmpp_newSubmit ac phones content seq opts g expiry seqs hp
  obtain rfl := Option.some.inj (h1.symm.trans h)
  obtain ⟨i, hi, rfl⟩ := List.getElem_of_mem hm
  obtain ⟨hok, hv, hcmd, _, _, hn, hcont, _⟩ := h4 i hi (hl ▸ hi)
  obtain ⟨sl', hsl', hfit⟩ := msgSlices_fit g (Gosms.msgFmt content) content
  obtain rfl := Option.some.inj (hsl'.symm.trans hsl)
  have h160 : msgs'[i].msgContent.length ≤ 160 := by
    have := hfit _ (List.getElem_mem (hl ▸ hi : i < sl'.length))
    rw [hcont]
    split at this <;> omega
  have hbody := length_submitBody msgs'[i]
  rw [hok.recipients, hn, hv] at hbody
  have hlen : (Spec.header12 msgs'[i].hdr.totalLength msgs'[i].hdr.commandId msgs'[i].hdr.sequenceId ++ Spec.Cmpp.submitBody msgs'[i]).length =
      12 + (Spec.Cmpp.submitBody msgs'[i]).length := by
    rw [List.length_append]; simp [Spec.header12, length_be32]
  refine ⟨_, submit_encode _ hok.total, h160, ?_, ?_⟩
  · rw [hlen, hbody]
    unfold Spec.Cmpp.numberWidth
    split <;> omega
  · refine taken_or_cut zeroAll .cmpp 4 (by decide) _ ?_ ?_ ?_
    · rw [hlen, hbody]; split <;> omega
    · rw [declared_header12, hok.total, hlen]
    · rw [command_header12, hcmd]

/-- **C140, CMPP: the limits.** To up to 149 recipients (229 in the old versions) every packet is taken; to 155 or more (238) none is, and the
connection is lost. (With more than 255 `NewSubmit` ends the process: `cmpp_newSubmit_too_many`; that the old versions' packets are read wrongly from the
thirteenth recipient on is C28.) -/
theorem cmpp_recipient_limits_partial (zeroAll : Bool) (ac : AuthConf) (phones : List Bytes) (content : Bytes) (seq : UInt32)
    (opts : List OptionFunc) (g : UInt8) (expiry : Clock) (seqs : Nat → UInt32) (msgs : List Submit)
    (h : newSubmit ac phones content seq opts g expiry seqs = some msgs) (m : Submit) (hm : m ∈ msgs) :
    ∃ frame, m.encode = some frame ∧
      (phones.length ≤ (if Spec.major ac.version = 3 then 149 else 229) → Taken zeroAll .cmpp frame) ∧
      ((if Spec.major ac.version = 3 then 155 else 238) ≤ phones.length → CutOff zeroAll .cmpp frame) := by
  have hp : phones.length ≤ 255 := by
    refine Nat.le_of_not_lt fun hgt => ?_
    rw [cmpp_newSubmit_too_many ac phones content seq opts g expiry seqs hgt] at h
    exact absurd h (by simp)
  obtain ⟨frame, he, h160, hlen, ht, hc⟩ := cmpp_recipients zeroAll ac phones content seq opts g expiry seqs hp msgs h m hm
  refine ⟨frame, he, fun hn => ht ?_, fun hn => hc ?_⟩
  · rw [hlen]; split at hn <;> simp only [*, if_true, if_false] <;> omega
  · rw [hlen]; split at hn <;> simp only [*, if_true, if_false] <;> omega

/-- The hypotheses are met: any text to 149 recipients, and to 155. -/
example (n : Nat) (hn : n = 149 ∨ n = 155) (content : Bytes) : ∃ msgs m, m ∈ msgs ∧
    newSubmit { version := 0x30 } (List.replicate n (ascii "13800138000")) content 7 [] 1 ⟨24, 3, 9, 13, 30, 5⟩ (fun i => UInt32.ofNat i) =
      some msgs := by
  have hl : (List.replicate n (ascii "13800138000")).length = n := List.length_replicate
  obtain ⟨msgs, slices, h1, h2, h3, _⟩ := cmpp_newSubmit { version := 0x30 } (List.replicate n (ascii "13800138000")) content 7 [] 1
    ⟨24, 3, 9, 13, 30, 5⟩ (fun i => UInt32.ofNat i) (by rw [hl]; omega)
  obtain ⟨s, r, h4⟩ := msgSlices_ne_nil 1 (Gosms.msgFmt content) content
  rw [h2, Option.some.injEq] at h4
  have : 0 < msgs.length := by rw [h3, h4]; simp
  exact ⟨msgs, msgs[0], List.getElem_mem _, h1⟩

end Cmpp

namespace Smgp

/-- **C140, SMGP, exactly.** Each packet of a text to up to 255 recipients has 126 bytes, 21 for each recipient, its content, and 20 more if the text has
several parts. -/
theorem smgp_recipients (zeroAll : Bool) (gbEnc : Bytes → Option Bytes) (ac : AuthConf) (phones : List Bytes) (content : Bytes)
    (seq : UInt32) (opts : List OptionFunc) (g : UInt8) (clock : Clock) (seqs : Nat → UInt32) (hp : phones.length ≤ 255) (msgs : List Submit)
    (h : newSubmit gbEnc ac phones content seq opts g clock seqs = some msgs) (m : Submit) (hm : m ∈ msgs) :
    ∃ frame, m.encode = some frame ∧ m.msgContent.length ≤ 140 ∧
      frame.length = 126 + 21 * phones.length + m.msgContent.length + (if msgs.length = 1 then 0 else 20) ∧
      (frame.length ≤ 5120 → Taken zeroAll .smgp frame) ∧ (5120 < frame.length → CutOff zeroAll .smgp frame) := by
  cases hgb : gbEnc content with
  | none =>
    simp only [newSubmit, hgb, Option.some.injEq] at h
    rw [← h] at hm; exact absurd hm (by simp)
  | some data =>
    obtain ⟨msgs', slices, h1, hsl, _, hl, h4⟩ := smgp_newSubmit gbEnc ac phones content data seq opts g clock seqs hp hgb
    obtain rfl := Option.some.inj (h1.symm.trans h)
    obtain ⟨i, hi, rfl⟩ := List.getElem_of_mem hm
    obtain ⟨hok, htl, hv, hcmd, _, hph, hcont, _⟩ := h4 i hi (hl ▸ hi)
    obtain ⟨sl', hsl', hfit, _⟩ := slices_fit g data 140 (by decide)
    obtain rfl := Option.some.inj (hsl'.symm.trans hsl)
    have h140 : msgs'[i].msgContent.length ≤ 140 := by
      rw [hcont]; exact hfit _ (List.getElem_mem _)
    have hbody := length_submitBody msgs'[i] (partTlvs sl'.length i)
    rw [hph, length_tlvsWire_part] at hbody
    have hlen : (Spec.header12 msgs'[i].hdr.totalLength msgs'[i].hdr.commandId msgs'[i].hdr.sequenceId ++
        Spec.Smgp.submitBody msgs'[i] (partTlvs sl'.length i)).length = 12 + (Spec.Smgp.submitBody msgs'[i] (partTlvs sl'.length i)).length := by
      rw [List.length_append]; simp [Spec.header12, length_be32]
    refine ⟨_, submit_encode _ _ hok ?_, h140, ?_, ?_⟩
    · by_cases h1 : sl'.length = 1
      · exact .inl ⟨by rwa [if_pos h1] at htl, by simp [partTlvs, h1]⟩
      · exact .inr ⟨by rwa [if_neg h1] at htl, by simp [partTlvs, h1]⟩
    · rw [hlen, hbody, hl]
      split <;> omega
    · refine taken_or_cut zeroAll .smgp 2 (by decide) _ ?_ ?_ ?_
      · rw [hlen, hbody]; omega
      · rw [declared_header12, hok.total, hlen]
      · rw [command_header12, hcmd]

/-- **C140, SMGP: the limits.** To up to 230 recipients every packet is taken; to 238 and up to 255 none is, and the connection is lost; to more than 255
nothing is sent at all, and the caller is not told. -/
theorem smgp_recipient_limits_partial (zeroAll : Bool) (gbEnc : Bytes → Option Bytes) (ac : AuthConf) (phones : List Bytes) (content : Bytes)
    (seq : UInt32) (opts : List OptionFunc) (g : UInt8) (clock : Clock) (seqs : Nat → UInt32) (msgs : List Submit)
    (h : newSubmit gbEnc ac phones content seq opts g clock seqs = some msgs) (m : Submit) (hm : m ∈ msgs) :
    ∃ frame, m.encode = some frame ∧ (phones.length ≤ 230 → Taken zeroAll .smgp frame) ∧
      (238 ≤ phones.length → phones.length ≤ 255 → CutOff zeroAll .smgp frame) ∧ (255 < phones.length → frame = []) := by
  by_cases hp : phones.length ≤ 255
  · obtain ⟨frame, he, h140, hlen, ht, hc⟩ := smgp_recipients zeroAll gbEnc ac phones content seq opts g clock seqs hp msgs h m hm
    refine ⟨frame, he, fun hn => ht ?_, fun hn _ => hc ?_, fun hn => by omega⟩
    · rw [hlen]; split <;> omega
    · rw [hlen]; omega
  · exact ⟨[], smgp_newSubmit_too_many gbEnc ac phones content seq opts g clock seqs (by omega) msgs h m hm,
      fun hn => by omega, fun _ hn => by omega, fun _ => rfl⟩

/-- The hypotheses are met: any text to 230 recipients, and to 238. -/
example (n : Nat) (hn : n = 230 ∨ n = 238) (content : Bytes) : ∃ msgs m, m ∈ msgs ∧
    newSubmit some { version := 0x30 } (List.replicate n (ascii "13800138000")) content 7 [] 1 ⟨24, 3, 9, 13, 30, 5⟩ (fun i => UInt32.ofNat i) =
      some msgs := by
  have hl : (List.replicate n (ascii "13800138000")).length = n := List.length_replicate
  obtain ⟨msgs, slices, h1, _, h2, h3, _⟩ := smgp_newSubmit some { version := 0x30 } (List.replicate n (ascii "13800138000")) content content 7 []
    1 ⟨24, 3, 9, 13, 30, 5⟩ (fun i => UInt32.ofNat i) (by rw [hl]; omega) rfl
  have : 0 < msgs.length := by rw [h3]; exact List.length_pos_iff.2 h2
  exact ⟨msgs, msgs[0], List.getElem_mem _, h1⟩

end Smgp

namespace Sgip

/-- The head of a submit, whatever its strings are. -/
theorem submit_head (s : Submit) (hl : s.hdr.packetLength.toNat = 143 + s.userNumber.length * 21 + s.messageContent.length) :
    ∃ f, s.encode = some f ∧ f.length = s.hdr.packetLength.toNat ∧
      f.take 20 = header20 s.hdr.packetLength s.hdr.commandId s.hdr.seq0 s.hdr.seq1 s.hdr.seq2 := by
  have hmap : ∀ l : List Bytes, advance (l.map fun p => WOp.free 21 p) = l.length * 21 := by
    intro l
    induction l with
    | nil => rfl
    | cons a l ih => simp only [List.map_cons, advance, WOp.adv, ih, List.length_cons]; omega
  have key : ∀ ops : List WOp, (∀ op ∈ ops, op.NoSeek) → 20 + advance ops ≤ s.hdr.packetLength.toNat →
      ∃ f, encodeWithS s.hdr (.seek 20 :: ops) = some f ∧ f.length = s.hdr.packetLength.toNat ∧
        f.take 20 = header20 s.hdr.packetLength s.hdr.commandId s.hdr.seq0 s.hdr.seq1 s.hdr.seq2 := by
    intro ops hn hl
    unfold encodeWithS
    rw [sheader_encode, sclamp_of_le (by omega)]
    obtain ⟨f', h1, h2, h3⟩ := runW_total ops
      (Spec.header20 s.hdr.packetLength s.hdr.commandId s.hdr.seq0 s.hdr.seq1 s.hdr.seq2 ++ zeros (s.hdr.packetLength.toNat - 20))
      20 20 hn (by simp; omega) (by omega)
    refine ⟨f', ?_, by rw [h2]; simp; omega, ?_⟩
    · rw [Option.bind_some, runW]
      simp only [WOp.exec, Option.bind_some, h1, Option.map_some]
    · rw [h3, List.take_left' (by simp [Spec.header20])]
  unfold Submit.encode Submit.ops
  simp only [List.cons_append, List.nil_append]
  refine key _ ?_ ?_
  · simp [or_imp, forall_and, WOp.NoSeek]
  · simp only [advance, advance_append, hmap, WOp.adv]
    omega

/-- **C140, SGIP, exactly.** Each packet of a text has 143 bytes, 21 for each recipient and its content, whatever the fields hold and however many recipients
there are (below 2²⁷, so that the length can be written down). -/
theorem sgip_recipients (zeroAll : Bool) (ac : AuthConf) (phones : List Bytes) (content : Bytes) (opts : List OptionFunc) (g : UInt8)
    (expiry : Clock) (seqs : Nat → Seq3) (hp : phones.length < 2 ^ 27) (msgs : List Submit)
    (h : newSubmit ac phones content opts g expiry seqs = some msgs) (m : Submit) (hm : m ∈ msgs) :
    ∃ frame, m.encode = some frame ∧ m.messageContent.length ≤ 160 ∧
      frame.length = 143 + 21 * phones.length + m.messageContent.length ∧
      (frame.length ≤ 5120 → Taken zeroAll .sgip frame) ∧ (5120 < frame.length → CutOff zeroAll .sgip frame) := by
  have key : m.hdr.commandId = 3 ∧ m.userNumber = phones ∧ m.messageContent.length ≤ 160 ∧
      m.hdr.packetLength = UInt32.ofNat (143 + phones.length * 21 + m.messageContent.length) := by
    obtain ⟨slices, hsl, hfit⟩ := msgSlices_fit g (msgFmt content) content
    have h160 : ∀ s ∈ slices, s.length ≤ 160 := fun s hs => by
      have := hfit s hs; split at this <;> omega
    unfold newSubmit at h
    simp only [Option.map_eq_some_iff] at h
    obtain ⟨sl, hs, rfl⟩ := h
    obtain rfl := Option.some.inj (hsl.symm.trans hs)
    split at hm
    · rw [List.mem_singleton] at hm
      rw [hm]
      exact ⟨rfl, rfl, h160 _ (by simp), rfl⟩
    · rw [List.mem_iff_getElem] at hm
      obtain ⟨i, hi, rfl⟩ := hm
      rw [List.getElem_mapIdx]
      exact ⟨rfl, rfl, h160 _ (List.getElem_mem _), rfl⟩
  obtain ⟨hcmd, hu, h160, hpl⟩ := key
  have htot : m.hdr.packetLength.toNat = 143 + m.userNumber.length * 21 + m.messageContent.length := by
    rw [hpl, hu, UInt32.toNat_ofNat']
    omega
  obtain ⟨f, he, hlen, hhead⟩ := submit_head m htot
  have hf : f = header20 m.hdr.packetLength m.hdr.commandId m.hdr.seq0 m.hdr.seq1 m.hdr.seq2 ++ f.drop 20 := by
    rw [← hhead, List.take_append_drop]
  have h20 : ∀ x : Bytes, header20 m.hdr.packetLength m.hdr.commandId m.hdr.seq0 m.hdr.seq1 m.hdr.seq2 ++ x =
      header12 m.hdr.packetLength m.hdr.commandId m.hdr.seq0 ++ (be32 m.hdr.seq1 ++ (be32 m.hdr.seq2 ++ x)) := by
    intro x; simp [header20, header12]
  rw [h20] at hf
  refine ⟨f, he, h160, by rw [hlen, htot, hu]; omega, ?_⟩
  refine taken_or_cut zeroAll .sgip 3 (by decide) f (by rw [hlen, htot]; omega) ?_ ?_
  · rw [hf, declared_header12, ← hf, hlen]
  · rw [hf, command_header12, hcmd]

/-- **C140, SGIP: the limits.** To up to 229 recipients every packet is taken; to 238 or more none is, and the connection is lost. -/
theorem sgip_recipient_limits_partial (zeroAll : Bool) (ac : AuthConf) (phones : List Bytes) (content : Bytes) (opts : List OptionFunc)
    (g : UInt8) (expiry : Clock) (seqs : Nat → Seq3) (hp : phones.length < 2 ^ 27) (msgs : List Submit)
    (h : newSubmit ac phones content opts g expiry seqs = some msgs) (m : Submit) (hm : m ∈ msgs) :
    ∃ frame, m.encode = some frame ∧ (phones.length ≤ 229 → Taken zeroAll .sgip frame) ∧
      (238 ≤ phones.length → CutOff zeroAll .sgip frame) := by
  obtain ⟨frame, he, h160, hlen, ht, hc⟩ := sgip_recipients zeroAll ac phones content opts g expiry seqs hp msgs h m hm
  exact ⟨frame, he, fun hn => ht (by omega), fun hn => hc (by omega)⟩

/-- The hypotheses are met: any text to 229 recipients, and to 238. -/
example (n : Nat) (hn : n = 229 ∨ n = 238) (content : Bytes) : ∃ msgs m, m ∈ msgs ∧
    newSubmit {} (List.replicate n (ascii "13800138000")) content [] 1 ⟨24, 3, 9, 13, 30, 5⟩ (fun i => (1, 2, UInt32.ofNat i)) =
      some msgs := by
  have hl : (List.replicate n (ascii "13800138000")).length = n := List.length_replicate
  obtain ⟨msgs, slices, h1, _, h2, h3, _⟩ := sgip_newSubmit {} (List.replicate n (ascii "13800138000")) content [] 1 ⟨24, 3, 9, 13, 30, 5⟩
    (fun i => (1, 2, UInt32.ofNat i)) (by rw [hl]; omega)
  have : 0 < msgs.length := by rw [h3]; exact List.length_pos_iff.2 h2
  exact ⟨msgs, msgs[0], List.getElem_mem _, h1⟩

end Sgip

end Gosms
