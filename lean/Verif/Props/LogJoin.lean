import Verif.Props.Logging
import Verif.Props.Printing
import Verif.Props.Snowflake
import Verif.Props.CmppLogin
import Verif.Props.CmppResponses
import Verif.Props.CmppDeliver
import Verif.Props.SmgpLogin
import Verif.Props.SmgpDeliver
import Verif.Props.Sgip
import Verif.Spec.LogJoin

/-! # C120: a message can be followed through the logs -/

namespace Gosms.Logging
open Gosms.Spec.LogJoin

/-! ## Headers -/

theorem cmppHeader_shows {h : Header} {ls : List Field} (e : cmppHeader h = some ls) (k : String) (fs : List Field)
    (hk : k = "seq") (hn : fs.filter (fun f => f.key == k) = []) : Shows (ls ++ fs) k (.num h.sequenceId.toNat) := by
  unfold cmppHeader header at e
  obtain ⟨n, _, rfl⟩ := Option.map_eq_some_iff.1 e
  subst hk
  rw [Shows, List.filter_append, hn]
  rfl

theorem smgpHeader_shows {h : Header} {ls : List Field} (e : smgpHeader h = some ls) (k : String) (fs : List Field)
    (hk : k = "seq") (hn : fs.filter (fun f => f.key == k) = []) : Shows (ls ++ fs) k (.num h.sequenceId.toNat) := by
  unfold smgpHeader header at e
  obtain ⟨n, _, rfl⟩ := Option.map_eq_some_iff.1 e
  subst hk
  rw [Shows, List.filter_append, hn]
  rfl

theorem cmpp_no {h : Header} {ls : List Field} (e : cmppHeader h = some ls) (k : String)
    (hk : k ∉ ["pkl", "op", "seq"]) : ls.filter (fun f => f.key == k) = [] := by
  unfold cmppHeader header at e
  obtain ⟨n, _, rfl⟩ := Option.map_eq_some_iff.1 e
  simp only [List.mem_cons, List.not_mem_nil, or_false, not_or] at hk
  simp [fnum, fstr, Ne.symm hk.1, Ne.symm hk.2.1, Ne.symm hk.2.2]

theorem smgp_no {h : Header} {ls : List Field} (e : smgpHeader h = some ls) (k : String)
    (hk : k ∉ ["pkl", "op", "seq"]) : ls.filter (fun f => f.key == k) = [] := by
  unfold smgpHeader header at e
  obtain ⟨n, _, rfl⟩ := Option.map_eq_some_iff.1 e
  simp only [List.mem_cons, List.not_mem_nil, or_false, not_or] at hk
  simp [fnum, fstr, Ne.symm hk.1, Ne.symm hk.2.1, Ne.symm hk.2.2]

theorem sgip_no {h : SHeader} {ls : List Field} (e : sgipHeader h = some ls) (k : String)
    (hk : k ∉ ["pkl", "op", "seq", "seq_12"]) : ls.filter (fun f => f.key == k) = [] := by
  unfold sgipHeader at e
  obtain ⟨n, _, rfl⟩ := Option.map_eq_some_iff.1 e
  simp only [List.mem_cons, List.not_mem_nil, or_false, not_or] at hk
  simp [fnum, fstr, Ne.symm hk.1, Ne.symm hk.2.1, Ne.symm hk.2.2.1, Ne.symm hk.2.2.2]

theorem sgipHeader_shows {h : SHeader} {ls : List Field} (e : sgipHeader h = some ls) (fs : List Field)
    (hn : fs.filter (fun f => f.key == "seq") = []) (hn' : fs.filter (fun f => f.key == "seq_12") = []) :
    Shows (ls ++ fs) "seq" (.num (h.seq1.toNat * 2 ^ 32 + h.seq2.toNat : Nat)) ∧
    Shows (ls ++ fs) "seq_12" (.str (seq12 h.seq0 h.seq1 h.seq2)) := by
  unfold sgipHeader at e
  obtain ⟨n, _, rfl⟩ := Option.map_eq_some_iff.1 e
  constructor
  · rw [Shows, List.filter_append, hn]; rfl
  · rw [Shows, List.filter_append, hn']; rfl


theorem cmpp_seq {h : Header} {x : Option (List Field)} {fs : List Field} (e : x = (cmppHeader h).map (· ++ fs))
    (hn : fs.filter (fun f => f.key == "seq") = []) : ∃ ls, x = some ls ∧ Shows ls "seq" (.num h.sequenceId.toNat) := by
  obtain ⟨l, hl⟩ := header_cmpp h
  exact ⟨l ++ fs, by rw [e, hl]; rfl, cmppHeader_shows hl "seq" fs rfl hn⟩

theorem smgp_seq {h : Header} {x : Option (List Field)} {fs : List Field} (e : x = (smgpHeader h).map (· ++ fs))
    (hn : fs.filter (fun f => f.key == "seq") = []) : ∃ ls, x = some ls ∧ Shows ls "seq" (.num h.sequenceId.toNat) := by
  obtain ⟨l, hl⟩ := header_smgp h
  exact ⟨l ++ fs, by rw [e, hl]; rfl, smgpHeader_shows hl "seq" fs rfl hn⟩

theorem sgip_seq {h : SHeader} {x : Option (List Field)} {fs : List Field} (e : x = (sgipHeader h).map (· ++ fs))
    (hn : fs.filter (fun f => f.key == "seq") = []) (hn' : fs.filter (fun f => f.key == "seq_12") = []) :
    ∃ ls, x = some ls ∧ Shows ls "seq" (.num (h.seq1.toNat * 2 ^ 32 + h.seq2.toNat : Nat)) ∧
      Shows ls "seq_12" (.str (seq12 h.seq0 h.seq1 h.seq2)) := by
  obtain ⟨l, hl⟩ := header_sgip h
  exact ⟨l ++ fs, by rw [e, hl]; rfl, sgipHeader_shows hl fs hn hn'⟩

theorem map_nil {α : Type} (x : Option (List α)) : x = x.map (· ++ []) := by cases x <;> simp

theorem cmppHeader_seq (h : Header) : ∃ ls, cmppHeader h = some ls ∧ Shows ls "seq" (.num h.sequenceId.toNat) :=
  cmpp_seq (map_nil _) rfl

theorem smgpHeader_seq (h : Header) : ∃ ls, smgpHeader h = some ls ∧ Shows ls "seq" (.num h.sequenceId.toNat) :=
  smgp_seq (map_nil _) rfl

theorem cmppSubmit_seq (s : Cmpp.Submit) : ∃ ls, cmppSubmit s = some ls ∧ Shows ls "seq" (.num s.hdr.sequenceId.toNat) := by
  obtain ⟨u, hu⟩ := users s.termIds (if Cmpp.v3 s.version then 32 else 21) (by split <;> decide)
  obtain ⟨l, hl⟩ := header_cmpp s.hdr
  refine cmpp_seq (h := s.hdr) (by unfold cmppSubmit; rw [hl, hu]; rfl) rfl

theorem cmppDelivery_seq (d : Cmpp.Delivery) (hr : d.registeredDelivery = 1 → d.report.isSome) :
    ∃ ls, cmppDelivery d = some ls ∧ Shows ls "seq" (.num d.hdr.sequenceId.toNat) := by
  obtain ⟨c, hc⟩ : ∃ c, cmppContent d = some c := by
    unfold cmppContent
    by_cases h1 : d.registeredDelivery = 1
    · obtain ⟨r, h2⟩ := Option.isSome_iff_exists.1 (hr h1)
      rw [if_pos h1, h2]
      exact ⟨_, rfl⟩
    · rw [if_neg h1]
      exact ⟨_, rfl⟩
  obtain ⟨l, hl⟩ := header_cmpp d.hdr
  refine cmpp_seq (h := d.hdr) (by unfold cmppDelivery; rw [hl, hc]; rfl) rfl

theorem smgpDelivery_seq (d : Smgp.Delivery) (hr : d.isReport = 1 → d.report.isSome) :
    ∃ ls, smgpDelivery d = some ls ∧ Shows ls "seq" (.num d.hdr.sequenceId.toNat) := by
  obtain ⟨c, hc⟩ : ∃ c, smgpContent d = some c := by
    unfold smgpContent
    by_cases h1 : d.isReport = 1
    · obtain ⟨r, h2⟩ := Option.isSome_iff_exists.1 (hr h1)
      rw [if_pos h1, h2]
      exact ⟨_, rfl⟩
    · rw [if_neg h1]
      exact ⟨_, rfl⟩
  obtain ⟨l, hl⟩ := header_smgp d.hdr
  refine smgp_seq (h := d.hdr) (by unfold smgpDelivery; rw [hl, hc]; rfl) rfl

theorem joined {a b : Option (List Field)} {k : String} {v v' : Val} (ha : ∃ ls, a = some ls ∧ Shows ls k v)
    (hb : ∃ ls, b = some ls ∧ Shows ls k v') (h : v = v') : Joined a b k k := by
  obtain ⟨x, hx, sx⟩ := ha
  obtain ⟨y, hy, sy⟩ := hb
  exact ⟨x, y, v, hx, hy, sx, h ▸ sy⟩

/-! ## A response's record shows its request's number -/

/-- C120, CMPP: the record of a packet and the record of the response to it show the same sequence number: logins, submits,
deliveries, heartbeats and terminations, whatever they contain and whatever the answer. -/
theorem cmpp_answers_join (md5 : Bytes → Bytes) (c : Cmpp.Connect) (s : Cmpp.Submit) (d : Cmpp.Delivery)
    (hr : d.registeredDelivery = 1 → d.report.isSome) (h : Header) (code : UInt32) (id : UInt64) :
    Joined (cmppConnect c) (cmppConnectResp (c.toResponse md5 code)) "seq" "seq" ∧
    Joined (cmppSubmit s) (cmppRsp (s.toResponse code id)) "seq" "seq" ∧
    Joined (cmppDelivery d) (cmppRsp (d.toResponse code)) "seq" "seq" ∧
    Joined (cmppHeader h) (cmppHeader (Cmpp.activeTestToResponse h code)) "seq" "seq" ∧
    Joined (cmppHeader h) (cmppHeader (Cmpp.terminateToResponse h code)) "seq" "seq" := by
  have rsp : ∀ r, ∃ ls, cmppRsp r = some ls ∧ Shows ls "seq" (.num r.hdr.sequenceId.toNat) := fun r =>
    cmpp_seq (h := r.hdr) rfl rfl
  refine ⟨joined (cmpp_seq (h := c.hdr) rfl rfl) (cmpp_seq rfl rfl) rfl, joined (cmppSubmit_seq s) (rsp _) rfl,
    joined (cmppDelivery_seq d hr) (rsp _) rfl, joined (cmppHeader_seq h) (cmppHeader_seq _) rfl,
    joined (cmppHeader_seq h) (cmppHeader_seq _) rfl⟩

/-- C120, SMGP. -/
theorem smgp_answers_join (md5 : Bytes → Bytes) (c : Smgp.Login) (s : Smgp.Submit) (d : Smgp.Delivery)
    (hr : d.isReport = 1 → d.report.isSome) (h : Header) (code : UInt32) (id : Bytes) :
    Joined (smgpLogin c) (smgpLoginRsp (c.toResponse md5 code)) "seq" "seq" ∧
    Joined (smgpSubmit s) (smgpRsp (s.toResponse code id)) "seq" "seq" ∧
    Joined (smgpDelivery d) (smgpRsp (d.toResponse code id)) "seq" "seq" ∧
    Joined (smgpHeader h) (smgpHeader (Smgp.activeTestToResponse h code)) "seq" "seq" ∧
    Joined (smgpHeader h) (smgpHeader (Smgp.exitToResponse h code)) "seq" "seq" := by
  have rsp : ∀ r, ∃ ls, smgpRsp r = some ls ∧ Shows ls "seq" (.num r.hdr.sequenceId.toNat) := fun r =>
    smgp_seq (h := r.hdr) rfl rfl
  refine ⟨joined (smgp_seq (h := c.hdr) rfl rfl) (smgp_seq rfl rfl) rfl, joined (smgp_seq (h := s.hdr) rfl rfl) (rsp _) rfl,
    joined (smgpDelivery_seq d hr) (rsp _) rfl, joined (smgpHeader_seq h) (smgpHeader_seq _) rfl,
    joined (smgpHeader_seq h) (smgpHeader_seq _) rfl⟩

theorem sgipReport_seq (r : Sgip.Report) (a b c : UInt32) (hm : r.mtSequence = [a, b, c]) :
    ∃ ls, sgipReport r = some ls ∧ Shows ls "seq" (.num (r.hdr.seq1.toNat * 2 ^ 32 + r.hdr.seq2.toNat : Nat)) ∧
      Shows ls "seq_12" (.str (seq12 r.hdr.seq0 r.hdr.seq1 r.hdr.seq2)) := by
  obtain ⟨l, hl⟩ := header_sgip r.hdr
  refine sgip_seq (h := r.hdr) (by unfold sgipReport; rw [hl, hm]; rfl) rfl rfl

theorem joined2 {a b : Option (List Field)} {k l : String} {v w v' w' : Val}
    (ha : ∃ ls, a = some ls ∧ Shows ls k v ∧ Shows ls l w) (hb : ∃ ls, b = some ls ∧ Shows ls k v' ∧ Shows ls l w')
    (h : v = v') (h' : w = w') : Joined a b k k ∧ Joined a b l l := by
  obtain ⟨x, hx, sx, tx⟩ := ha
  obtain ⟨y, hy, sy, ty⟩ := hb
  exact ⟨⟨x, y, v, hx, hy, sx, h ▸ sy⟩, ⟨x, y, w, hx, hy, tx, h' ▸ ty⟩⟩

/-- C120, SGIP: both the number and the three-part sequence. -/
theorem sgip_answers_join (b : Sgip.Bind) (s : Sgip.Submit) (d : Sgip.Deliver) (r : Sgip.Report)
    (hr : r.mtSequence.length = 3) (h : SHeader) (code : UInt32) (k : String) (hk : k = "seq" ∨ k = "seq_12") :
    Joined (sgipBind b) (sgipRsp (b.toResponse code)) k k ∧
    Joined (sgipSubmit s) (sgipRsp (s.toResponse code)) k k ∧
    Joined (sgipDeliver d) (sgipRsp (d.toResponse code)) k k ∧
    Joined (sgipReport r) (sgipRsp (r.toResponse code)) k k ∧
    Joined (sgipHeader h) (sgipHeader (Sgip.unbindToResponse h code)) k k := by
  have rsp : ∀ r, ∃ ls, sgipRsp r = some ls ∧ Shows ls "seq" (.num (r.hdr.seq1.toNat * 2 ^ 32 + r.hdr.seq2.toNat : Nat)) ∧
      Shows ls "seq_12" (.str (seq12 r.hdr.seq0 r.hdr.seq1 r.hdr.seq2)) := fun r => sgip_seq (h := r.hdr) rfl rfl rfl
  have hd : ∀ h : SHeader, ∃ ls, sgipHeader h = some ls ∧ Shows ls "seq" (.num (h.seq1.toNat * 2 ^ 32 + h.seq2.toNat : Nat)) ∧
      Shows ls "seq_12" (.str (seq12 h.seq0 h.seq1 h.seq2)) := fun h => sgip_seq (map_nil _) rfl rfl
  have rep := match hm : r.mtSequence, hr with
    | [x, y, z], _ => sgipReport_seq r x y z hm
  have j1 := joined2 (sgip_seq (h := b.hdr) (x := sgipBind b) rfl rfl rfl) (rsp (b.toResponse code)) rfl rfl
  have j2 := joined2 (sgip_seq (h := s.hdr) (x := sgipSubmit s) rfl rfl rfl) (rsp (s.toResponse code)) rfl rfl
  have j3 := joined2 (sgip_seq (h := d.hdr) (x := sgipDeliver d) rfl rfl rfl) (rsp (d.toResponse code)) rfl rfl
  have j4 := joined2 rep (rsp (r.toResponse code)) rfl rfl
  have j5 := joined2 (hd h) (hd (Sgip.unbindToResponse h code)) rfl rfl
  rcases hk with rfl | rfl
  · exact ⟨j1.1, j2.1, j3.1, j4.1, j5.1⟩
  · exact ⟨j1.2, j2.2, j3.2, j4.2, j5.2⟩

/-! ## Which packet a record is about -/

theorem atoi_zeros (n : Nat) (s : Bytes) : atoi (List.replicate n 0x30 ++ s) = atoi s := by
  unfold atoi
  induction n with
  | zero => rfl
  | succ n ih => rw [List.replicate_succ]; exact ih

theorem timeStamp2Str_inj {a b : UInt32} (h : timeStamp2Str a = timeStamp2Str b) : a = b := by
  have h' := congrArg atoi h
  unfold timeStamp2Str at h'
  rw [atoi_zeros, atoi_zeros, atoi_dec, atoi_dec] at h'
  exact UInt32.toNat.inj h'

theorem timeStamp2Str_length (a : UInt32) : (timeStamp2Str a).length = 10 := by
  rw [timeStamp2Str_decimal]; simp [Spec.decimal]

theorem seq12_inj {a b c a' b' c' : UInt32} (h : seq12 a b c = seq12 a' b' c') : a = a' ∧ b = b' ∧ c = c' := by
  unfold seq12 at h
  obtain ⟨h1, h2⟩ := List.append_inj h (by simp [timeStamp2Str_length])
  obtain ⟨h3, h4⟩ := List.append_inj h1 (by simp [timeStamp2Str_length])
  exact ⟨timeStamp2Str_inj h3, timeStamp2Str_inj h4, uint32HexString_injective _ _ h2⟩

/-- C120: the records of two packets show the same sequence under `seq_12` only if the packets have the same three-part
sequence. -/
theorem sgip_seq_12_tells (h h' : SHeader) (hj : Joined (sgipHeader h) (sgipHeader h') "seq_12" "seq_12") :
    h.seq0 = h'.seq0 ∧ h.seq1 = h'.seq1 ∧ h.seq2 = h'.seq2 := by
  obtain ⟨x, y, v, hx, hy, sx, sy⟩ := hj
  obtain ⟨_, h1, _, h2⟩ := sgip_seq (h := h) (map_nil _) rfl rfl
  obtain ⟨_, h3, _, h4⟩ := sgip_seq (h := h') (map_nil _) rfl rfl
  rw [hx] at h1; rw [hy] at h3
  cases h1; cases h3
  rw [Shows] at sx sy h2 h4
  rw [sx] at h2; rw [sy] at h4
  simp only [List.cons.injEq, Field.mk.injEq, true_and, and_true] at h2 h4
  exact seq12_inj (Val.str.inj (h2.symm.trans h4))

/-- C120 fails for the number under `seq` alone: it leaves out the node, so packets of any two nodes can show the same number. -/
theorem sgip_seq_number_fails (h : SHeader) (node : UInt32) :
    Joined (sgipHeader h) (sgipHeader { h with seq0 := node }) "seq" "seq" := by
  obtain ⟨x, h1, h2, _⟩ := sgip_seq (h := h) (map_nil _) rfl rfl
  obtain ⟨y, h3, h4, _⟩ := sgip_seq (h := { h with seq0 := node }) (map_nil _) rfl rfl
  exact ⟨x, y, _, h1, h3, h2, h4⟩

/-! ## Reports -/

/-- C120: the record of an SGIP report shows, under `mt_seq` and `mt_seq_12`, what the record of the submit whose sequence it
carries shows under `seq` and `seq_12`. -/
theorem sgip_report_join (s : Sgip.Submit) (r : Sgip.Report) (hm : r.mtSequence = [s.hdr.seq0, s.hdr.seq1, s.hdr.seq2]) :
    Joined (sgipSubmit s) (sgipReport r) "seq" "mt_seq" ∧ Joined (sgipSubmit s) (sgipReport r) "seq_12" "mt_seq_12" := by
  obtain ⟨x, h1, h2, h3⟩ := sgip_seq (h := s.hdr) (x := sgipSubmit s) rfl rfl rfl
  obtain ⟨l, hl⟩ := header_sgip r.hdr
  have e : sgipReport r = some (l ++ [fnum "mt_seq" (s.hdr.seq1.toNat * 2 ^ 32 + s.hdr.seq2.toNat),
      fstr "mt_seq_12" (seq12 s.hdr.seq0 s.hdr.seq1 s.hdr.seq2), fnum "reportType" r.reportType.toNat,
      fstr "userNumber" r.userNumber, ⟨"status", .status r.state.toNat⟩, fnum "errorCode" r.errorCode.toNat]) := by
    unfold sgipReport; rw [hl, hm]; rfl
  refine ⟨⟨x, _, _, h1, e, h2, ?_⟩, ⟨x, _, _, h1, e, h3, ?_⟩⟩
  · rw [Shows, List.filter_append, sgip_no hl _ (by decide)]; rfl
  · rw [Shows, List.filter_append, sgip_no hl _ (by decide)]; rfl

theorem smgp_report_record (d : Smgp.Delivery) (r : Smgp.Report) (h1 : d.isReport = 1) (hr : d.report = some r) :
    ∃ y, smgpDelivery d = some y ∧ Shows y "msgContent" (.str r.string) ∧ Shows y "msgId" (.str (hex d.msgId)) := by
  obtain ⟨m, hm⟩ := header_smgp d.hdr
  have hc : smgpContent d = some r.string := by unfold smgpContent; rw [if_pos h1, hr]; rfl
  refine ⟨_, by unfold smgpDelivery; rw [hm, hc]; rfl, ?_, ?_⟩
  · rw [Shows, List.filter_append, smgp_no hm _ (by decide)]; rfl
  · rw [Shows, List.filter_append, smgp_no hm _ (by decide)]; rfl

theorem cmpp_report_record (d : Cmpp.Delivery) (r : Cmpp.Report) (h1 : d.registeredDelivery = 1) (hr : d.report = some r) :
    ∃ y, cmppDelivery d = some y ∧ Shows y "msgContent" (.str (cmppReportString r)) ∧
      Shows y "msgId" (.str (uint64HexString d.msgId)) := by
  obtain ⟨m, hm⟩ := header_cmpp d.hdr
  have hc : cmppContent d = some (cmppReportString r) := by unfold cmppContent; rw [if_pos h1, hr]; rfl
  refine ⟨_, by unfold cmppDelivery; rw [hm, hc]; rfl, ?_, ?_⟩
  · rw [Shows, List.filter_append, cmpp_no hm _ (by decide)]; rfl
  · rw [Shows, List.filter_append, cmpp_no hm _ (by decide)]; rfl

theorem smgp_rsp_record (r : Smgp.Rsp) : ∃ x, smgpRsp r = some x ∧ Shows x "msgId" (.str (hex r.msgId)) ∧
    Shows x "status" (.status r.status.toNat) ∧ Shows x "seq" (.num r.hdr.sequenceId.toNat) := by
  obtain ⟨m, hm⟩ := header_smgp r.hdr
  refine ⟨_, by unfold smgpRsp; rw [hm]; rfl, ?_, ?_, smgpHeader_shows hm _ _ rfl rfl⟩
  · rw [Shows, List.filter_append, smgp_no hm _ (by decide)]; rfl
  · rw [Shows, List.filter_append, smgp_no hm _ (by decide)]; rfl

theorem cmpp_rsp_record (r : Cmpp.Rsp) : ∃ x, cmppRsp r = some x ∧ Shows x "msgId" (.str (uint64HexString r.msgId)) ∧
    Shows x "status" (.status r.result.toNat) ∧ Shows x "seq" (.num r.hdr.sequenceId.toNat) := by
  obtain ⟨m, hm⟩ := header_cmpp r.hdr
  refine ⟨_, by unfold cmppRsp; rw [hm]; rfl, ?_, ?_, cmppHeader_shows hm _ _ rfl rfl⟩
  · rw [Shows, List.filter_append, cmpp_no hm _ (by decide)]; rfl
  · rw [Shows, List.filter_append, cmpp_no hm _ (by decide)]; rfl

theorem sgip_rsp_record (r : Sgip.Rsp) : ∃ x, sgipRsp r = some x ∧ Shows x "status" (.status r.status.toNat) ∧
    Shows x "seq_12" (.str (seq12 r.hdr.seq0 r.hdr.seq1 r.hdr.seq2)) := by
  obtain ⟨m, hm⟩ := header_sgip r.hdr
  refine ⟨_, by unfold sgipRsp; rw [hm]; rfl, ?_, (sgipHeader_shows hm _ rfl rfl).2⟩
  rw [Shows, List.filter_append, sgip_no hm _ (by decide)]; rfl

theorem newDeliveryReport_report {ac : AuthConf} {s : Smgp.Submit} {seq : UInt32} {id bcd : Bytes} {clock csub cdone : Clock}
    {unix : Nat} {d : Smgp.Delivery} (hd : Smgp.newDeliveryReport ac s seq id bcd clock csub cdone unix = some d) :
    d.isReport = 1 ∧ d.report = some (Smgp.newReport id csub cdone unix) := by
  unfold Smgp.newDeliveryReport at hd
  obtain ⟨src, _, rfl⟩ := Option.map_eq_some_iff.1 hd
  exact ⟨rfl, rfl⟩

theorem smgp_text_starts (r : Smgp.Report) : ∃ rest, r.string = ascii "id:" ++ hex r.id ++ 0x20 :: rest := by
  refine ⟨ascii "sub:" ++ (r.sub ++ (ascii " dlvrd:" ++ (r.dlvrd ++ (ascii " submit date:" ++ (r.submitDate ++
    (ascii " done date:" ++ (r.doneDate ++ (ascii " stat:" ++ (r.stat ++ (ascii " err:" ++ (r.err ++ (ascii " text:" ++
    Smgp.hexBytes r.txt)))))))))))), ?_⟩
  unfold Smgp.Report.string hex
  simp only [List.append_assoc]
  rfl

/-- C120: the record of an SMGP report starts with the id that the record of the submit's response shows. -/
theorem smgp_report_join (ac : AuthConf) (s : Smgp.Submit) (code : UInt32) (id bcd : Bytes) (seq : UInt32)
    (clock csub cdone : Clock) (unix : Nat) (d : Smgp.Delivery)
    (hd : Smgp.newDeliveryReport ac s seq (s.toResponse code id).msgId bcd clock csub cdone unix = some d) :
    ∃ x y shown rest, smgpRsp (s.toResponse code id) = some x ∧ smgpDelivery d = some y ∧
      Shows x "msgId" (.str shown) ∧ Shows y "msgContent" (.str (ascii "id:" ++ shown ++ 0x20 :: rest)) := by
  obtain ⟨h1, hr⟩ := newDeliveryReport_report hd
  obtain ⟨y, hy, sy, _⟩ := smgp_report_record d _ h1 hr
  obtain ⟨x, hx, sx, _⟩ := smgp_rsp_record (s.toResponse code id)
  obtain ⟨rest, e⟩ := smgp_text_starts (Smgp.newReport (s.toResponse code id).msgId csub cdone unix)
  exact ⟨x, y, _, rest, hx, hy, sx, by rw [e] at sy; exact sy⟩

/-! ### CMPP: the id loses its leading zeros -/

theorem hexLoop_head (v k : Nat) : (hexLoop v k).head? = some (numTable.getD ((v >>> (4 * k)) &&& 0x0f) 0) := by
  cases k <;> rfl

theorem numTable_digit (d : Nat) (h : d < 16) : (numTable.getD d 0 = 0x30 ↔ d = 0) ∧ numTable.getD d 0 ≠ 0x20 := by
  have : ∀ d : Fin 16, (numTable.getD d.val 0 = 0x30 ↔ d.val = 0) ∧ numTable.getD d.val 0 ≠ 0x20 := by decide
  exact this ⟨d, h⟩

theorem hexLoop_noBlank (v k : Nat) : ∀ b ∈ hexLoop v k, b ≠ 0x20 := by
  have h15 : ∀ n, n &&& 15 < 16 := fun n => by
    rw [show (15 : Nat) = 2 ^ 4 - 1 from rfl, Nat.and_two_pow_sub_one_eq_mod]; omega
  induction k with
  | zero =>
    intro b hb
    rw [hexLoop, List.mem_singleton] at hb
    rw [hb]; exact (numTable_digit _ (h15 _)).2
  | succ k ih =>
    intro b hb
    rw [hexLoop, List.mem_cons] at hb
    rcases hb with hb | hb
    · rw [hb]; exact (numTable_digit _ (h15 _)).2
    · exact ih b hb

theorem hexNum_noBlank {ds : Bytes} (h : ∀ b ∈ ds, b ≠ 0x20) : ∀ b ∈ hexNum ds, b ≠ 0x20 := by
  intro b hb
  unfold hexNum at hb
  split at hb
  · rw [List.mem_singleton] at hb; rw [hb]; decide
  · exact h b ((List.dropWhile_sublist _).mem hb)

theorem hexVal_zeros (ds : Bytes) : Spec.hexVal (ds.dropWhile (· == 0x30)) = Spec.hexVal ds := by
  induction ds with
  | nil => rfl
  | cons d ds ih =>
    rw [List.dropWhile_cons]
    split
    · rename_i h
      rw [beq_iff_eq] at h
      rw [ih, h]
      rfl
    · rfl

/-- `%x` prints the value. -/
theorem hexNum_value (ds : Bytes) : Spec.hexVal (hexNum ds) = Spec.hexVal ds := by
  rw [← hexVal_zeros ds]
  unfold hexNum
  split
  · rename_i h; rw [h]; rfl
  · rfl

/-- `%x` and the 16-digit rendering agree exactly for numbers that need 16 digits. -/
theorem hexNum_same (id : UInt64) : hexNum (uint64HexString id) = uint64HexString id ↔ 2 ^ 60 ≤ id.toNat := by
  have hlt := id.toNat_lt
  have hd : (id.toNat >>> (4 * 15)) &&& 15 = id.toNat / 2 ^ 60 := by
    rw [show (15 : Nat) = 2 ^ 4 - 1 from rfl, Nat.and_two_pow_sub_one_eq_mod, Nat.shiftRight_eq_div_pow]; omega
  have hlen : (uint64HexString id).length = 16 := (uint64HexString_value id).1
  have hh : (uint64HexString id).head? = some (numTable.getD (id.toNat / 2 ^ 60) 0) := by
    rw [uint64HexString, hexLoop_head]
    rw [hd]
  have h0 := (numTable_digit (id.toNat / 2 ^ 60) (by omega)).1
  generalize uint64HexString id = ds at hlen hh ⊢
  cases ds with
  | nil => cases hlen
  | cons x ds =>
    simp only [List.head?_cons, Option.some.injEq] at hh
    rw [← hh] at h0
    unfold hexNum
    rw [List.dropWhile_cons]
    by_cases hx : x = 0x30
    · simp only [hx, beq_self_eq_true, if_true]
      have hn : id.toNat / 2 ^ 60 = 0 := h0.1 hx
      refine ⟨fun e => ?_, fun e => by omega⟩
      exfalso
      have hs : (ds.dropWhile (· == 0x30)).length ≤ ds.length := (List.dropWhile_sublist _).length_le
      simp only [List.length_cons] at hlen
      split at e
      · have := congrArg List.length e
        simp only [List.length_cons, List.length_nil] at this
        omega
      · have := congrArg List.length e
        simp only [List.length_cons] at this
        omega
    · have hb : (x == 0x30) = false := by rw [beq_eq_false_iff_ne]; exact hx
      simp only [hb]
      refine ⟨fun _ => ?_, fun _ => rfl⟩
      have : id.toNat / 2 ^ 60 ≠ 0 := fun e => hx (h0.2 e)
      omega

theorem firstWord_append (w t : Bytes) (h : ∀ b ∈ w, b ≠ 0x20) : firstWord (w ++ 0x20 :: t) = w := by
  unfold firstWord
  induction w with
  | nil => rfl
  | cons x w ih =>
    have hx : (x != 0x20) = true := by rw [bne_iff_ne]; exact h x List.mem_cons_self
    rw [List.cons_append, List.takeWhile_cons, hx]
    simp only [if_true]
    rw [ih fun b hb => h b (List.mem_cons_of_mem _ hb)]

theorem cmpp_text_id (r : Cmpp.Report) : firstWord (cmppReportString r) = hexNum (uint64HexString r.msgId) := by
  have e : cmppReportString r = hexNum (uint64HexString r.msgId) ++ 0x20 :: (padRight 7 r.stat ++ (ascii " " ++
      (padRight 10 r.submitTime ++ (ascii " " ++ (padRight 10 r.doneTime ++ (ascii " " ++ (padRight 21 r.destTerminalId ++
      (ascii " " ++ dec r.smscSequence.toNat)))))))) := by
    unfold cmppReportString
    simp only [List.append_assoc]
    rfl
  rw [e]
  exact firstWord_append _ _ (hexNum_noBlank (hexLoop_noBlank _ _))

/-- C120, CMPP: the text of a report's record starts with a word that, read as a hexadecimal number, is the id that the record of
the submit's response shows. It is the same text only if the id needs all sixteen digits; missing: the other ids. The record
of the report also has a field `msgId`, which is the report's own id and not the message's. -/
theorem cmpp_report_join_partial (s : Cmpp.Submit) (id rid : UInt64) (seq smsc : UInt32) (sub done : Bytes) :
    ∃ x y shown own text, cmppRsp (s.toResponse 0 id) = some x ∧
      cmppDelivery (s.toDeliveryReport (s.toResponse 0 id).msgId seq rid smsc sub done) = some y ∧
      Shows x "msgId" (.str shown) ∧ Shows y "msgContent" (.str text) ∧ Shows y "msgId" (.str own) ∧
      Spec.hexVal (firstWord text) = some id.toNat ∧ Spec.hexVal shown = some id.toNat ∧
      (firstWord text = shown ↔ 2 ^ 60 ≤ id.toNat) ∧ (own = shown ↔ rid = id) := by
  obtain ⟨x, hx, sx, _⟩ := cmpp_rsp_record (s.toResponse 0 id)
  obtain ⟨y, hy, sy, ty⟩ := cmpp_report_record (s.toDeliveryReport (s.toResponse 0 id).msgId seq rid smsc sub done) _ rfl rfl
  refine ⟨x, y, _, _, _, hx, hy, sx, sy, ty, ?_, (uint64HexString_value id).2, ?_, ?_⟩
  · rw [cmpp_text_id, hexNum_value]
    exact (uint64HexString_value id).2
  · rw [cmpp_text_id]
    exact hexNum_same id
  · exact ⟨fun h => uint64HexString_injective _ _ h, fun h => by rw [show _ = id from h]; rfl⟩

theorem parse_small (id : BitVec 64) (h0 : sfEpoch ≤ (snowflakeParse id).timestamp)
    (h : (snowflakeParse id).timestamp < sfEpoch + 2 ^ 38) : id.toNat < 2 ^ 60 := by
  simp only [snowflakeParse] at h0 h
  have e : (id.sshiftRight 22).toInt = id.toInt / 2 ^ 22 := by
    rw [BitVec.toInt_sshiftRight, Int.shiftRight_eq_div_pow]; rfl
  rw [e] at h h0
  have h1 : id.toInt < 2 ^ 60 := by omega
  have h2 : 0 ≤ id.toInt := by omega
  have := BitVec.toInt_eq_toNat_cond id
  split at this <;> omega

/-- C120 fails for CMPP with the ids the server gives its messages until September 2028 (2 ^ 38 ms after the generator's epoch,
the first of January 2020): whatever the generator's state, the clock and the submit, the report's text does not start with the
id as the response's record shows it. -/
theorem cmpp_report_join_fails (g g' : Snowflake) (clock rest : List Int) (id : UInt64)
    (hg : g.nextVal clock = some ((id.toBitVec, g'), rest)) (hd : g.datacenterId.toNat < 8) (hw : g.workerId.toNat < 128)
    (hc : ∀ t ∈ clock, sfEpoch ≤ t ∧ t < sfEpoch + 2 ^ 38) (s : Cmpp.Submit) (rid : UInt64) (seq smsc : UInt32)
    (sub done : Bytes) :
    ∃ x y shown text, cmppRsp (s.toResponse 0 id) = some x ∧
      cmppDelivery (s.toDeliveryReport (s.toResponse 0 id).msgId seq rid smsc sub done) = some y ∧
      Shows x "msgId" (.str shown) ∧ Shows y "msgContent" (.str text) ∧ firstWord text ≠ shown := by
  obtain ⟨hp, ht, _⟩ := snowflake_origin g g' clock rest id.toBitVec hg hd hw fun c h => by
    have := hc c h
    refine ⟨this.1, ?_⟩
    unfold sfTimestampMax
    omega
  have hs := parse_small id.toBitVec (by rw [hp]; exact (hc _ ht).1) (by rw [hp]; exact (hc _ ht).2)
  obtain ⟨x, y, shown, _, text, hx, hy, sx, sy, _, _, _, hi, _⟩ := cmpp_report_join_partial s id rid seq smsc sub done
  refine ⟨x, y, shown, text, hx, hy, sx, sy, fun e => ?_⟩
  have := hi.1 e
  have e2 : id.toBitVec.toNat = id.toNat := rfl
  omega

/-- The generator as the server starts it, on the 16th of November 2026: the response shows `0`..., the report the rest. -/
example : ∃ id : UInt64, ∃ g' rest, (newSnowflake 1 2).nextVal [1794834000000] = some ((id.toBitVec, g'), rest) ∧
    uint64HexString id = ascii "0ca1f07d20082000" ∧
    firstWord (cmppReportString (Cmpp.newReport id (ascii "8613800138000") (ascii "2611161300") (ascii "2611161300") 7)) =
      ascii "ca1f07d20082000" := by
  refine ⟨0x0ca1f07d20082000, _, _, rfl, by decide +kernel, ?_⟩
  rw [cmpp_text_id]
  decide +kernel

theorem pad_row (n : Nat) (w t : Bytes) (ws : List Bytes) (h : Row t ws) :
    Row (padRight n w ++ (ascii " " ++ t)) (w :: ws) := by
  have e : padRight n w ++ (ascii " " ++ t) = w ++ List.replicate (n - w.length + 1) 0x20 ++ t := by
    rw [padRight, List.replicate_succ', show ascii " " = [0x20] from rfl]
    simp only [List.append_assoc]
  rw [e]
  exact Row.more w _ t ws h

/-- C120: the text of a CMPP report is a row of six words: the id, the state, the two times, the recipient and the number in the
message centre; the words stand in columns (of 7, 10, 10 and 21 characters) if they fit. -/
theorem cmpp_report_text (r : Cmpp.Report) :
    Row (cmppReportString r) [firstWord (cmppReportString r), r.stat, r.submitTime, r.doneTime, r.destTerminalId,
      dec r.smscSequence.toNat] ∧
    Spec.hexVal (firstWord (cmppReportString r)) = some r.msgId.toNat ∧
    (r.stat.length ≤ 7 → r.submitTime.length ≤ 10 → r.doneTime.length ≤ 10 → r.destTerminalId.length ≤ 21 →
      (cmppReportString r).length = (firstWord (cmppReportString r)).length + 1 + 7 + 1 + 10 + 1 + 10 + 1 + 21 + 1 +
        (dec r.smscSequence.toNat).length) := by
  rw [cmpp_text_id]
  refine ⟨?_, by rw [hexNum_value]; exact (uint64HexString_value _).2, ?_⟩
  · have e : cmppReportString r = hexNum (uint64HexString r.msgId) ++ List.replicate (0 + 1) 0x20 ++ (padRight 7 r.stat ++
        (ascii " " ++ (padRight 10 r.submitTime ++ (ascii " " ++ (padRight 10 r.doneTime ++ (ascii " " ++
        (padRight 21 r.destTerminalId ++ (ascii " " ++ dec r.smscSequence.toNat)))))))) := by
      unfold cmppReportString
      simp only [List.append_assoc]
      rfl
    rw [e]
    exact Row.more _ 0 _ _ (pad_row _ _ _ _ (pad_row _ _ _ _ (pad_row _ _ _ _ (pad_row _ _ _ _ (Row.last _)))))
  · intro h1 h2 h3 h4
    unfold cmppReportString
    simp only [padRight, List.length_append, List.length_replicate, show (ascii " ").length = 1 from rfl]
    omega

example : cmppReportString (Cmpp.newReport 0xab (ascii "8613800138000") (ascii "2611161300") (ascii "2611161301") 7) =
    ascii "ab DELIVRD 2611161300 2611161301 8613800138000         7" := by
  unfold cmppReportString
  have : ∀ r : Cmpp.Report, r.smscSequence = 7 → dec r.smscSequence.toNat = [0x37] := by
    intro r h
    rw [h]
    unfold dec
    rfl
  rw [this _ rfl]
  decide +kernel

/-! ## The answer that was sent -/

theorem session_no (c : Conn) (k : String) (hk : k ∉ ["server", "auth", "sid", "remote"]) :
    (session c).filter (fun f => f.key == k) = [] := by
  simp only [List.mem_cons, List.not_mem_nil, or_false, not_or] at hk
  simp [session, fnum, fstr, Ne.symm hk.1, Ne.symm hk.2.1, Ne.symm hk.2.2.1, Ne.symm hk.2.2.2]

theorem session_shows {c : Conn} {fs : List Field} {k : String} {v : Val} (hk : k ∉ ["server", "auth", "sid", "remote"])
    (h : Shows fs k v) : Shows (session c ++ fs) k v := by
  rw [Shows, List.filter_append, session_no c k hk]
  exact h

theorem cmpp_connect_resp_record (r : Cmpp.ConnectResp) : ∃ x, cmppConnectResp r = some x ∧
    Shows x "status" (.status r.status.toNat) ∧ Shows x "seq" (.num r.hdr.sequenceId.toNat) := by
  obtain ⟨m, hm⟩ := header_cmpp r.hdr
  refine ⟨_, by unfold cmppConnectResp; rw [hm]; rfl, ?_, cmppHeader_shows hm _ _ rfl rfl⟩
  rw [Shows, List.filter_append, cmpp_no hm _ (by decide)]; rfl

theorem smgp_login_rsp_record (r : Smgp.LoginRsp) : ∃ x, smgpLoginRsp r = some x ∧
    Shows x "status" (.status r.status.toNat) ∧ Shows x "seq" (.num r.hdr.sequenceId.toNat) := by
  obtain ⟨m, hm⟩ := header_smgp r.hdr
  refine ⟨_, by unfold smgpLoginRsp; rw [hm]; rfl, ?_, smgpHeader_shows hm _ _ rfl rfl⟩
  rw [Shows, List.filter_append, smgp_no hm _ (by decide)]; rfl

/-- One code for the log and the frame. -/
theorem cmpp_task (md5 : Bytes → Bytes) (c : Conn) (d : ServerTraffic.Draw) (l : Cmpp.Connect) :
    ∃ (k : Cmpp.Connect) (code : UInt8) (adm : Option AuthConf) (rs : List Rec) (b : List Field), k.version = l.version ∧
      cmppConnectResp (k.toResponse md5 code.toUInt32) = some b ∧
      cmppLoginTask md5 c d l = some (rs ++ [⟨.info, session (afterLogin c adm) ++ b⟩]) ∧
      ServerTraffic.cmppConnect md5 d l =
        ServerTraffic.loginReply (k.toResponse md5 code.toUInt32).encode adm := by
  obtain ⟨a, ha⟩ := cmppConnect_some l
  have hver : (l.check md5 (d.find l.sourceAddr)).2.version = l.version := by
    unfold Cmpp.Connect.check
    split
    · rfl
    · split
      · rfl
      · split <;> rfl
  let k := l.check md5 (d.find l.sourceAddr)
  let adm := ServerTraffic.admitted (d.find l.sourceAddr) (k.1 = 0) d.sessions
  let code : UInt8 := if k.1 = 0 ∧ adm = none then 5 else k.1
  obtain ⟨b, hb⟩ := cmppConnectResp_some (k.2.toResponse md5 code.toUInt32)
  refine ⟨k.2, code, adm, [⟨.info, session c ++ a⟩] ++ cmppAuthCheck md5 l (d.find l.sourceAddr), b, hver, hb, ?_, rfl⟩
  unfold cmppLoginTask
  dsimp only
  rw [do1 ha]
  exact do1 hb

theorem session_tells (c : Conn) (b : List Field) : Tells (session c ++ b) c c.clientId := ⟨b, rfl⟩

theorem login_tells (c : Conn) (adm : Option AuthConf) (b : List Field) :
    Tells (session (afterLogin c adm) ++ b) c (match ServerTraffic.replyAfter adm with | .login ac => ac.clientId | _ => c.clientId) := by
  cases adm <;> exact ⟨b, rfl⟩

/-- C120, CMPP: the last record of a login shows the status and the sequence number that the client reads from the frame it is
sent, and names the connection and the account it is logged in with afterwards. -/
theorem cmpp_login_told (gbDec : Bytes → Option Bytes) (ver : UInt8) (md5 : Bytes → Bytes) (h16 : ∀ x, (md5 x).length = 16)
    (c : Conn) (d : ServerTraffic.Draw) (cmd seq : UInt32) (body spare : Bytes) (l : Cmpp.Connect)
    (hl : Cmpp.Connect.decode seq (Buf.exact body) = some l) :
    ∃ rs fs frame after r, login .cmpp md5 c none d cmd seq body = some (rs ++ [⟨.info, fs⟩]) ∧
      ServerTraffic.work gbDec md5 .cmpp ver .login seq body d = [.send frame after] ∧
      recv (Cmpp.ConnectResp.decode l.version) frame spare = some r ∧
      Shows fs "status" (.status r.status.toNat) ∧ Shows fs "seq" (.num r.hdr.sequenceId.toNat) ∧
      Tells fs c (match after with | .login ac => ac.clientId | _ => c.clientId) := by
  obtain ⟨rc, hrc, _⟩ := received_some .cmpp c cmd body
  obtain ⟨k, code, adm, rs, b, hver, hb, ht, hw⟩ := cmpp_task md5 c d l
  have hw' : ServerTraffic.work gbDec md5 .cmpp ver .login seq body d = ServerTraffic.cmppConnect md5 d l := by
    simp only [ServerTraffic.work, hl, Option.map_some, Option.getD_some]
  have hcode : code.toUInt32.toNat < 256 := by rw [UInt8.toNat_toUInt32]; exact code.toNat_lt
  obtain ⟨_, _, _, _, _, _, frame, he, _, _, hrecv⟩ := Cmpp.cmpp_connect_response md5 h16 k code.toUInt32 hcode spare
  rw [hver] at hrecv
  obtain ⟨x, hx, s1, s2⟩ := cmpp_connect_resp_record (k.toResponse md5 code.toUInt32)
  rw [hx] at hb
  cases hb
  refine ⟨rc :: rs, _, frame, ServerTraffic.replyAfter adm, _, ?_, ?_, hrecv, session_shows (c := afterLogin c adm) (by decide) s1,
    session_shows (by decide) s2, login_tells c adm _⟩
  · unfold login
    rw [do1 hrc]
    simp only [hl, Option.bind_some, ht]
    rfl
  · rw [hw', hw]
    unfold ServerTraffic.loginReply ServerTraffic.write
    rw [he]

/-- One code for the log and the frame. -/
theorem smgp_task (md5 : Bytes → Bytes) (c : Conn) (d : ServerTraffic.Draw) (l : Smgp.Login) :
    ∃ (k : Smgp.Login) (code : UInt32) (adm : Option AuthConf) (rs : List Rec) (b : List Field),
      smgpLoginRsp (k.toResponse md5 code) = some b ∧
      smgpLoginTask md5 c d l = some (rs ++ [⟨.info, session (afterLogin c adm) ++ b⟩]) ∧
      ServerTraffic.smgpLogin md5 d l = ServerTraffic.loginReply (k.toResponse md5 code).encode adm := by
  obtain ⟨a, ha⟩ := smgpLogin_some l
  let k := l.check md5 (d.find l.clientID)
  let adm := ServerTraffic.admitted (d.find l.clientID) (k.1 = 0) d.sessions
  let code : UInt32 := if k.1 = 0 ∧ adm = none then 2 else k.1
  obtain ⟨b, hb⟩ := smgpLoginRsp_some (k.2.toResponse md5 code)
  refine ⟨k.2, code, adm, [⟨.info, session c ++ a⟩] ++ smgpAuthCheck md5 l (d.find l.clientID), b, hb, ?_, rfl⟩
  unfold smgpLoginTask
  dsimp only
  rw [do1 ha]
  exact do1 hb

/-- C120, SMGP. -/
theorem smgp_login_told (gbDec : Bytes → Option Bytes) (ver : UInt8) (md5 : Bytes → Bytes) (h16 : ∀ x, (md5 x).length = 16)
    (c : Conn) (d : ServerTraffic.Draw) (cmd seq : UInt32) (body spare : Bytes)
    (hl : (Smgp.Login.decode seq (Buf.exact body)).isSome) :
    ∃ rs fs frame after r, login .smgp md5 c none d cmd seq body = some (rs ++ [⟨.info, fs⟩]) ∧
      ServerTraffic.work gbDec md5 .smgp ver .login seq body d = [.send frame after] ∧
      recv Smgp.LoginRsp.decode frame spare = some r ∧
      Shows fs "status" (.status r.status.toNat) ∧ Shows fs "seq" (.num r.hdr.sequenceId.toNat) ∧
      Tells fs c (match after with | .login ac => ac.clientId | _ => c.clientId) := by
  obtain ⟨l, hl⟩ := Option.isSome_iff_exists.1 hl
  obtain ⟨rc, hrc, _⟩ := received_some .smgp c cmd body
  obtain ⟨k, code, adm, rs, b, hb, ht, hw⟩ := smgp_task md5 c d l
  have hw' : ServerTraffic.work gbDec md5 .smgp ver .login seq body d = ServerTraffic.smgpLogin md5 d l := by
    simp only [ServerTraffic.work, hl, Option.map_some, Option.getD_some]
  obtain ⟨_, _, _, _, _, _, frame, he, _, _, hrecv⟩ := Smgp.smgp_login_response md5 h16 k code spare
  obtain ⟨x, hx, s1, s2⟩ := smgp_login_rsp_record (k.toResponse md5 code)
  rw [hx] at hb
  cases hb
  refine ⟨rc :: rs, _, frame, ServerTraffic.replyAfter adm, _, ?_, ?_, hrecv, session_shows (c := afterLogin c adm) (by decide) s1,
    session_shows (by decide) s2, login_tells c adm _⟩
  · unfold login
    rw [do1 hrc]
    simp only [hl, Option.bind_some, ht]
    rfl
  · rw [hw', hw]
    unfold ServerTraffic.loginReply ServerTraffic.write
    rw [he]

/-- One code for the log and the frame. -/
theorem sgip_task (c : Conn) (d : ServerTraffic.Draw) (l : Sgip.Bind) :
    ∃ (code : UInt8) (adm : Option AuthConf) (rs : List Rec) (b : List Field),
      sgipRsp (l.toResponse code.toUInt32) = some b ∧
      sgipLoginTask c d l = some (rs ++ [⟨.info, session (afterLogin c adm) ++ b⟩]) ∧
      ServerTraffic.sgipBind d l = ServerTraffic.loginReply (Sgip.bindRspEncode (l.toResponse code.toUInt32)) adm := by
  obtain ⟨a, ha⟩ := sgipBind_some l
  let k := l.check (d.find l.loginName)
  let adm := ServerTraffic.admitted (d.find l.loginName) (k = 0) d.sessions
  let code : UInt8 := if k = 0 ∧ adm = none then 3 else k
  obtain ⟨b, hb⟩ := sgipRsp_some (l.toResponse code.toUInt32)
  refine ⟨code, adm, [⟨.info, session c ++ a⟩], b, hb, ?_, rfl⟩
  unfold sgipLoginTask
  dsimp only
  rw [do1 ha]
  exact do1 hb

/-- C120, SGIP: the status and the three-part sequence. -/
theorem sgip_login_told (gbDec : Bytes → Option Bytes) (ver : UInt8) (md5 : Bytes → Bytes)
    (c : Conn) (d : ServerTraffic.Draw) (cmd seq : UInt32) (body spare : Bytes)
    (hl : (Sgip.Bind.decode seq (Buf.exact body)).isSome) :
    ∃ rs fs frame after r, login .sgip md5 c none d cmd seq body = some (rs ++ [⟨.info, fs⟩]) ∧
      ServerTraffic.work gbDec md5 .sgip ver .login seq body d = [.send frame after] ∧
      recv Sgip.bindRspDecode frame spare = some r ∧
      Shows fs "status" (.status r.status.toNat) ∧ Shows fs "seq_12" (.str (seq12 r.hdr.seq0 r.hdr.seq1 r.hdr.seq2)) ∧
      Tells fs c (match after with | .login ac => ac.clientId | _ => c.clientId) := by
  obtain ⟨l, hl⟩ := Option.isSome_iff_exists.1 hl
  obtain ⟨rc, hrc, _⟩ := received_some .sgip c cmd body
  obtain ⟨code, adm, rs, b, hb, ht, hw⟩ := sgip_task c d l
  have hw' : ServerTraffic.work gbDec md5 .sgip ver .login seq body d = ServerTraffic.sgipBind d l := by
    simp only [ServerTraffic.work, hl, Option.map_some, Option.getD_some]
  obtain ⟨frame, he, _, hrecv⟩ := (Sgip.sgip_responses_roundtrip l {} {} {} code.toUInt32 spare).1
  obtain ⟨x, hx, s1, s2⟩ := sgip_rsp_record (l.toResponse code.toUInt32)
  rw [hx] at hb
  cases hb
  refine ⟨rc :: rs, _, frame, ServerTraffic.replyAfter adm, _, ?_, ?_, hrecv, session_shows (c := afterLogin c adm) (by decide) s1,
    session_shows (by decide) s2, login_tells c adm _⟩
  · unfold login
    rw [do1 hrc]
    simp only [hl, Option.bind_some, ht]
    rfl
  · rw [hw', hw]
    unfold ServerTraffic.loginReply ServerTraffic.write
    rw [he]

/-- C120: the record of the answer to a submit (the last one) shows the id, the status and the sequence number that the client
reads from the frame, in all three protocols, whether the submit was taken, refused or over the rate, and names the connection and its account. -/
theorem submit_told (gbDec : Bytes → Option Bytes) (c : Conn) (ver : UInt8) (allow : Bool) (result : UInt32) (id : UInt64)
    (bcd : Bytes) (hb : bcd.length = 10) (cmd seq : UInt32) (body spare : Bytes) :
    (∀ s, Cmpp.Submit.decode ver seq (Buf.exact body) = some s → Spec.major s.version = 3 ∨ result.toNat < 256 →
      ∃ rs fs frame r, submit .cmpp gbDec c ver none allow result id bcd cmd seq body = some (rs ++ [⟨.debug, fs⟩]) ∧
        (s.toResponse result id).encode = some frame ∧
        recv (Cmpp.Rsp.decode 0x80000004 s.version) frame spare = some r ∧
        Shows fs "msgId" (.str (uint64HexString r.msgId)) ∧ Shows fs "status" (.status r.result.toNat) ∧
        Shows fs "seq" (.num r.hdr.sequenceId.toNat) ∧ Tells fs c c.clientId) ∧
    (∀ s, Smgp.Submit.decode gbDec ver seq (Buf.exact body) = some s →
      ∃ rs fs frame r, submit .smgp gbDec c ver none allow result id bcd cmd seq body = some (rs ++ [⟨.debug, fs⟩]) ∧
        (s.toResponse result bcd).encode = some frame ∧
        recv (Smgp.Rsp.decode 0x80000002 s.version) frame spare = some r ∧
        Shows fs "msgId" (.str (hex r.msgId)) ∧ Shows fs "status" (.status r.status.toNat) ∧
        Shows fs "seq" (.num r.hdr.sequenceId.toNat) ∧ Tells fs c c.clientId) ∧
    (∀ s, Sgip.Submit.decode seq (Buf.exact body) = some s →
      ∃ rs fs frame r, submit .sgip gbDec c ver none allow result id bcd cmd seq body = some (rs ++ [⟨.debug, fs⟩]) ∧
        (s.toResponse result).encode = some frame ∧
        recv (Sgip.Rsp.decode 0x80000003) frame spare = some r ∧
        Shows fs "status" (.status r.status.toNat) ∧
        Shows fs "seq_12" (.str (seq12 r.hdr.seq0 r.hdr.seq1 r.hdr.seq2)) ∧ Tells fs c c.clientId) := by
  refine ⟨fun s hs hres => ?_, fun s hs => ?_, fun s hs => ?_⟩
  · obtain ⟨rc, hrc, _⟩ := received_some .cmpp c cmd body
    obtain ⟨a, ha⟩ := cmppSubmit_some s
    obtain ⟨x, hx, s1, s2, s3⟩ := cmpp_rsp_record (s.toResponse result id)
    obtain ⟨frame, he, _, hrecv⟩ := Cmpp.cmpp_submit_response_roundtrip s result id spare hres
    cases allow
    · refine ⟨[rc, flowControlled c], session c ++ x, frame, _, ?_, he, hrecv, session_shows (by decide) s1,
        session_shows (by decide) s2, session_shows (by decide) s3, session_tells c x⟩
      unfold submit
      rw [do1 hrc]
      simp [hs, hx]
    · refine ⟨[rc, ⟨.debug, session c ++ a⟩], session c ++ x, frame, _, ?_, he, hrecv, session_shows (by decide) s1,
        session_shows (by decide) s2, session_shows (by decide) s3, session_tells c x⟩
      unfold submit
      rw [do1 hrc]
      simp [hs, hx, ha, submitTask]
  · obtain ⟨rc, hrc, _⟩ := received_some .smgp c cmd body
    obtain ⟨a, ha⟩ := smgpSubmit_some s
    obtain ⟨x, hx, s1, s2, s3⟩ := smgp_rsp_record (s.toResponse result bcd)
    obtain ⟨frame, he, _, hrecv⟩ := (Smgp.smgp_responses_roundtrip s {} result bcd spare hb).1
    cases allow
    · refine ⟨[rc, flowControlled c], session c ++ x, frame, _, ?_, he, hrecv, session_shows (by decide) s1,
        session_shows (by decide) s2, session_shows (by decide) s3, session_tells c x⟩
      unfold submit
      rw [do1 hrc]
      simp [hs, hx]
    · refine ⟨[rc, ⟨.debug, session c ++ a⟩], session c ++ x, frame, _, ?_, he, hrecv, session_shows (by decide) s1,
        session_shows (by decide) s2, session_shows (by decide) s3, session_tells c x⟩
      unfold submit
      rw [do1 hrc]
      simp [hs, hx, ha, submitTask]
  · obtain ⟨rc, hrc, _⟩ := received_some .sgip c cmd body
    obtain ⟨a, ha⟩ := sgipSubmit_some s
    obtain ⟨x, hx, s1, s2⟩ := sgip_rsp_record (s.toResponse result)
    obtain ⟨frame, he, _, hrecv⟩ := (Sgip.sgip_responses_roundtrip {} s {} {} result spare).2.1
    cases allow
    · refine ⟨[rc, flowControlled c], session c ++ x, frame, _, ?_, he, hrecv, session_shows (by decide) s1,
        session_shows (by decide) s2, session_tells c x⟩
      unfold submit
      rw [do1 hrc]
      simp [hs, hx]
    · refine ⟨[rc, ⟨.debug, session c ++ a⟩], session c ++ x, frame, _, ?_, he, hrecv, session_shows (by decide) s1,
        session_shows (by decide) s2, session_tells c x⟩
      unfold submit
      rw [do1 hrc]
      simp [hs, hx, ha, submitTask]

example : (Cmpp.Connect.decode 1 (Buf.exact ServerTraffic.demoLogin)).isSome ∧
    (Smgp.Login.decode 1 (Buf.exact (zeros 30))).isSome ∧ (Sgip.Bind.decode 1 (Buf.exact (zeros 49))).isSome := by
  decide +kernel

example : (Cmpp.Submit.decode 0x20 1 (Buf.exact (zeros 117 ++ [1] ++ List.replicate 21 0x31 ++ [1, 65] ++ zeros 8))).isSome ∧
    (Smgp.Submit.decode some 0x20 1 (Buf.exact (zeros 105 ++ [1] ++ List.replicate 21 0x31 ++ [1, 65] ++ zeros 8))).isSome ∧
    (Sgip.Submit.decode 1 (Buf.exact (List.replicate 119 0 ++ [0, 0, 0, 2, 65, 66] ++ zeros 8))).isSome := by decide +kernel

/-! ## Both ends -/

theorem cmpp_report_shown (d : Cmpp.Delivery) (r : Cmpp.Report) (h1 : d.registeredDelivery = 1) (hr : d.report = some r) :
    ∃ y, cmppDelivery d = some y ∧ Shows y "msgContent" (.str (cmppReportString r)) := by
  obtain ⟨y, hy, sy, _⟩ := cmpp_report_record d r h1 hr
  exact ⟨y, hy, sy⟩

theorem smgp_report_shown (d : Smgp.Delivery) (r : Smgp.Report) (h1 : d.isReport = 1) (hr : d.report = some r) :
    ∃ y, smgpDelivery d = some y ∧ Shows y "msgContent" (.str r.string) := by
  obtain ⟨y, hy, sy, _⟩ := smgp_report_record d r h1 hr
  exact ⟨y, hy, sy⟩

theorem cmpp_stat_fits (smsc : UInt32) : Spec.Fits 7 (Cmpp.reportStat smsc) := by
  unfold Cmpp.reportStat
  repeat' split
  all_goals decide

/-- C120: a report's record shows the same text at the server that sends it and at the client that receives it. -/
theorem report_text_both_ends (cs : Cmpp.Submit) (id rid : UInt64) (seq smsc : UInt32) (sub done : Bytes) (g : UInt8)
    (hcs : Cmpp.DeliverFits (cs.toDeliveryReport id seq rid smsc sub done)) (hsub : Spec.Fits 10 sub) (hdone : Spec.Fits 10 done)
    (hdest : Spec.Fits 21 cs.destTerminalId) (gbDec : Bytes → Option Bytes) (ac : AuthConf) (ss : Smgp.Submit)
    (bcd bcd' : Bytes) (clock csub cdone : Clock) (unix : Nat) (d : Smgp.Delivery) (h10 : bcd.length = 10)
    (hd : Smgp.newDeliveryReport ac ss seq bcd bcd' clock csub cdone unix = some d) (hfit : Spec.Smgp.DeliverFits d)
    (spare : Bytes) :
    (∃ frame d' text, (cs.toDeliveryReport id seq rid smsc sub done).encode g = some frame ∧
      recv (Cmpp.Delivery.decode cs.version) frame spare = some d' ∧
      (∃ x, cmppDelivery (cs.toDeliveryReport id seq rid smsc sub done) = some x ∧ Shows x "msgContent" (.str text)) ∧
      (∃ y, cmppDelivery d' = some y ∧ Shows y "msgContent" (.str text))) ∧
    (∃ frame d' text, d.encode = some frame ∧ recv (Smgp.Delivery.decode gbDec d.version) frame spare = some (some d') ∧
      (∃ x, smgpDelivery d = some x ∧ Shows x "msgContent" (.str text)) ∧
      (∃ y, smgpDelivery d' = some y ∧ Shows y "msgContent" (.str text))) := by
  constructor
  · obtain ⟨frame, he, _, _, hrecv⟩ := Cmpp.cmpp_deliver_report_roundtrip_partial
      (cs.toDeliveryReport id seq rid smsc sub done) g (Cmpp.newReport id cs.destTerminalId sub done smsc) spare rfl rfl rfl hcs
      (by unfold Cmpp.DeliverTotal Cmpp.Submit.toDeliveryReport
          by_cases h : Cmpp.v3 cs.version = true
          · simp only [h, (Cmpp.v3_iff _).1 h, if_true]; rfl
          · have h' : ¬ Spec.major cs.version = 3 := fun e => h ((Cmpp.v3_iff _).2 e)
            simp only [h, h', if_false]; rfl)
      (cmpp_stat_fits smsc) hsub hdone hdest
    obtain ⟨x, hx, sx, _⟩ := cmpp_report_record (cs.toDeliveryReport id seq rid smsc sub done) _ rfl rfl
    exact ⟨frame, _, _, he, hrecv, ⟨x, hx, sx⟩, cmpp_report_shown _ _ rfl rfl⟩
  · obtain ⟨h1, hr⟩ := newDeliveryReport_report hd
    obtain ⟨frame, he, _, hrecv⟩ := Smgp.smgp_deliver_report_roundtrip gbDec d _ spare h1 hr
      (Smgp.newReport_fits bcd csub cdone unix h10) hfit (by
        unfold Smgp.newDeliveryReport at hd
        obtain ⟨src, _, rfl⟩ := Option.map_eq_some_iff.1 hd
        rfl)
    obtain ⟨x, hx, sx, _⟩ := smgp_report_record d _ h1 hr
    exact ⟨frame, _, _, he, hrecv, ⟨x, hx, sx⟩, smgp_report_shown _ _ h1 rfl⟩

example : Cmpp.DeliverFits (({ destTerminalId := ascii "13800138000" } : Cmpp.Submit).toDeliveryReport 1 2 3 4 [] []) ∧
    (∃ d, Smgp.newDeliveryReport {} { destTermID := [ascii "13800138000"] } 1 (zeros 10) (zeros 10) ⟨0, 1, 1, 0, 0, 0⟩
      ⟨0, 1, 1, 0, 0, 0⟩ ⟨0, 1, 1, 0, 0, 0⟩ 0 = some d ∧ Spec.Smgp.DeliverFits d) :=
  ⟨⟨by decide, by decide, by decide, by decide⟩, _, rfl, ⟨by decide, by decide, by decide, by decide⟩⟩

/-! ## Levels -/

/-- C120: a log configured with level -1 shows every record, with 0 all but those at level debug, with 1 warnings and errors,
with 2 errors only, with 3 none of them. -/
theorem levels_shown (rs : List Rec) :
    shown (-1) rs = rs ∧ shown 0 rs = rs.filter (fun r => r.level != .debug) ∧
    shown 1 rs = rs.filter (fun r => r.level == .warn || r.level == .error) ∧
    shown 2 rs = rs.filter (fun r => r.level == .error) ∧ shown 3 rs = [] := by
  refine ⟨List.filter_eq_self.2 ?_, List.filter_congr ?_, List.filter_congr ?_, List.filter_congr ?_,
    List.filter_eq_nil_iff.2 ?_⟩ <;>
  · intro r _
    generalize r.level = l
    cases l <;> decide

end Gosms.Logging
