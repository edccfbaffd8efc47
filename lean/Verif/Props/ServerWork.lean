import Verif.Props.ServerTraffic
import Verif.Lemmas.WriterTotal

/-! # What each handler task sends (used for C76-C80) -/

namespace Gosms

theorem post_ite {α : Type} {c : Prop} [Decidable c] {a b : Rd α} {Φ : α → Prop} (ha : Rd.Post a Φ) (hb : Rd.Post b Φ) :
    Rd.Post (if c then a else b) Φ := by
  split
  · exact ha
  · exact hb

theorem Cmpp.submit_hdr {v : UInt8} {seq : UInt32} {f : Buf} {mt : Cmpp.Submit}
    (h : Cmpp.Submit.decode v seq f = some mt) : mt.hdr.sequenceId = seq ∧ mt.version = v := by
  refine Rd.run_post (Φ := fun (m : Cmpp.Submit) => m.hdr.sequenceId = seq ∧ m.version = v) ?_ h
  repeat' (first | refine Rd.post_bind' fun _ => ?_ | refine post_ite ?_ ?_ | exact Rd.post_pure ⟨rfl, rfl⟩ | dsimp only)

theorem Smgp.submit_hdr {g : Bytes → Option Bytes} {v : UInt8} {seq : UInt32} {f : Buf} {mt : Smgp.Submit}
    (h : Smgp.Submit.decode g v seq f = some mt) : mt.hdr.sequenceId = seq ∧ mt.version = v := by
  refine Rd.run_post (Φ := fun (m : Smgp.Submit) => m.hdr.sequenceId = seq ∧ m.version = v) ?_ h
  repeat (refine Rd.post_bind' fun _ => ?_)
  exact Rd.post_pure ⟨rfl, rfl⟩

theorem bind_u32Tail' {β : Type} {b : Bytes} {i : Nat} (k : UInt32 → Rd β) (h : i + 4 ≤ b.length) :
    (Rd.u32Tail >>= k) (Buf.exact b) i = k (rd32 ((b.drop i).take 4)) (Buf.exact b) (i + 4) := by
  have : Rd.u32Tail (Buf.exact b) i = Rd.u32 (Buf.exact b) i := if_pos h
  simp only [Rd.bind_def, Rd.bind, this]
  exact bind_u32' (k := k) (h := h)

theorem Sgip.submit_hdr {seq : UInt32} {body : Bytes} {mt : Sgip.Submit}
    (h : Sgip.Submit.decode seq (Buf.exact body) = some mt) :
    8 ≤ body.length ∧ mt.hdr.seq0 = seq ∧ mt.hdr.seq1 = rd32 (body.take 4) ∧ mt.hdr.seq2 = rd32 ((body.drop 4).take 4) := by
  have hl : 8 ≤ body.length := by
    have h1 := (Sgip.submit_needs seq body).1 (by rw [h]; rfl)
    unfold Spec.SgipSubmitBody at h1
    omega
  refine ⟨hl, ?_⟩
  unfold Sgip.Submit.decode at h
  simp (disch := omega) only [Rd.run, bind_length', bind_u32Tail', List.drop_zero, Nat.zero_add] at h
  have key : ∀ (r : Rd Sgip.Submit), Rd.Post r (fun m => m.hdr.seq0 = seq ∧ m.hdr.seq1 = rd32 (body.take 4) ∧
      m.hdr.seq2 = rd32 ((body.drop 4).take 4)) → (r (Buf.exact body) 8).map (·.1) = some mt →
      mt.hdr.seq0 = seq ∧ mt.hdr.seq1 = rd32 (body.take 4) ∧ mt.hdr.seq2 = rd32 ((body.drop 4).take 4) := by
    intro r hr he
    cases hx : r (Buf.exact body) 8 with
    | none => rw [hx] at he; cases he
    | some q =>
      rw [hx] at he
      simp only [Option.map_some, Option.some.injEq] at he
      rw [← he]
      exact hr _ _ _ _ hx
  refine key _ ?_ h
  repeat (refine Rd.post_bind' fun _ => ?_)
  exact Rd.post_pure ⟨rfl, rfl, rfl⟩

theorem Cmpp.connect_hdr {seq : UInt32} {f : Buf} {l : Cmpp.Connect}
    (h : Cmpp.Connect.decode seq f = some l) : l.hdr.sequenceId = seq := by
  refine Rd.run_post (Φ := fun (m : Cmpp.Connect) => m.hdr.sequenceId = seq) ?_ h
  repeat (refine Rd.post_bind' fun _ => ?_)
  exact Rd.post_pure rfl

theorem Smgp.login_hdr {seq : UInt32} {f : Buf} {l : Smgp.Login}
    (h : Smgp.Login.decode seq f = some l) : l.hdr.sequenceId = seq := by
  refine Rd.run_post (Φ := fun (m : Smgp.Login) => m.hdr.sequenceId = seq) ?_ h
  repeat (refine Rd.post_bind' fun _ => ?_)
  exact Rd.post_pure rfl

theorem Sgip.bind_hdr {seq : UInt32} {body : Bytes} {l : Sgip.Bind}
    (h : Sgip.Bind.decode seq (Buf.exact body) = some l) :
    8 ≤ body.length ∧ l.hdr.seq0 = seq ∧ l.hdr.seq1 = rd32 (body.take 4) ∧ l.hdr.seq2 = rd32 ((body.drop 4).take 4) := by
  have hl : 8 + 1 + 16 + 16 ≤ body.length := (Sgip.bind_needs seq body).1 (by rw [h]; rfl)
  refine ⟨by omega, ?_⟩
  unfold Sgip.Bind.decode at h
  simp (disch := omega) only [Rd.run, bind_length', bind_u32', bind_byte', bind_str', pure', Option.map_some,
    Option.some.injEq, List.drop_zero, Nat.zero_add] at h
  rw [← h]
  exact ⟨rfl, rfl, rfl⟩

/-- Writes at or after index `k` leave the first `k` bytes alone. -/
def KeepsHead (k : Nat) (ops : List WOp) : Prop := ∀ op ∈ ops, ∀ j, op = .seek j → k ≤ j

theorem runW_keeps {k : Nat} {ops : List WOp} (hk : KeepsHead k ops) :
    ∀ {f f' : Bytes} {i i' : Nat}, k ≤ i → runW ops f i = some (f', i') → f'.take k = f.take k := by
  induction ops with
  | nil => intro f f' i i' _ h; simp [runW] at h; rw [h.1]
  | cons op ops ih =>
    intro f f' i i' hi h
    simp only [runW] at h
    cases hx : op.exec f i with
    | none => rw [hx] at h; cases h
    | some q =>
      obtain ⟨g, j⟩ := q
      rw [hx] at h
      simp only [Option.bind_some] at h
      have hops : KeepsHead k ops := fun o ho => hk o (List.mem_cons_of_mem _ ho)
      cases op with
      | byte b =>
        simp only [WOp.exec] at hx
        split at hx
        · simp only [Option.some.injEq, Prod.mk.injEq] at hx
          rw [ih hops (by omega) h, ← hx.1]
          exact overwrite_take hi (by omega)
        · cases hx
      | str n s =>
        simp only [WOp.exec] at hx
        split at hx
        · simp only [Option.some.injEq, Prod.mk.injEq] at hx
          rw [ih hops (by omega) h, ← hx.1]
          exact overwrite_take hi (by omega)
        · cases hx
      | free n s =>
        simp only [WOp.exec] at hx
        split at hx
        · simp only [Option.some.injEq, Prod.mk.injEq] at hx
          rw [ih hops (by omega) h, ← hx.1]
          exact overwrite_take hi (by omega)
        · cases hx
      | seek m =>
        simp only [WOp.exec, Option.some.injEq, Prod.mk.injEq] at hx
        have := hk (.seek m) List.mem_cons_self m rfl
        rw [ih hops (by omega) h, hx.1]

/-- An encoder that only writes behind the header leaves the command and the sequence number in place. -/
theorem encodeWith_head {h : Header} {ops : List WOp} {f : Bytes} (hk : KeepsHead 12 ops)
    (he : encodeWith h ops = some f) : (f.drop 4).take 4 = be32 h.commandId := by
  unfold encodeWith at he
  rw [header_encode] at he
  simp only [Option.bind_some, Option.map_eq_some_iff] at he
  obtain ⟨⟨f', i⟩, h1, h2⟩ := he
  have h3 := runW_keeps hk (Nat.le_refl 12) h1
  simp only at h2
  subst h2
  have h4 : (f'.drop 4).take 4 = ((f'.take 12).drop 4).take 4 := by
    rw [List.drop_take, List.take_take]; rfl
  have h5 : (Spec.header12 h.clamp.totalLength h.commandId h.sequenceId).length = 12 := length_header12 _ _ _
  rw [h4, h3, List.take_append_of_le_length (Nat.le_of_eq h5.symm), List.take_of_length_le (Nat.le_of_eq h5)]
  simp [Spec.header12]

theorem Cmpp.delivery_cmd {d : Cmpp.Delivery} {g : UInt8} {f : Bytes} (h : d.encode g = some f) :
    (f.drop 4).take 4 = be32 d.hdr.commandId := by
  unfold Cmpp.Delivery.encode at h
  cases hc : d.contentBytes g with
  | none => rw [hc] at h; cases h
  | some c =>
    rw [hc] at h
    simp only [Option.bind_some] at h
    refine encodeWith_head ?_ h
    intro op hop j hj
    subst hj
    cases hv : Cmpp.v3 d.version <;> simp [hv] at hop <;> omega

theorem Smgp.delivery_cmd {d : Smgp.Delivery} {f : Bytes} (h : d.encode = some f) :
    (f.drop 4).take 4 = be32 d.hdr.commandId := by
  unfold Smgp.Delivery.encode at h
  dsimp only at h
  split at h
  · rename_i r _ _
    cases hr : r.encode with
    | none => rw [hr] at h; cases h
    | some c =>
      rw [hr] at h
      simp only [Option.bind_some] at h
      refine encodeWith_head ?_ h
      intro op hop j hj
      subst hj
      simp at hop; omega
  · refine encodeWith_head ?_ h
    intro op hop j hj
    subst hj
    simp at hop; omega

namespace ServerTraffic
open Handlers Spec.ServerTraffic

/-- What becomes of a submit: the rate limiter first, then the simulated failure. -/
def verdict (d : Draw) : Verdict := if d.allow = false then .limited else if d.fail then .refused else .accepted

theorem command_response (cmd seq : UInt32) (b : Bytes) : command (response cmd seq b) = be32 (Spec.responseOf cmd) := by
  simp [command, response, Spec.header12]

theorem v3_false {v : UInt8} (h : Cmpp.v3 v = false) : ¬ Spec.major v = 3 :=
  fun hh => by rw [(Cmpp.v3_iff _).2 hh] at h; cases h

theorem cmpp_submit_rsp {ver : UInt8} {seq : UInt32} {f : Buf} {mt : Cmpp.Submit}
    (h : Cmpp.Submit.decode ver seq f = some mt) (v : Verdict) (id : UInt64) (body bcd : Bytes) :
    (mt.toResponse (code .cmpp v) id).encode = some (submitResponse (Cmpp.v3 ver) .cmpp seq body v id bcd) := by
  obtain ⟨h1, h2⟩ := Cmpp.submit_hdr h
  rw [Cmpp.rsp_encode]
  · have e0 : (code .cmpp v = 0) ↔ v = .accepted := by cases v <;> decide
    have hid : (mt.toResponse (code .cmpp v) id).msgId = if v = .accepted then id else 0 := by
      simp only [Cmpp.Submit.toResponse, e0]
    simp only [submitResponse, response, Spec.Cmpp.rspBody, hid]
    cases hv : Cmpp.v3 ver
    · have hv' : ¬ Spec.major ver = 3 := fun hh => by rw [(Cmpp.v3_iff _).2 hh] at hv; cases hv
      simp [Cmpp.Submit.toResponse, h1, h2, hv, hv']
      rfl
    · have hv' : Spec.major ver = 3 := (Cmpp.v3_iff _).1 hv
      simp [Cmpp.Submit.toResponse, h1, h2, hv, hv']
      rfl
  · rw [Cmpp.length_rspBody]; exact Cmpp.total_rsp mt.version

theorem smgp_submit_rsp {gb : Bytes → Option Bytes} {ver : UInt8} {seq : UInt32} {f : Buf} {mt : Smgp.Submit}
    (h : Smgp.Submit.decode gb ver seq f = some mt) (v : Verdict) (id : UInt64) (body bcd : Bytes) :
    (mt.toResponse (code .smgp v) bcd).encode = some (submitResponse (Cmpp.v3 ver) .smgp seq body v id bcd) := by
  obtain ⟨h1, h2⟩ := Smgp.submit_hdr h
  rw [Smgp.rsp_encode _ rfl]
  have hl : (bcd.take 10 ++ List.replicate (10 - bcd.length) (0 : UInt8) ++ be32 (code .smgp v)).length = 14 := by
    simp; omega
  simp only [submitResponse, response, hl]
  simp [Spec.Smgp.rspBody, Smgp.Submit.toResponse, h1, pad, zeros]
  rfl

theorem sgip_submit_rsp {ver : UInt8} {seq : UInt32} {body : Bytes} {mt : Sgip.Submit}
    (h : Sgip.Submit.decode seq (Buf.exact body) = some mt) (v : Verdict) (id : UInt64) (bcd : Bytes) :
    (mt.toResponse (code .sgip v)).encode = some (submitResponse (Cmpp.v3 ver) .sgip seq body v id bcd) := by
  obtain ⟨hl, h0, h1, h2⟩ := Sgip.submit_hdr h
  rw [Sgip.rsp_encode _ rfl]
  have h4 : be32 (rd32 (body.take 4)) = body.take 4 := be32_rd32 (by simp; omega)
  have h8 : be32 (rd32 ((body.drop 4).take 4)) = (body.drop 4).take 4 := be32_rd32 (by simp; omega)
  have h48 : body.take 8 = body.take 4 ++ (body.drop 4).take 4 := by rw [← List.take_add]
  have hln : (body.take 8 ++ [(code .sgip v).toUInt8] ++ List.replicate 8 0).length = 17 := by simp; omega
  simp only [submitResponse, response, hln]
  simp only [Spec.Sgip.rspBody, Sgip.Submit.toResponse, Spec.header20, Spec.header12, h0, h1, h2, h4, h8, h48,
    List.append_assoc]
  simp [zeros]
  rfl

theorem cmpp_report_id {ver : UInt8} {seq : UInt32} {f : Buf} {mt : Cmpp.Submit}
    (h : Cmpp.Submit.decode ver seq f = some mt) {id : UInt64} {s2 smsc : UInt32} {rid : UInt64} {sub done : Bytes} {g : UInt8}
    {frame : Bytes} (hf : (mt.toDeliveryReport (mt.toResponse 0 id).msgId s2 rid smsc sub done).encode g = some frame) :
    reportId (Cmpp.v3 ver) .cmpp frame = be64 id := by
  obtain ⟨_, h2⟩ := Cmpp.submit_hdr h
  have hid : (mt.toResponse 0 id).msgId = id := by simp [Cmpp.Submit.toResponse]
  rw [hid] at hf
  have e2 : (mt.toDeliveryReport id s2 rid smsc sub done).report = some (Cmpp.newReport id mt.destTerminalId sub done smsc) := rfl
  have hc : (mt.toDeliveryReport id s2 rid smsc sub done).contentBytes g =
      some (Spec.Cmpp.reportBody (Cmpp.newReport id mt.destTerminalId sub done smsc)) := by
    rw [← Cmpp.report_encode]; rfl
  rw [Cmpp.deliver_encode _ _ _ hc] at hf
  · obtain rfl := Option.some.inj hf
    have hm : (Cmpp.newReport id mt.destTerminalId sub done smsc).msgId = id := rfl
    have h60 : ((60 : UInt8).toNat) = 60 := rfl
    have hl60 := Cmpp.length_reportBody (Cmpp.newReport id mt.destTerminalId sub done smsc)
    generalize hB : Spec.Cmpp.reportBody (Cmpp.newReport id mt.destTerminalId sub done smsc) = B at *
    have hB8 : B.take 8 = be64 id := by
      rw [← hB, Spec.Cmpp.reportBody, hm]; simp
    cases hv : Cmpp.v3 ver
    · have hv' := v3_false hv
      simp only [reportId, Bool.false_eq_true, if_false]
      have : Spec.header12 (mt.toDeliveryReport id s2 rid smsc sub done).hdr.totalLength
          (mt.toDeliveryReport id s2 rid smsc sub done).hdr.commandId
          (mt.toDeliveryReport id s2 rid smsc sub done).hdr.sequenceId ++
          Spec.Cmpp.deliverBody (mt.toDeliveryReport id s2 rid smsc sub done) B =
        (Spec.header12 (mt.toDeliveryReport id s2 rid smsc sub done).hdr.totalLength
          (mt.toDeliveryReport id s2 rid smsc sub done).hdr.commandId
          (mt.toDeliveryReport id s2 rid smsc sub done).hdr.sequenceId ++
          (be64 rid ++ pad 21 mt.srcId ++ pad 10 mt.serviceId ++ [0, 0, 0] ++ pad 21 mt.destTerminalId ++ [1, 60])) ++
          (B ++ zeros 8) := by
        simp [Spec.Cmpp.deliverBody, Cmpp.Submit.toDeliveryReport, h2, hv', pad_eq_self hl60]
      rw [this, List.drop_left' (by simp), List.take_append_of_le_length (by omega), hB8]
    · have hv' := (Cmpp.v3_iff _).1 hv
      simp only [reportId, if_true]
      have : Spec.header12 (mt.toDeliveryReport id s2 rid smsc sub done).hdr.totalLength
          (mt.toDeliveryReport id s2 rid smsc sub done).hdr.commandId
          (mt.toDeliveryReport id s2 rid smsc sub done).hdr.sequenceId ++
          Spec.Cmpp.deliverBody (mt.toDeliveryReport id s2 rid smsc sub done) B =
        (Spec.header12 (mt.toDeliveryReport id s2 rid smsc sub done).hdr.totalLength
          (mt.toDeliveryReport id s2 rid smsc sub done).hdr.commandId
          (mt.toDeliveryReport id s2 rid smsc sub done).hdr.sequenceId ++
          (be64 rid ++ pad 21 mt.srcId ++ pad 10 mt.serviceId ++ [0, 0, 0] ++ pad 32 mt.destTerminalId ++
            [mt.destTerminalType, 1, 60])) ++ (B ++ pad 20 []) := by
        simp [Spec.Cmpp.deliverBody, Cmpp.Submit.toDeliveryReport, h2, hv', pad_eq_self hl60]
      rw [this, List.drop_left' (by simp), List.take_append_of_le_length (by omega), hB8]
  · have hl60 := Cmpp.length_reportBody (Cmpp.newReport id mt.destTerminalId sub done smsc)
    cases hv : Cmpp.v3 ver
    · simp [Spec.Cmpp.deliverBody, Cmpp.Submit.toDeliveryReport, h2, v3_false hv, hv]
    · simp [Spec.Cmpp.deliverBody, Cmpp.Submit.toDeliveryReport, h2, (Cmpp.v3_iff _).1 hv, hv]

theorem smgp_report_id {ac : AuthConf} {mt : Smgp.Submit} {s2 : UInt32} {bcd nid : Bytes} {c1 c2 c3 : Clock} {unix : Nat}
    {v : Bool} {dd : Smgp.Delivery} {frame : Bytes} {id : UInt64} (hb : bcd.length = 10)
    (hdd : Smgp.newDeliveryReport ac mt s2 (mt.toResponse 0 bcd).msgId nid c1 c2 c3 unix = some dd)
    (hf : dd.encode = some frame) : reportId v .smgp frame = messageId .smgp id bcd := by
  have hid : (mt.toResponse 0 bcd).msgId = bcd := rfl
  rw [hid] at hdd
  unfold Smgp.newDeliveryReport at hdd
  obtain ⟨src, _, hdd⟩ := Option.map_eq_some_iff.1 hdd
  subst hdd
  have hfit := Smgp.newReport_fits bcd c2 c3 unix hb
  rw [Smgp.deliver_encode_report _ _ rfl rfl hfit rfl] at hf
  obtain rfl := Option.some.inj hf
  have hl := Smgp.length_reportBody hfit
  have e1 : Spec.Smgp.reportBody (Smgp.newReport bcd c2 c3 unix) = ascii "id:" ++ (bcd ++
      (Spec.Smgp.reportBody (Smgp.newReport bcd c2 c3 unix)).drop 13) := by
    have h1 : Spec.Smgp.reportBody (Smgp.newReport bcd c2 c3 unix) = (ascii "id:" ++ bcd) ++
      ((Spec.Smgp.reportBody (Smgp.newReport bcd c2 c3 unix)).drop 13) := by
      have h3 : (ascii "id:" ++ bcd).length = 13 := by rw [List.length_append, hb]; rfl
      have h4 : (Spec.Smgp.reportBody (Smgp.newReport bcd c2 c3 unix)).take 13 = ascii "id:" ++ bcd := by
        rw [Spec.Smgp.reportBody, List.flatten_cons, List.flatten_cons, ← List.append_assoc]
        exact List.take_left' h3
      rw [← h4, List.take_append_drop]
    rw [← List.append_assoc]
    exact h1
  simp only [reportId, messageId]
  generalize hr : (Spec.Smgp.reportBody (Smgp.newReport bcd c2 c3 unix)).drop 13 = rest at *
  rw [e1]
  simp only [Spec.Smgp.deliverBody, List.flatten_cons, List.append_assoc]
  have h3 : (ascii "id:").length = 3 := rfl
  have key : ∀ (A B C : Bytes), A.length = 84 → B.length = 10 → ((A ++ (B ++ C)).drop 84).take 10 = B := by
    intro A B C hA hB
    rw [List.drop_left' hA, List.take_left' hB]
  have := key (Spec.header12 (89 + 122) Smgp.DELIVER s2 ++ (pad 10 nid ++ ([1] ++ ([0] ++ (pad 14 (Smgp.formatSecond c1) ++ (pad 21 src ++
    (pad 21 mt.srcTermID ++ ([115] ++ ascii "id:")))))))) bcd (rest ++ (pad 8 [] ++ [])) (by simp [h3]) hb
  simpa only [List.append_assoc, List.flatten_nil] using this

/-- The two conditions under which the server gets to the end of its work on a submit: the account of the sender is found, and the
configured shortest processing time is less than the longest. -/
def Able (d : Draw) : Prop := d.account ≠ none ∧ d.minMs < d.maxMs

instance (d : Draw) : Decidable (Able d) := by unfold Able; infer_instance

theorem processTime_none {r : Nat} {a b : Int} (h : ¬ a < b) : Random.processTime r a b = none := by
  simp only [Random.processTime, Random.randNum, Random.intn]
  rw [if_pos (by omega)]; rfl

theorem processTime_some {r : Nat} {a b : Int} (h : a < b) : ∃ x, Random.processTime r a b = some x := by
  simp only [Random.processTime, Random.randNum, Random.intn]
  rw [if_neg (by omega)]; exact ⟨_, rfl⟩

/-- What a submit task sends: the response, then at most one report, and that only if the submit was accepted. -/
def SubmitWork (e : Env) (r : Req) : Prop :=
  (r.draw.allow = true → ¬ Able r.draw → sends (workOf e r) = []) ∧
  (r.draw.allow = false ∨ Able r.draw → ∃ reports,
    sends (workOf e r) = (submitResponse (Cmpp.v3 r.ver) e.proto r.seq r.body (verdict r.draw) r.draw.id r.draw.bcd,
      if verdict r.draw = .accepted then .mt else .none) :: reports ∧
    reports.length ≤ 1 ∧ (∀ x ∈ reports, verdict r.draw = .accepted ∧ x.2 = .rpt ∧
      command x.1 = be32 (deliverCmd e.proto) ∧ e.proto ≠ .sgip ∧
      ((e.proto = .smgp → r.draw.bcd.length = 10) →
        reportId (Cmpp.v3 r.ver) e.proto x.1 = messageId e.proto r.draw.id r.draw.bcd)))

theorem cmpp_submit_work {gb : Bytes → Option Bytes} {md5 : Bytes → Bytes} {ver : UInt8} {cmd seq : UInt32} {body : Bytes}
    {d : Draw} (hd : decodes gb ver seq body .cmpp .submit = true) :
    SubmitWork ⟨.cmpp, gb, md5⟩ ⟨ver, .submit, cmd, seq, body, d⟩ := by
  simp only [decodes] at hd
  obtain ⟨mt, hm⟩ := Option.isSome_iff_exists.1 hd
  unfold SubmitWork
  simp only [workOf, work, hm, Option.map_some, Option.getD_some, cmppSubmit, cmppCheck]
  refine ⟨fun h1 h2 => ?_, fun h => ?_⟩
  · rw [if_neg (by simp [h1])]
    cases ha : d.account with
    | none => rfl
    | some c =>
      rw [processTime_none (fun h => h2 ⟨by rw [ha]; simp, h⟩)]; rfl
  · have rs := fun v => cmpp_submit_rsp hm v d.id body d.bcd
    by_cases ha : d.allow = false
    · refine ⟨[], ?_, by simp, by simp⟩
      have hv : verdict d = .limited := by simp [verdict, ha]
      have h8 : code .cmpp .limited = 8 := rfl
      have := rs .limited
      rw [h8] at this
      rw [if_pos ha, hv, this]
      rfl
    · rw [if_neg ha]
      obtain ⟨c, hc⟩ := Option.ne_none_iff_exists'.1 (h.resolve_left ha).1
      obtain ⟨pt, hp⟩ := processTime_some (r := d.random) (h.resolve_left ha).2
      rw [hc, hp]
      simp only [Option.map_some]
      cases hf : d.fail
      · have hv : verdict d = .accepted := by simp [verdict, ha, hf]
        have := rs .accepted
        have h8 : code .cmpp .accepted = 0 := rfl
        rw [h8] at this
        simp only [Bool.false_eq_true, if_false, if_true, this, hv, respond, write]
        refine ⟨_, rfl, ?_, ?_⟩
        · unfold cmppReport write
          split
          · simp [sends]
          · split <;> simp [sends]
        · intro x hx
          unfold cmppReport write at hx
          split at hx
          · simp [sends] at hx
          · split at hx
            · rename_i f hf
              simp [sends] at hx
              rw [hx]
              refine ⟨trivial, rfl, ?_, by simp, fun _ => ?_⟩
              · rw [command, Cmpp.delivery_cmd hf]; rfl
              · exact cmpp_report_id hm hf
            · simp [sends] at hx
      · have hv : verdict d = .refused := by simp [verdict, ha, hf]
        have := rs .refused
        have h8 : code .cmpp .refused = 8 := rfl
        rw [h8] at this
        simp only [if_true, this, hv]
        exact ⟨[], rfl, by simp, by simp⟩

theorem smgp_submit_work {gb : Bytes → Option Bytes} {md5 : Bytes → Bytes} {ver : UInt8} {cmd seq : UInt32} {body : Bytes}
    {d : Draw} (hd : decodes gb ver seq body .smgp .submit = true) :
    SubmitWork ⟨.smgp, gb, md5⟩ ⟨ver, .submit, cmd, seq, body, d⟩ := by
  simp only [decodes] at hd
  obtain ⟨mt, hm⟩ := Option.isSome_iff_exists.1 hd
  unfold SubmitWork
  simp only [workOf, work, hm, Option.map_some, Option.getD_some, smgpSubmit, smgpCheck]
  refine ⟨fun h1 h2 => ?_, fun h => ?_⟩
  · rw [if_neg (by simp [h1])]
    cases ha : d.account with
    | none => rfl
    | some c =>
      rw [processTime_none (fun h => h2 ⟨by rw [ha]; simp, h⟩)]; rfl
  · have rs := fun v => smgp_submit_rsp hm v d.id body d.bcd
    by_cases ha : d.allow = false
    · refine ⟨[], ?_, by simp, by simp⟩
      have hv : verdict d = .limited := by simp [verdict, ha]
      have h8 : code .smgp .limited = 1 := rfl
      have := rs .limited
      rw [h8] at this
      rw [if_pos ha, hv, this]
      rfl
    · rw [if_neg ha]
      obtain ⟨c, hc⟩ := Option.ne_none_iff_exists'.1 (h.resolve_left ha).1
      obtain ⟨pt, hp⟩ := processTime_some (r := d.random) (h.resolve_left ha).2
      rw [hc, hp]
      simp only [Option.map_some]
      cases hf : d.fail
      · have hv : verdict d = .accepted := by simp [verdict, ha, hf]
        have := rs .accepted
        have h8 : code .smgp .accepted = 0 := rfl
        rw [h8] at this
        simp only [Bool.false_eq_true, if_false, if_true, this, hv, respond, write]
        refine ⟨_, rfl, ?_, ?_⟩
        · unfold smgpReport write
          split
          · simp [sends]
          · split
            · simp [sends]
            · split <;> simp [sends]
        · intro x hx
          unfold smgpReport write at hx
          split at hx
          · simp [sends] at hx
          · split at hx
            · simp [sends] at hx
            · split at hx
              · rename_i f hf
                simp [sends] at hx
                rw [hx]
                obtain ⟨dd, hdd, hfe⟩ := Option.bind_eq_some_iff.1 hf
                refine ⟨trivial, rfl, ?_, by simp, fun hb => smgp_report_id (hb trivial) hdd hfe⟩
                rw [command, Smgp.delivery_cmd hfe]
                unfold Smgp.newDeliveryReport at hdd
                obtain ⟨_, _, hdd⟩ := Option.map_eq_some_iff.1 hdd
                rw [← hdd]
                rfl
              · simp [sends] at hx
      · have hv : verdict d = .refused := by simp [verdict, ha, hf]
        have := rs .refused
        have h8 : code .smgp .refused = 75 := rfl
        rw [h8] at this
        simp only [if_true, this, hv]
        exact ⟨[], rfl, by simp, by simp⟩

theorem sgip_submit_work {gb : Bytes → Option Bytes} {md5 : Bytes → Bytes} {ver : UInt8} {cmd seq : UInt32} {body : Bytes}
    {d : Draw} (hd : decodes gb ver seq body .sgip .submit = true) :
    SubmitWork ⟨.sgip, gb, md5⟩ ⟨ver, .submit, cmd, seq, body, d⟩ := by
  simp only [decodes] at hd
  obtain ⟨mt, hm⟩ := Option.isSome_iff_exists.1 hd
  unfold SubmitWork
  simp only [workOf, work, hm, Option.map_some, Option.getD_some, sgipSubmit, sgipCheck]
  refine ⟨fun h1 h2 => ?_, fun h => ?_⟩
  · rw [if_neg (by simp [h1])]
    cases ha : d.account with
    | none => rfl
    | some c =>
      rw [processTime_none (fun h => h2 ⟨by rw [ha]; simp, h⟩)]; rfl
  · have rs := fun v => sgip_submit_rsp (ver := ver) hm v d.id d.bcd
    by_cases ha : d.allow = false
    · refine ⟨[], ?_, by simp, by simp⟩
      have hv : verdict d = .limited := by simp [verdict, ha]
      have h8 : code .sgip .limited = 33 := rfl
      have := rs .limited
      rw [h8] at this
      rw [if_pos ha, hv, this]
      rfl
    · rw [if_neg ha]
      obtain ⟨c, hc⟩ := Option.ne_none_iff_exists'.1 (h.resolve_left ha).1
      obtain ⟨pt, hp⟩ := processTime_some (r := d.random) (h.resolve_left ha).2
      rw [hc, hp]
      simp only [Option.map_some]
      cases hf : d.fail
      · have hv : verdict d = .accepted := by simp [verdict, ha, hf]
        have := rs .accepted
        have h8 : code .sgip .accepted = 0 := rfl
        rw [h8] at this
        simp only [Bool.false_eq_true, if_false, if_true, this, hv]
        exact ⟨[], rfl, by simp, by simp⟩
      · have hv : verdict d = .refused := by simp [verdict, ha, hf]
        have := rs .refused
        have h8 : code .sgip .refused = 33 := rfl
        rw [h8] at this
        simp only [if_true, this, hv]
        exact ⟨[], rfl, by simp, by simp⟩


theorem submit_work {e : Env} {r : Req} (hk : r.kind = .submit)
    (hd : decodes e.gbDec r.ver r.seq r.body e.proto r.kind = true) : SubmitWork e r := by
  obtain ⟨proto, gb, md5⟩ := e
  obtain ⟨ver, kind, cmd, seq, body, d⟩ := r
  simp only at hk hd
  subst hk
  cases proto with
  | cmpp => exact cmpp_submit_work hd
  | smgp => exact smgp_submit_work hd
  | sgip => exact sgip_submit_work hd

theorem slot_take (n : Nat) (b : Bytes) (h : b.length = n) : trimStr b = Spec.slot n b := trimStr_slot_of_length h

/-- What follows the login response. -/
def afterLogin : Login → After
  | .ok a => .login a
  | _ => .refuse

theorem length_digest {md5 : Bytes → Bytes} (h16 : ∀ x, (md5 x).length = 16) (a b : Bytes) (l : Login) :
    (l.digest md5 a b).length = 16 := by
  cases l <;> simp [Login.digest, h16]

theorem cmpp_login_rsp {md5 : Bytes → Bytes} (h16 : ∀ x, (md5 x).length = 16) {seq : UInt32} {body : Bytes}
    (c : Cmpp.Connect) (l : Login) (e1 : c.hdr.sequenceId = seq) (e2 : c.sourceAddr = loginName .cmpp body)
    (e3 : c.version = loginVersion .cmpp body) (e4 : ∀ a, l = .ok a → c.secret = a.sharedSecret) :
    (c.toResponse md5 (l.code .cmpp)).encode = some (loginResponse md5 .cmpp seq body l) := by
  have hdg : (c.toResponse md5 (l.code .cmpp)).authenticatorISMG =
      l.digest md5 (if Spec.major (loginVersion .cmpp body) = 3 then [0, 0, 0, 0] else [0]) (loginName .cmpp body) := by
    cases l with
    | ok a =>
      simp only [Cmpp.Connect.toResponse, Login.code, e2, e3, e4 a rfl, Login.digest]
      cases hv : Cmpp.v3 (loginVersion .cmpp body)
      · simp [v3_false hv]
      · simp [(Cmpp.v3_iff _).1 hv]
    | _ => simp [Cmpp.Connect.toResponse, Login.code, zeros, Login.digest]
  have hst : ((l.code .cmpp).toUInt8).toUInt32 = l.code .cmpp := by cases l <;> rfl
  have hdl := fun x => length_digest h16 x (loginName .cmpp body) l
  rw [Cmpp.connectResp_encode]
  · simp only [Spec.Cmpp.connectRespBody, hdg, pad_eq_self (hdl _), loginResponse, response]
    cases hv : Cmpp.v3 (loginVersion .cmpp body)
    · simp [Cmpp.Connect.toResponse, e1, e3, hv, v3_false hv, hdl]; rfl
    · simp [Cmpp.Connect.toResponse, e1, e3, hv, (Cmpp.v3_iff _).1 hv, hdl, hst]; rfl
  · simp only [Spec.Cmpp.connectRespBody, hdg, pad_eq_self (hdl _)]
    cases hv : Cmpp.v3 (loginVersion .cmpp body)
    · simp [Cmpp.Connect.toResponse, e3, hv, v3_false hv, hdl]
    · simp [Cmpp.Connect.toResponse, e3, hv, (Cmpp.v3_iff _).1 hv, hdl]

theorem cmpp_login_work {gb : Bytes → Option Bytes} {md5 : Bytes → Bytes} (h16 : ∀ x, (md5 x).length = 16) {ver : UInt8} {cmd seq : UInt32} {body : Bytes}
    {d : Draw} (hd : 27 ≤ body.length) :
    sends (workOf ⟨.cmpp, gb, md5⟩ ⟨ver, .login, cmd, seq, body, d⟩) =
      [(loginResponse md5 .cmpp seq body (loginVerdict md5 .cmpp body d.find d.sessions),
        afterLogin (loginVerdict md5 .cmpp body d.find d.sessions))] := by
  have hdec : Cmpp.Connect.decode seq (Buf.exact body) = some ⟨⟨39, 1, seq⟩, loginName .cmpp body, (body.drop 6).take 16,
      loginVersion .cmpp body, loginTime .cmpp body, []⟩ := by
    unfold Cmpp.Connect.decode
    simp (disch := omega) only [Rd.run, bind_seek', bind_u32', bind_byte', bind_str', bind_slice', pure', Option.map_some,
      List.drop_zero, slot_take 6 (body.take 6) (by simp; omega)]
    rfl
  simp only [workOf, work, hdec, Option.map_some, Option.getD_some, cmppConnect, loginVerdict]
  have enc : ∀ (c : Cmpp.Connect) (l : Login) (code : UInt8) (adm : Option AuthConf), c.hdr.sequenceId = seq → c.sourceAddr = loginName .cmpp body →
      c.version = loginVersion .cmpp body → (∀ a, l = .ok a → c.secret = a.sharedSecret) → code.toUInt32 = l.code .cmpp →
      replyAfter adm = afterLogin l →
      sends (loginReply (c.toResponse md5 code.toUInt32).encode adm) = [(loginResponse md5 .cmpp seq body l, afterLogin l)] := by
    intro c l code adm e1 e2 e3 e4 e5 e6
    rw [e5, cmpp_login_rsp h16 c l e1 e2 e3 e4, loginReply, e6]
    rfl
  cases hf : d.find (loginName .cmpp body) with
  | none => exact enc _ .unknown _ _ rfl rfl rfl (fun _ h => nomatch h) rfl rfl
  | some a =>
    simp only [Cmpp.Connect.check]
    by_cases hv : Cmpp.majorMatch (loginVersion .cmpp body) a.version = true
    · have hv' := (Cmpp.majorMatch_iff _ _).1 hv
      simp only [hv, not_true_eq_false, if_false, hv', ne_eq, and_false]
      by_cases hc : Credentials md5 a .cmpp body
      · have hc' : (body.drop 6).take 16 = md5 (a.clientId ++ zeros 9 ++ a.sharedSecret ++ timeStamp2Str (loginTime .cmpp body)) := by
          rw [timeStamp2Str_decimal]; exact hc
        simp only [← hc', if_true, hc, not_true_eq_false, if_false, admitted, decide_true, Option.bind_some]
        by_cases hs : a.maxConns ≤ d.sessions
        · simp only [hs, if_true, and_self]
          exact enc _ .full _ _ rfl rfl rfl (fun _ h => nomatch h) rfl rfl
        · simp only [hs, if_false, reduceCtorEq, and_false]
          exact enc _ (.ok a) _ _ rfl rfl rfl (fun x h => by injection h with h; rw [← h]) rfl rfl
      · have hc' : ¬ (body.drop 6).take 16 = md5 (a.clientId ++ zeros 9 ++ a.sharedSecret ++ timeStamp2Str (loginTime .cmpp body)) := by
          rw [timeStamp2Str_decimal]; exact hc
        simp only [hc', if_false, hc, not_false_eq_true, if_true]
        exact enc _ .secret _ _ rfl rfl rfl (fun _ h => nomatch h) rfl rfl
    · have hv' : ¬ Spec.major (loginVersion .cmpp body) = Spec.major a.version := fun h => hv ((Cmpp.majorMatch_iff _ _).2 h)
      simp only [hv, hv', not_false_eq_true, if_true, ne_eq, reduceCtorEq, and_self]
      exact enc _ .version _ _ rfl rfl rfl (fun _ h => nomatch h) rfl rfl

theorem smgp_login_rsp {md5 : Bytes → Bytes} (h16 : ∀ x, (md5 x).length = 16) {seq : UInt32} {body : Bytes}
    (c : Smgp.Login) (l : Login) (e1 : c.hdr.sequenceId = seq) (e2 : c.clientID = loginName .smgp body)
    (e3 : c.version = loginVersion .smgp body) (e4 : ∀ a, l = .ok a → c.secret = a.sharedSecret) :
    (c.toResponse md5 (l.code .smgp)).encode = some (loginResponse md5 .smgp seq body l) := by
  have hdg : (c.toResponse md5 (l.code .smgp)).authenticatorServer = l.digest md5 [0] (loginName .smgp body) := by
    cases l with
    | ok a => simp [Smgp.Login.toResponse, Login.code, e2, e4 a rfl, Login.digest]
    | _ => simp [Smgp.Login.toResponse, Login.code, zeros, Login.digest]
  have hdl := length_digest h16 [0] (loginName .smgp body) l
  rw [Smgp.loginRsp_encode _ rfl]
  simp only [Spec.Smgp.loginRspBody, hdg, pad_eq_self hdl, loginResponse, response]
  simp [Smgp.Login.toResponse, e1, e3, hdl]; rfl

theorem smgp_login_work {gb : Bytes → Option Bytes} {md5 : Bytes → Bytes} (h16 : ∀ x, (md5 x).length = 16) {ver : UInt8} {cmd seq : UInt32} {body : Bytes}
    {d : Draw} (hd : 30 ≤ body.length) :
    sends (workOf ⟨.smgp, gb, md5⟩ ⟨ver, .login, cmd, seq, body, d⟩) =
      [(loginResponse md5 .smgp seq body (loginVerdict md5 .smgp body d.find d.sessions),
        afterLogin (loginVerdict md5 .smgp body d.find d.sessions))] := by
  obtain ⟨l, hl, q1, q2, q3, q4, q5⟩ : ∃ l, Smgp.Login.decode seq (Buf.exact body) = some l ∧ l.hdr.sequenceId = seq ∧
      l.clientID = loginName .smgp body ∧ l.authenticatorClient = (body.drop 8).take 16 ∧
      l.version = loginVersion .smgp body ∧ l.timestamp = loginTime .smgp body := by
    unfold Smgp.Login.decode
    simp (disch := omega) only [Rd.run, bind_seek', bind_u32', bind_byte', bind_length', bind_slice', pure', Option.map_some,
      List.drop_zero]
    exact ⟨_, rfl, rfl, rfl, rfl, rfl, rfl⟩
  simp only [workOf, work, hl, Option.map_some, Option.getD_some, smgpLogin, loginVerdict, q2]
  have enc : ∀ (c : Smgp.Login) (l : Login) (code : UInt32) (adm : Option AuthConf), c.hdr.sequenceId = seq → c.clientID = loginName .smgp body →
      c.version = loginVersion .smgp body → (∀ a, l = .ok a → c.secret = a.sharedSecret) → code = l.code .smgp →
      replyAfter adm = afterLogin l →
      sends (loginReply (c.toResponse md5 code).encode adm) = [(loginResponse md5 .smgp seq body l, afterLogin l)] := by
    intro c l code adm e1 e2 e3 e4 e5 e6
    rw [e5, smgp_login_rsp h16 c l e1 e2 e3 e4, loginReply, e6]
    rfl
  cases hf : d.find (loginName .smgp body) with
  | none => exact enc _ .unknown _ _ q1 q2 q4 (fun _ h => nomatch h) rfl rfl
  | some a =>
    simp only [Smgp.Login.check, q3, q4, q5]
    by_cases hv : Smgp.majorMatch (loginVersion .smgp body) a.version = true
    · have hv' := (Smgp.majorMatch_iff _ _).1 hv
      simp only [hv, not_true_eq_false, if_false, hv', ne_eq, and_false]
      by_cases hc : Credentials md5 a .smgp body
      · have hc' : (body.drop 8).take 16 = md5 (a.clientId ++ zeros 7 ++ a.sharedSecret ++ timeStamp2Str (loginTime .smgp body)) := by
          rw [timeStamp2Str_decimal]; exact hc
        simp only [← hc', if_true, hc, not_true_eq_false, if_false, admitted, decide_true, Option.bind_some]
        by_cases hs : a.maxConns ≤ d.sessions
        · simp only [hs, if_true, and_self]
          exact enc _ .full _ _ q1 q2 rfl (fun _ h => nomatch h) rfl rfl
        · simp only [hs, if_false, reduceCtorEq, and_false]
          exact enc _ (.ok a) _ _ q1 q2 rfl (fun x h => by injection h with h; rw [← h]) rfl rfl
      · have hc' : ¬ (body.drop 8).take 16 = md5 (a.clientId ++ zeros 7 ++ a.sharedSecret ++ timeStamp2Str (loginTime .smgp body)) := by
          rw [timeStamp2Str_decimal]; exact hc
        simp only [hc', if_false, hc, not_false_eq_true, if_true]
        exact enc _ .secret _ _ q1 q2 q4 (fun _ h => nomatch h) rfl rfl
    · have hv' : ¬ Spec.major (loginVersion .smgp body) = Spec.major a.version := fun h => hv ((Smgp.majorMatch_iff _ _).2 h)
      simp only [hv, hv', not_false_eq_true, if_true, ne_eq, reduceCtorEq, and_self]
      exact enc _ .version _ _ q1 q2 q4 (fun _ h => nomatch h) rfl rfl

theorem sgip_login_work {gb : Bytes → Option Bytes} {md5 : Bytes → Bytes} {ver : UInt8} {cmd seq : UInt32} {body : Bytes}
    {d : Draw} (hd : 41 ≤ body.length) :
    sends (workOf ⟨.sgip, gb, md5⟩ ⟨ver, .login, cmd, seq, body, d⟩) =
      [(loginResponse md5 .sgip seq body (loginVerdict md5 .sgip body d.find d.sessions),
        afterLogin (loginVerdict md5 .sgip body d.find d.sessions))] := by
  obtain ⟨l, hl, q1, q2⟩ : ∃ l, Sgip.Bind.decode seq (Buf.exact body) = some l ∧
      l.loginName = loginName .sgip body ∧ l.loginPassword = Spec.slot 16 ((body.drop 25).take 16) := by
    unfold Sgip.Bind.decode
    simp (disch := omega) only [Rd.run, bind_length', bind_u32', bind_byte', bind_str', pure', Option.map_some,
      List.drop_zero, Nat.zero_add, slot_take 16 ((body.drop 9).take 16) (by simp; omega),
      slot_take 16 ((body.drop 25).take 16) (by simp; omega)]
    exact ⟨_, rfl, rfl, rfl⟩
  obtain ⟨h8, s0, s1, s2⟩ := Sgip.bind_hdr hl
  simp only [workOf, work, hl, Option.map_some, Option.getD_some, sgipBind, loginVerdict, q1]
  have enc : ∀ (v : Login) (code : UInt8) (adm : Option AuthConf), code.toUInt32 = v.code .sgip →
      replyAfter adm = afterLogin v →
      sends (loginReply (Sgip.bindRspEncode (l.toResponse code.toUInt32)) adm) =
        [(loginResponse md5 .sgip seq body v, afterLogin v)] := by
    intro v code adm e5 e6
    rw [e5, Sgip.bindRsp_encode _ rfl, loginReply, e6]
    have h4 : be32 (rd32 (body.take 4)) = body.take 4 := be32_rd32 (by simp; omega)
    have h8' : be32 (rd32 ((body.drop 4).take 4)) = (body.drop 4).take 4 := be32_rd32 (by simp; omega)
    have h48 : body.take 8 = body.take 4 ++ (body.drop 4).take 4 := by rw [← List.take_add]
    have hln : (body.take 8 ++ [(v.code .sgip).toUInt8]).length = 9 := by simp; omega
    have : Spec.header20 21 (l.toResponse (v.code .sgip)).hdr.commandId (l.toResponse (v.code .sgip)).hdr.seq0
        (l.toResponse (v.code .sgip)).hdr.seq1 (l.toResponse (v.code .sgip)).hdr.seq2 ++
          [(l.toResponse (v.code .sgip)).status] = loginResponse md5 .sgip seq body v := by
      simp only [loginResponse, response, hln]
      simp only [Sgip.Bind.toResponse, Spec.header20, Spec.header12, s0, s1, s2, h4, h8', h48, List.append_assoc]
      rfl
    rw [this]
    rfl
  cases hf : d.find (loginName .sgip body) with
  | none => exact enc .unknown _ _ rfl rfl
  | some a =>
    simp only [Sgip.Bind.check, q1, q2, ne_eq, not_true_eq_false, false_and, if_false]
    by_cases hc : Credentials md5 a .sgip body
    · have hc' : a.loginName = loginName .sgip body ∧ a.sharedSecret = Spec.slot 16 ((body.drop 25).take 16) := hc
      simp only [hc'.1, ← hc'.2, and_self, hc, not_true_eq_false, if_false, if_true, admitted, decide_true, Option.bind_some]
      by_cases hs : a.maxConns ≤ d.sessions
      · simp only [hs, if_true, and_self]
        exact enc .full _ _ rfl rfl
      · simp only [hs, if_false, reduceCtorEq, and_false]
        exact enc (.ok a) _ _ rfl rfl
    · have hc' : ¬ (a.loginName = loginName .sgip body ∧ a.sharedSecret = Spec.slot 16 ((body.drop 25).take 16)) := hc
      simp only [hc', if_false, hc, not_false_eq_true, if_true]
      exact enc .secret _ _ rfl rfl

/-- What a login task sends. -/
theorem login_work {e : Env} (h16 : ∀ x, (e.md5 x).length = 16) {r : Req} (hk : r.kind = .login)
    (hd : decodes e.gbDec r.ver r.seq r.body e.proto r.kind = true) :
    sends (workOf e r) = [(loginResponse e.md5 e.proto r.seq r.body (loginVerdict e.md5 e.proto r.body r.draw.find r.draw.sessions),
        afterLogin (loginVerdict e.md5 e.proto r.body r.draw.find r.draw.sessions))] := by
  obtain ⟨proto, gb, md5⟩ := e
  obtain ⟨ver, kind, cmd, seq, body, d⟩ := r
  simp only at hk hd
  subst hk
  have hb := (decodes_iff gb ver seq body proto .login).1 hd
  cases proto with
  | cmpp => exact cmpp_login_work h16 hb
  | smgp => exact smgp_login_work h16 hb
  | sgip => exact sgip_login_work hb

/-- What a heartbeat task sends. -/
theorem active_work {e : Env} {r : Req} (hk : r.kind = .active) (f : Bytes) (hf : activeResponse e.proto r.seq = some f) :
    sends (workOf e r) = [(f, .none)] := by
  obtain ⟨proto, gb, md5⟩ := e
  obtain ⟨ver, kind, cmd, seq, body, d⟩ := r
  simp only at hk hf
  subst hk
  cases proto with
  | cmpp =>
    simp only [activeResponse, Option.some.injEq] at hf
    subst hf
    simp only [workOf, work, Cmpp.activeTestDecode, Option.map_some, Option.getD_some, Cmpp.activeTestRspEncode,
      Cmpp.activeTestToResponse]
    rw [encodeWith_exact _ _ [0] (by simp [layout, WOp.out]) (by simp [AllOk, WOp.Ok]) rfl]
    rfl
  | smgp =>
    simp only [activeResponse, Option.some.injEq] at hf
    subst hf
    simp only [workOf, work, Smgp.activeTestDecode, Option.map_some, Option.getD_some, Smgp.activeTestRspEncode,
      Smgp.activeTestToResponse]
    rw [header_encode]
    rfl
  | sgip => simp [activeResponse] at hf

/-- What a termination task sends. -/
theorem terminate_work {e : Env} {r : Req} (hk : r.kind = .terminate)
    (hd : decodes e.gbDec r.ver r.seq r.body e.proto r.kind = true) :
    sends (workOf e r) = [(terminateResponse e.proto r.seq r.body, .close)] := by
  obtain ⟨proto, gb, md5⟩ := e
  obtain ⟨ver, kind, cmd, seq, body, d⟩ := r
  simp only at hk hd
  subst hk
  cases proto with
  | cmpp =>
    simp only [workOf, work, Cmpp.terminateDecode, Option.map_some, Option.getD_some, Cmpp.terminateRspEncode,
      Cmpp.terminateToResponse]
    rw [header_encode]
    rfl
  | smgp =>
    simp only [workOf, work, Smgp.exitDecode, Option.map_some, Option.getD_some, Smgp.exitRspEncode,
      Smgp.exitToResponse]
    rw [header_encode]
    rfl
  | sgip =>
    have hl : 8 ≤ body.length := (decodes_iff gb ver seq body .sgip .terminate).1 hd
    have e1 : Sgip.unbindEncode (Sgip.unbindToResponse
        ⟨20, Sgip.UNBIND, seq, rd32 (body.take 4), rd32 ((body.drop 4).take 4)⟩ 0) = some (terminateResponse .sgip seq body) := by
      have h4 : be32 (rd32 (body.take 4)) = body.take 4 := be32_rd32 (by simp; omega)
      have h8 : be32 (rd32 ((body.drop 4).take 4)) = (body.drop 4).take 4 := be32_rd32 (by simp; omega)
      have h48 : body.take 8 = body.take 4 ++ (body.drop 4).take 4 := by rw [← List.take_add]
      simp only [Sgip.unbindEncode, Sgip.unbindToResponse]
      rw [sheader_encode, sclamp_of_le (show 20 ≤ (20 : UInt32).toNat by decide)]
      have hln : (body.take 4 ++ (body.drop 4).take 4).length = 8 := by rw [← h48]; simp; omega
      simp only [Spec.header20, h4, h8, terminateResponse, if_true, response, h48, hln, Spec.header12, List.append_assoc]
      simp [zeros]
      rfl
    simp only [workOf, work, Sgip.unbind_values _ _ _ hl, Option.map_some, Option.getD_some, e1]
    rfl

/-- Nothing is sent for the other packets. -/
theorem other_work {e : Env} {r : Req} (h1 : r.kind ≠ .submit) (h2 : r.kind ≠ .login) (h3 : r.kind ≠ .active)
    (h4 : r.kind ≠ .terminate) : sends (workOf e r) = [] := by
  obtain ⟨proto, gb, md5⟩ := e
  obtain ⟨ver, kind, cmd, seq, body, d⟩ := r
  cases proto <;> cases kind <;> first | rfl | exact absurd rfl h1 | exact absurd rfl h2 | exact absurd rfl h3 | exact absurd rfl h4

end ServerTraffic
end Gosms
