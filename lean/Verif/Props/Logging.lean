import Verif.Model.Logging
import Verif.Props.ServerReported
import Verif.Props.Names

/-! # C97-C99: what is logged -/

namespace Gosms.Logging
open Rd

/-! ## Logging does not panic (C97) -/

theorem header_cmpp (h : Header) : ∃ ls, cmppHeader h = some ls := by
  obtain ⟨n, hn, _⟩ := command_names .cmpp h.commandId
  exact ⟨_, by rw [cmppHeader, header]; exact congrArg _ hn⟩

theorem header_smgp (h : Header) : ∃ ls, smgpHeader h = some ls := by
  obtain ⟨n, hn, _⟩ := command_names .smgp h.commandId
  exact ⟨_, by rw [smgpHeader, header]; exact congrArg _ hn⟩

theorem header_sgip (h : SHeader) : ∃ ls, sgipHeader h = some ls := by
  obtain ⟨n, hn, _⟩ := command_names .sgip h.commandId
  exact ⟨_, by rw [sgipHeader]; exact congrArg _ hn⟩

theorem mapM_some {α β : Type} (l : List α) (f : α → Option β) (h : ∀ a ∈ l, ∃ b, f a = some b) :
    ∃ r, l.mapM f = some r := by
  induction l with
  | nil => exact ⟨[], rfl⟩
  | cons a l ih =>
    obtain ⟨b, hb⟩ := h a List.mem_cons_self
    obtain ⟨r, hr⟩ := ih fun x hx => h x (List.mem_cons_of_mem _ hx)
    exact ⟨b :: r, by simp [List.mapM_cons, hb, hr]⟩

theorem users (b : Bytes) (pl : Nat) (h : 0 < pl) : ∃ r, bytes2StringSlice b pl = some r := by
  unfold bytes2StringSlice
  split
  · exact ⟨_, rfl⟩
  · rw [if_neg (by omega)]
    refine mapM_some _ _ fun i hi => ?_
    rw [List.mem_range] at hi
    have : (i + 1) * pl ≤ b.length := by
      have h1 : (i + 1) * pl ≤ b.length / pl * pl := Nat.mul_le_mul_right _ hi
      have h2 := Nat.div_mul_le_self b.length pl
      omega
    have h3 : i * pl ≤ (i + 1) * pl := Nat.mul_le_mul_right _ (by omega)
    exact ⟨trimStr ((b.drop (i * pl)).take ((i + 1) * pl - i * pl)), by rw [goSlice, if_pos ⟨h3, this⟩]; rfl⟩

theorem cmppConnect_some (c : Cmpp.Connect) : ∃ ls, cmppConnect c = some ls := by
  obtain ⟨l, h⟩ := header_cmpp c.hdr
  exact ⟨_, by rw [cmppConnect, h]; rfl⟩

theorem cmppConnectResp_some (c : Cmpp.ConnectResp) : ∃ ls, cmppConnectResp c = some ls := by
  obtain ⟨l, h⟩ := header_cmpp c.hdr
  exact ⟨_, by rw [cmppConnectResp, h]; rfl⟩

theorem cmppRsp_some (c : Cmpp.Rsp) : ∃ ls, cmppRsp c = some ls := by
  obtain ⟨l, h⟩ := header_cmpp c.hdr
  exact ⟨_, by rw [cmppRsp, h]; rfl⟩

theorem cmppSubmit_some (s : Cmpp.Submit) : ∃ ls, cmppSubmit s = some ls := by
  obtain ⟨l, h⟩ := header_cmpp s.hdr
  obtain ⟨u, hu⟩ := users s.termIds (if Cmpp.v3 s.version then 32 else 21) (by split <;> decide)
  unfold cmppSubmit
  rw [h, hu]
  exact ⟨_, rfl⟩

theorem cmppDelivery_some (d : Cmpp.Delivery) (hr : d.registeredDelivery = 1 → d.report.isSome) :
    ∃ ls, cmppDelivery d = some ls := by
  obtain ⟨l, h⟩ := header_cmpp d.hdr
  obtain ⟨c, hc⟩ : ∃ c, cmppContent d = some c := by
    unfold cmppContent
    by_cases h1 : d.registeredDelivery = 1
    · obtain ⟨r, h2⟩ := Option.isSome_iff_exists.1 (hr h1)
      rw [if_pos h1, h2]
      exact ⟨_, rfl⟩
    · rw [if_neg h1]
      exact ⟨_, rfl⟩
  unfold cmppDelivery
  rw [h, hc]
  exact ⟨_, rfl⟩

theorem smgpLogin_some (c : Smgp.Login) : ∃ ls, smgpLogin c = some ls := by
  obtain ⟨l, h⟩ := header_smgp c.hdr
  exact ⟨_, by rw [smgpLogin, h]; rfl⟩

theorem smgpLoginRsp_some (c : Smgp.LoginRsp) : ∃ ls, smgpLoginRsp c = some ls := by
  obtain ⟨l, h⟩ := header_smgp c.hdr
  exact ⟨_, by rw [smgpLoginRsp, h]; rfl⟩

theorem smgpRsp_some (c : Smgp.Rsp) : ∃ ls, smgpRsp c = some ls := by
  obtain ⟨l, h⟩ := header_smgp c.hdr
  exact ⟨_, by rw [smgpRsp, h]; rfl⟩

theorem smgpSubmit_some (c : Smgp.Submit) : ∃ ls, smgpSubmit c = some ls := by
  obtain ⟨l, h⟩ := header_smgp c.hdr
  exact ⟨_, by rw [smgpSubmit, h]; rfl⟩

theorem smgpDelivery_some (d : Smgp.Delivery) (hr : d.isReport = 1 → d.report.isSome) :
    ∃ ls, smgpDelivery d = some ls := by
  obtain ⟨l, h⟩ := header_smgp d.hdr
  obtain ⟨c, hc⟩ : ∃ c, smgpContent d = some c := by
    unfold smgpContent
    by_cases h1 : d.isReport = 1
    · obtain ⟨r, h2⟩ := Option.isSome_iff_exists.1 (hr h1)
      rw [if_pos h1, h2]
      exact ⟨_, rfl⟩
    · rw [if_neg h1]
      exact ⟨_, rfl⟩
  unfold smgpDelivery
  rw [h, hc]
  exact ⟨_, rfl⟩

theorem sgipBind_some (c : Sgip.Bind) : ∃ ls, sgipBind c = some ls := by
  obtain ⟨l, h⟩ := header_sgip c.hdr
  exact ⟨_, by rw [sgipBind, h]; rfl⟩

theorem sgipRsp_some (c : Sgip.Rsp) : ∃ ls, sgipRsp c = some ls := by
  obtain ⟨l, h⟩ := header_sgip c.hdr
  exact ⟨_, by rw [sgipRsp, h]; rfl⟩

theorem sgipSubmit_some (c : Sgip.Submit) : ∃ ls, sgipSubmit c = some ls := by
  obtain ⟨l, h⟩ := header_sgip c.hdr
  exact ⟨_, by rw [sgipSubmit, h]; rfl⟩

theorem sgipDeliver_some (c : Sgip.Deliver) : ∃ ls, sgipDeliver c = some ls := by
  obtain ⟨l, h⟩ := header_sgip c.hdr
  exact ⟨_, by rw [sgipDeliver, h]; rfl⟩

theorem sgipReport_some (r : Sgip.Report) (h3 : r.mtSequence.length = 3) : ∃ ls, sgipReport r = some ls := by
  obtain ⟨l, h⟩ := header_sgip r.hdr
  unfold sgipReport
  rw [h]
  match hm : r.mtSequence, h3 with
  | [a, b, c], _ => exact ⟨_, rfl⟩

theorem post_deliverReport (n : UInt8) (sub : Buf) : Rd.Post (Cmpp.deliverReport n sub) fun r => n = 1 → r.isSome := by
  intro f i v j h h1
  unfold Cmpp.deliverReport at h
  rw [if_pos h1] at h
  unfold Rd.lift at h
  cases hr : Rd.run Cmpp.reportDecode sub with
  | none => rw [hr] at h; cases h
  | some r =>
    rw [hr] at h
    simp only [Option.map_some, Option.some.injEq, Prod.mk.injEq] at h
    rw [← h.1]; rfl

theorem deliver_report {v : UInt8} {seq : UInt32} {f : Buf} {d : Cmpp.Delivery}
    (h : Cmpp.Delivery.decode v seq f = some d) : d.registeredDelivery = 1 → d.report.isSome := by
  refine Rd.run_post (Φ := fun (d : Cmpp.Delivery) => d.registeredDelivery = 1 → d.report.isSome) ?_ h
  repeat' (first
    | refine Rd.post_bind (post_deliverReport _ _) fun r hr => ?_
    | refine Rd.post_bind' fun _ => ?_
    | refine post_ite ?_ ?_
    | refine Rd.post_pure ?_
    | dsimp only)
  all_goals assumption

theorem post_deliverContent (g : Bytes → Option Bytes) (n l : UInt8) : Rd.Post (Smgp.deliverContent g n l)
    fun c => ∀ x, c = some x → n = 1 → x.1.isSome := by
  unfold Smgp.deliverContent
  by_cases hn : n = 1
  · rw [if_pos hn]
    refine Rd.post_bind' fun _ => Rd.post_bind' fun r => Rd.post_pure fun x hx _ => ?_
    cases hx; rfl
  · exact fun _ _ _ _ _ _ _ h => absurd h hn

theorem smgp_deliver_report {g : Bytes → Option Bytes} {v : UInt8} {seq : UInt32} {f : Buf} {d : Smgp.Delivery}
    (h : Smgp.Delivery.decode g v seq f = some (some d)) : d.isReport = 1 → d.report.isSome := by
  have := Rd.run_post (Φ := fun (x : Option Smgp.Delivery) => ∀ d, x = some d → d.isReport = 1 → d.report.isSome) ?_ h
  · exact this d rfl
  iterate 8 (refine Rd.post_bind' fun _ => ?_)
  refine Rd.post_bind (post_deliverContent _ _ _) fun c hc => Rd.post_pure fun d hd => ?_
  obtain ⟨x, hx, rfl⟩ := Option.map_eq_some_iff.1 hd
  exact hc x hx

/-- Where the text is the only obstacle, the rest of the delivery can be decoded. -/
theorem decode_plain {g : Bytes → Option Bytes} {v : UInt8} {seq : UInt32} {body : Bytes}
    (h : Smgp.Delivery.decode g v seq (Buf.exact body) = some none) :
    ∃ d, Smgp.Delivery.decode (fun _ => some []) v seq (Buf.exact body) = some (some d) := by
  have hn : Spec.ClientTraffic.BodyComplete false body .smgp .deliver :=
    (Smgp.deliver_needs g false v seq body).mp (by rw [h]; rfl)
  obtain ⟨d, hd, _⟩ := (Smgp.deliver_values (fun _ => some []) false v seq body hn).2
    (fun hu => by simp [Spec.ClientTraffic.Undecodable] at hu)
  exact ⟨d, hd⟩

theorem do1 {α β : Type} {x : Option α} {f : α → Option β} {a : α} (h : x = some a) : (x >>= f) = f a := by rw [h]; rfl

/-- C97: handling a packet the client survives, it also survives logging it: whatever is received, if nothing else
panics, then the calls that log the packet and its response do not. -/
theorem client_log (p : Proto) (e : ClientTraffic.Env) (s : Client.State) (cmd seq : UInt32) (buff : Bytes)
    (h : ClientTraffic.onTraffic p e s cmd seq buff ≠ none) : client p e cmd seq buff ≠ none := by
  cases p
  · simp only [ClientTraffic.onTraffic, ClientTraffic.onTrafficCmpp] at h
    simp only [client, clientCmpp]
    split
    · rename_i hc
      rw [if_pos hc] at h
      cases hd : Cmpp.ConnectResp.decode e.ver seq (Buf.exact buff) with
      | none => rw [hd] at h; exact absurd rfl h
      | some r =>
        obtain ⟨l, hl⟩ := cmppConnectResp_some r
        simp [hl]
    · rename_i hc
      rw [if_neg hc] at h
      split
      · simp only [Cmpp.activeTestDecode, Option.bind_eq_bind, Option.bind_some]
        obtain ⟨l, hl⟩ := header_cmpp ⟨12, Cmpp.ACTIVE_TEST, seq⟩
        obtain ⟨m, hm⟩ := header_cmpp (Cmpp.activeTestToResponse ⟨12, Cmpp.ACTIVE_TEST, seq⟩ 0)
        simp [hl, hm]
      · rename_i hc
        rw [if_neg hc] at h
        split
        · simp only [Cmpp.activeTestRspDecode, Option.bind_eq_bind, Option.bind_some]
          obtain ⟨l, hl⟩ := header_cmpp ⟨12 + 1, Cmpp.ACTIVE_TEST_RESP, seq⟩
          rw [hl]; simp
        · rename_i hc
          rw [if_neg hc] at h
          split
          · simp only [Cmpp.terminateDecode, Option.bind_eq_bind, Option.bind_some]
            obtain ⟨l, hl⟩ := header_cmpp ⟨12, Cmpp.TERMINATE, seq⟩
            obtain ⟨m, hm⟩ := header_cmpp (Cmpp.terminateToResponse ⟨12, Cmpp.TERMINATE, seq⟩ 0)
            simp [hl, hm]
          · rename_i hc
            rw [if_neg hc] at h
            split
            · simp only [Cmpp.terminateRspDecode, Option.bind_eq_bind, Option.bind_some]
              obtain ⟨l, hl⟩ := header_cmpp ⟨12, Cmpp.TERMINATE_RESP, seq⟩
              rw [hl]; simp
            · rename_i hc
              rw [if_neg hc] at h
              split
              · rename_i hc
                rw [if_pos hc] at h
                cases hd : Cmpp.Rsp.decode Cmpp.SUBMIT_RESP e.ver seq (Buf.exact buff) with
                | none => rw [hd] at h; exact absurd rfl h
                | some r =>
                  obtain ⟨l, hl⟩ := cmppRsp_some r
                  simp [hl]
              · rename_i hc
                rw [if_neg hc] at h
                split
                · rename_i hc
                  rw [if_pos hc] at h
                  cases hd : Cmpp.Delivery.decode e.ver seq (Buf.exact buff) with
                  | none => rw [hd] at h; exact absurd rfl h
                  | some r =>
                    obtain ⟨l, hl⟩ := cmppDelivery_some r (deliver_report hd)
                    obtain ⟨m, hm⟩ := cmppRsp_some (r.toResponse 0)
                    simp [hl, hm]
                · simp
  · simp only [ClientTraffic.onTraffic, ClientTraffic.onTrafficSgip] at h
    simp only [client, clientSgip]
    split
    · rename_i hc
      rw [if_pos hc] at h
      cases hd : Sgip.bindRspDecode seq (Buf.exact buff) with
      | none => rw [hd] at h; exact absurd rfl h
      | some r =>
        obtain ⟨l, hl⟩ := sgipRsp_some r
        simp [hl]
    · rename_i hc
      rw [if_neg hc] at h
      split
      · rename_i hc
        rw [if_pos hc] at h
        cases hd : Sgip.unbindDecode Sgip.UNBIND seq (Buf.exact buff) with
        | none => rw [hd] at h; exact absurd rfl h
        | some u =>
          obtain ⟨l, hl⟩ := header_sgip u
          obtain ⟨m, hm⟩ := header_sgip (Sgip.unbindToResponse u 0)
          simp [hl, hm]
      · rename_i hc
        rw [if_neg hc] at h
        split
        · rename_i hc
          rw [if_pos hc] at h
          cases hd : Sgip.unbindDecode Sgip.UNBIND_RESP seq (Buf.exact buff) with
          | none => rw [hd] at h; exact absurd rfl h
          | some u =>
            obtain ⟨l, hl⟩ := header_sgip u
            simp [hl]
        · rename_i hc
          rw [if_neg hc] at h
          split
          · rename_i hc
            rw [if_pos hc] at h
            cases hd : Sgip.Rsp.decode Sgip.SUBMIT_RESP seq (Buf.exact buff) with
            | none => rw [hd] at h; exact absurd rfl h
            | some r =>
              obtain ⟨l, hl⟩ := sgipRsp_some r
              simp [hl]
          · simp
  · simp only [ClientTraffic.onTraffic, ClientTraffic.onTrafficSmgp] at h
    simp only [client, clientSmgp]
    split
    · rename_i hc
      rw [if_pos hc] at h
      cases hd : Smgp.LoginRsp.decode seq (Buf.exact buff) with
      | none => rw [hd] at h; exact absurd rfl h
      | some r =>
        obtain ⟨l, hl⟩ := smgpLoginRsp_some r
        simp [hl]
    · rename_i hc
      rw [if_neg hc] at h
      split
      · simp only [Smgp.activeTestDecode, Option.bind_eq_bind, Option.bind_some]
        obtain ⟨l, hl⟩ := header_smgp ⟨12, Smgp.ACTIVE_TEST, seq⟩
        obtain ⟨m, hm⟩ := header_smgp (Smgp.activeTestToResponse ⟨12, Smgp.ACTIVE_TEST, seq⟩ 0)
        simp [hl, hm]
      · rename_i hc
        rw [if_neg hc] at h
        split
        · simp only [Smgp.activeTestRspDecode, Option.bind_eq_bind, Option.bind_some]
          obtain ⟨l, hl⟩ := header_smgp ⟨12, Smgp.ACTIVE_TEST_RESP, seq⟩
          rw [hl]; simp
        · rename_i hc
          rw [if_neg hc] at h
          split
          · simp only [Smgp.exitDecode, Option.bind_eq_bind, Option.bind_some]
            obtain ⟨l, hl⟩ := header_smgp ⟨12, Smgp.EXIT, seq⟩
            obtain ⟨m, hm⟩ := header_smgp (Smgp.exitToResponse ⟨12, Smgp.EXIT, seq⟩ 0)
            simp [hl, hm]
          · rename_i hc
            rw [if_neg hc] at h
            split
            · simp only [Smgp.exitRspDecode, Option.bind_eq_bind, Option.bind_some]
              obtain ⟨l, hl⟩ := header_smgp ⟨12, Smgp.EXIT_RESP, seq⟩
              rw [hl]; simp
            · rename_i hc
              rw [if_neg hc] at h
              split
              · rename_i hc
                rw [if_pos hc] at h
                cases hd : Smgp.Rsp.decode Smgp.SUBMIT_RESP e.ver seq (Buf.exact buff) with
                | none => rw [hd] at h; exact absurd rfl h
                | some r =>
                  obtain ⟨l, hl⟩ := smgpRsp_some r
                  simp [hl]
              · rename_i hc
                rw [if_neg hc] at h
                split
                · rename_i hc
                  rw [if_pos hc] at h
                  cases hd : Smgp.Delivery.decode e.gbDec e.ver seq (Buf.exact buff) with
                  | none => rw [hd] at h; exact absurd rfl h
                  | some r =>
                    cases r with
                    | some r =>
                      obtain ⟨l, hl⟩ := smgpDelivery_some r (smgp_deliver_report hd)
                      obtain ⟨m, hm⟩ := smgpRsp_some (r.toResponse 0 e.nextId)
                      simp [hl, hm]
                    | none =>
                      obtain ⟨d, he⟩ := decode_plain hd
                      obtain ⟨l, hl⟩ := smgpDelivery_some d (smgp_deliver_report he)
                      simp [hl, he]
                · simp

theorem received_some (p : Proto) (c : Conn) (cmd : UInt32) (body : Bytes) :
    ∃ r, received p c cmd body = some r ∧ r.level = .debug := by
  obtain ⟨n, hn, _⟩ := command_names p cmd
  exact ⟨_, by rw [received, hn]; rfl, rfl⟩

theorem dropped_some (c : Conn) (op : UInt8) (err body : Bytes) (h : op ∈ [opFlowControl, opConnectionClose, opDropMessage]) :
    ∃ r, dropped c op err body = some r ∧ packetHex body ∈ r.fields ∧ r.level = .error := by
  have : ∃ o, opField op = some o := by
    simp only [List.mem_cons, List.not_mem_nil, or_false] at h
    rcases h with rfl | rfl | rfl <;> exact ⟨_, rfl⟩
  obtain ⟨o, ho⟩ := this
  exact ⟨_, by rw [dropped, ho]; rfl, by simp, rfl⟩

theorem cmppLoginTask_some (md5 : Bytes → Bytes) (c : Conn) (d : ServerTraffic.Draw) (l : Cmpp.Connect) :
    ∃ rs, cmppLoginTask md5 c d l = some rs := by
  unfold cmppLoginTask
  obtain ⟨a, ha⟩ := cmppConnect_some l
  dsimp only
  rw [do1 ha]
  generalize hr : (l.check md5 (d.find l.sourceAddr)).2.toResponse md5 _ = r
  obtain ⟨b, hb⟩ := cmppConnectResp_some r
  exact ⟨_, by rw [do1 hb]; rfl⟩

theorem smgpLoginTask_some (md5 : Bytes → Bytes) (c : Conn) (d : ServerTraffic.Draw) (l : Smgp.Login) :
    ∃ rs, smgpLoginTask md5 c d l = some rs := by
  unfold smgpLoginTask
  obtain ⟨a, ha⟩ := smgpLogin_some l
  dsimp only
  rw [do1 ha]
  generalize hr : (l.check md5 (d.find l.clientID)).2.toResponse md5 _ = r
  obtain ⟨b, hb⟩ := smgpLoginRsp_some r
  exact ⟨_, by rw [do1 hb]; rfl⟩

theorem sgipLoginTask_some (c : Conn) (d : ServerTraffic.Draw) (l : Sgip.Bind) :
    ∃ rs, sgipLoginTask c d l = some rs := by
  unfold sgipLoginTask
  obtain ⟨a, ha⟩ := sgipBind_some l
  dsimp only
  rw [do1 ha]
  generalize hr : l.toResponse _ = r
  obtain ⟨b, hb⟩ := sgipRsp_some r
  exact ⟨_, by rw [do1 hb]; rfl⟩

/-- C97: a login the server can decode is logged without a panic, whatever the account, the verdict and the response,
and also where the goroutine pool takes no more tasks. -/
theorem login_log (p : Proto) (gbDec : Bytes → Option Bytes) (ver : UInt8) (md5 : Bytes → Bytes) (c : Conn)
    (full : Option Bytes) (d : ServerTraffic.Draw) (cmd seq : UInt32) (body : Bytes)
    (h : Handlers.decodes gbDec ver seq body p .login = true) : login p md5 c full d cmd seq body ≠ none := by
  unfold login
  obtain ⟨r, hr, _⟩ := received_some p c cmd body
  rw [do1 hr]
  cases full with
  | some err =>
    obtain ⟨x, hx, _⟩ := dropped_some c opConnectionClose err body (by decide)
    simp [hx]
  | none =>
    cases p <;> simp only [Handlers.decodes, Option.isSome_iff_exists] at h <;> obtain ⟨l, hl⟩ := h <;>
      simp only [hl, Option.bind_some]
    · obtain ⟨rs, hrs⟩ := cmppLoginTask_some md5 c d l
      simp [hrs]
    · obtain ⟨rs, hrs⟩ := sgipLoginTask_some c d l
      simp [hrs]
    · obtain ⟨rs, hrs⟩ := smgpLoginTask_some md5 c d l
      simp [hrs]

/-- C97: a submit the server can decode is logged without a panic, with its answer, whether it is over the rate, dropped
because the goroutine pool is full, or handled. -/
theorem submit_log (p : Proto) (gbDec : Bytes → Option Bytes) (ver : UInt8) (c : Conn) (full : Option Bytes) (allow : Bool)
    (result : UInt32) (id : UInt64) (bcd : Bytes) (cmd seq : UInt32) (body : Bytes)
    (h : Handlers.decodes gbDec ver seq body p .submit = true) :
    submit p gbDec c ver full allow result id bcd cmd seq body ≠ none := by
  unfold submit
  obtain ⟨r, hr, _⟩ := received_some p c cmd body
  rw [do1 hr]
  have hx : ∀ err, ∃ x, dropped c opDropMessage err body = some x := fun err =>
    (dropped_some c opDropMessage err body (by decide)).imp fun _ h => h.1
  cases p <;> simp only [Handlers.decodes, Option.isSome_iff_exists] at h <;> obtain ⟨s, hs⟩ := h <;>
    simp only [hs, Option.map_some, Option.bind_eq_bind, Option.bind_some]
  · obtain ⟨a, ha⟩ := cmppSubmit_some s
    obtain ⟨b, hb⟩ := cmppRsp_some (s.toResponse result id)
    cases allow
    · simp [hb]
    · cases full with
      | none => simp [submitTask, ha, hb]
      | some err => obtain ⟨x, hx⟩ := hx err; simp [hx]
  · obtain ⟨a, ha⟩ := sgipSubmit_some s
    obtain ⟨b, hb⟩ := sgipRsp_some (s.toResponse result)
    cases allow
    · simp [hb]
    · cases full with
      | none => simp [submitTask, ha, hb]
      | some err => obtain ⟨x, hx⟩ := hx err; simp [hx]
  · obtain ⟨a, ha⟩ := smgpSubmit_some s
    obtain ⟨b, hb⟩ := smgpRsp_some (s.toResponse result bcd)
    cases allow
    · simp [hb]
    · cases full with
      | none => simp [submitTask, ha, hb]
      | some err => obtain ⟨x, hx⟩ := hx err; simp [hx]

/-- C97: heartbeats, terminations and responses the server can decode are logged without a panic. -/
theorem other_log (p : Proto) (k : Handlers.Kind) (gbDec : Bytes → Option Bytes) (ver : UInt8) (seq : UInt32) (body : Bytes)
    (h : Handlers.decodes gbDec ver seq body p k = true) : other seq body p k ≠ none := by
  have hc : ∀ {x : Option Header} {f : Header → Header}, x.isSome → (do
      let a ← x
      return [← cmppHeader a, ← cmppHeader (f a)] : Option (List (List Field))) ≠ none := by
    intro x f hx
    obtain ⟨s, rfl⟩ := Option.isSome_iff_exists.mp hx
    obtain ⟨a, ha⟩ := header_cmpp s
    obtain ⟨b, hb⟩ := header_cmpp (f s)
    simp [ha, hb]
  have hc' : ∀ {x : Option Header}, x.isSome →
      (do return [← cmppHeader (← x)] : Option (List (List Field))) ≠ none := by
    intro x hx
    obtain ⟨s, rfl⟩ := Option.isSome_iff_exists.mp hx
    obtain ⟨a, ha⟩ := header_cmpp s
    simp [ha]
  have hs : ∀ {x : Option Header} {f : Header → Header}, x.isSome → (do
      let a ← x
      return [← smgpHeader a, ← smgpHeader (f a)] : Option (List (List Field))) ≠ none := by
    intro x f hx
    obtain ⟨s, rfl⟩ := Option.isSome_iff_exists.mp hx
    obtain ⟨a, ha⟩ := header_smgp s
    obtain ⟨b, hb⟩ := header_smgp (f s)
    simp [ha, hb]
  have hs' : ∀ {x : Option Header}, x.isSome →
      (do return [← smgpHeader (← x)] : Option (List (List Field))) ≠ none := by
    intro x hx
    obtain ⟨s, rfl⟩ := Option.isSome_iff_exists.mp hx
    obtain ⟨a, ha⟩ := header_smgp s
    simp [ha]
  cases p
  · cases k
    · simp [other]
    · exact hc h
    · exact hc' h
    · simp only [Handlers.decodes, Option.isSome_iff_exists] at h
      obtain ⟨s, hs⟩ := h
      obtain ⟨a, ha⟩ := cmppRsp_some s
      simp [other, hs, ha]
    · simp [other]
    · exact hc h
    · exact hc' h
  · cases k
    · simp [other]
    · simp [other]
    · simp [other]
    · simp [other]
    · simp [other]
    · simp only [Handlers.decodes, Option.isSome_iff_exists] at h
      obtain ⟨s, hs⟩ := h
      obtain ⟨a, ha⟩ := header_sgip s
      obtain ⟨b, hb⟩ := header_sgip (Sgip.unbindToResponse s 0)
      simp [other, hs, ha, hb]
    · simp only [Handlers.decodes, Option.isSome_iff_exists] at h
      obtain ⟨s, hs⟩ := h
      obtain ⟨a, ha⟩ := header_sgip s
      simp [other, hs, ha]
  · cases k
    · simp [other]
    · exact hs h
    · exact hs' h
    · simp only [Handlers.decodes, Option.isSome_iff_exists] at h
      obtain ⟨s, hs⟩ := h
      obtain ⟨a, ha⟩ := smgpRsp_some s
      simp [other, hs, ha]
    · simp [other]
    · exact hs h
    · exact hs' h

/-- C97: what the server itself sends, it logs after writing it, in the event loop, where a panic would end the server:
reports for CMPP and SMGP submits and simulated messages from phones, whatever the submit, account and text. -/
theorem sent_log (cs : Cmpp.Submit) (ss : Smgp.Submit) (ac : AuthConf) (msgId id : UInt64) (seq smsc : UInt32) (seq3 : Sgip.Seq3)
    (sub done bcd bcd' phone text dest svc : Bytes) (clock csub cdone : Clock) (unix : Nat) (gbEnc : Bytes → Option Bytes) :
    cmppDelivery (cs.toDeliveryReport msgId seq id smsc sub done) ≠ none ∧
    (∀ d, Smgp.newDeliveryReport ac ss seq bcd bcd' clock csub cdone unix = some d → smgpDelivery d ≠ none) ∧
    cmppDelivery (Cmpp.newDelivery ac phone text dest svc seq id) ≠ none ∧
    smgpDelivery (Smgp.newDeliver gbEnc ac phone dest text seq bcd clock) ≠ none ∧
    sgipDeliver (Sgip.newDeliver ac phone text dest seq3) ≠ none := by
  refine ⟨?_, ?_, ?_, ?_, ?_⟩
  · obtain ⟨l, hl⟩ := cmppDelivery_some (cs.toDeliveryReport msgId seq id smsc sub done) (fun _ => rfl)
    simp [hl]
  · intro d hd
    obtain ⟨l, hl⟩ := smgpDelivery_some d (by
      unfold Smgp.newDeliveryReport at hd
      cases h : ss.destTermID.head? with
      | none => rw [h] at hd; cases hd
      | some x => rw [h] at hd; cases hd; intro _; rfl)
    simp [hl]
  · obtain ⟨l, hl⟩ := cmppDelivery_some (Cmpp.newDelivery ac phone text dest svc seq id) (fun h => by simp [Cmpp.newDelivery] at h)
    simp [hl]
  · obtain ⟨l, hl⟩ := smgpDelivery_some (Smgp.newDeliver gbEnc ac phone dest text seq bcd clock) (fun h => by simp [Smgp.newDeliver] at h)
    simp [hl]
  · obtain ⟨l, hl⟩ := sgipDeliver_some (Sgip.newDeliver ac phone text dest seq3)
    simp [hl]

/-- C97: an SGIP report received is logged without a panic. -/
theorem report_log (cid : UInt32) (f : Buf) (r : Sgip.Report) (h : Sgip.Report.decode cid f = some r) : sgipReport r ≠ none := by
  have h3 : r.mtSequence.length = 3 := by
    refine Rd.run_post (Φ := fun (r : Sgip.Report) => r.mtSequence.length = 3) ?_ h
    iterate 10 (refine Rd.post_bind' fun _ => ?_)
    exact Rd.post_pure rfl
  obtain ⟨l, hl⟩ := sgipReport_some r h3
  simp [hl]

/-- But a report made by the application without the sequence of its message (or with a short one) cannot be logged:
`Log` panics. -/
theorem report_log_fails (r : Sgip.Report) (h : r.mtSequence.length < 3) : sgipReport r = none := by
  obtain ⟨l, hl⟩ := header_sgip r.hdr
  unfold sgipReport
  rw [do1 hl]
  match hm : r.mtSequence, h with
  | [], _ => rfl
  | [_], _ => rfl
  | [_, _], _ => rfl

example : sgipReport {} = none := report_log_fails {} (by decide)

example : ClientTraffic.onTraffic .cmpp { ver := 0x20 } {} Cmpp.ACTIVE_TEST 7 [] ≠ none ∧
    client .cmpp { ver := 0x20 } Cmpp.ACTIVE_TEST 7 [] = some [
      [fnum "pkl" 12, fstr "op" (ascii "CMPP_ACTIVE_TEST"), fnum "seq" 7],
      [fnum "pkl" 13, fstr "op" (ascii "CMPP_ACTIVE_TEST_RESP"), fnum "seq" 7]] := by
  constructor
  · decide
  · decide

example : Handlers.decodes some 0x20 1 ServerTraffic.demoLogin .cmpp .login = true ∧
    Handlers.decodes some 0x20 1 (List.replicate 8 0) .sgip .terminate = true := by decide

example : ∃ s : Bytes, Handlers.decodes some 0x20 1 s .sgip .submit = true :=
  ⟨List.replicate 119 0 ++ [0, 0, 0, 2, 65, 66] ++ zeros 8, by decide +kernel⟩

/-! ## Passwords (C98) -/

theorem hexLoop_inj (x y : UInt8) (h : hexLoop x.toNat 1 = hexLoop y.toNat 1) : x = y := by
  have a := hexVal_hexLoop x.toNat 1 0
  have b := hexVal_hexLoop y.toNat 1 0
  rw [h, b] at a
  have := Option.some.inj a
  have := x.toNat_lt
  have := y.toNat_lt
  exact UInt8.toNat.inj (by omega)

theorem hex_inj : ∀ a b : Bytes, hex a = hex b → a = b
  | [], [], _ => rfl
  | [], y :: b, h => by simp [hex, Smgp.hexBytes, hexLoop] at h
  | x :: a, [], h => by simp [hex, Smgp.hexBytes, hexLoop] at h
  | x :: a, y :: b, h => by
    have h : hexLoop x.toNat 1 ++ hex a = hexLoop y.toNat 1 ++ hex b := h
    have hl : ∀ z : UInt8, (hexLoop z.toNat 1).length = 2 := fun z => rfl
    obtain ⟨h1, h2⟩ := List.append_inj h (by rw [hl, hl])
    rw [hexLoop_inj _ _ h1, hex_inj a b h2]

theorem shown_debug (level : Int) (h : 0 ≤ level) (r : Rec) (hr : r.level = .debug) (rs : List Rec) :
    shown level (r :: rs) = shown level rs := by
  have : ¬ level ≤ -1 := by omega
  simp [shown, hr, Level.num, this]

theorem sgip_bind_values (seq : UInt32) (body : Bytes) (h : 41 ≤ body.length) :
    Sgip.Bind.decode seq (Buf.exact body) = some
      { hdr := ⟨12 + UInt32.ofNat body.length, Sgip.BIND, seq, rd32 (body.take 4), rd32 ((body.drop 4).take 4)⟩
        loginType := body.getD 8 0, loginName := trimStr ((body.drop 9).take 16)
        loginPassword := trimStr ((body.drop 25).take 16) } := by
  unfold Sgip.Bind.decode
  simp (disch := omega) only [Rd.run, bind_length', bind_u32', bind_byte', bind_str', pure', Option.map_some, List.drop_zero,
    Nat.zero_add, Nat.reduceAdd]

/-- C98 (partial): at the shipped level the log tells nothing of an SGIP password but whether it was right. Two BINDs that
differ only in the password field, with the same verdict of the account looked up, give the same records. The goroutine
pool is not full; at debug level, or with a full pool, the claim is false (`sgip_password_debug_fails`,
`login_pool_full_fails`). -/
theorem sgip_password_partial (md5 : Bytes → Bytes) (c : Conn) (d : ServerTraffic.Draw) (cmd seq : UInt32) (b b' : Bytes)
    (hl : 41 ≤ b.length) (hl' : b'.length = b.length) (h1 : b'.take 25 = b.take 25)
    (hv : ∀ ac, d.find (trimStr ((b.drop 9).take 16)) = some ac →
      (ac.sharedSecret = trimStr ((b.drop 25).take 16) ↔ ac.sharedSecret = trimStr ((b'.drop 25).take 16))) :
    ∃ rs rs', login .sgip md5 c none d cmd seq b = some rs ∧ login .sgip md5 c none d cmd seq b' = some rs' ∧
      shown 0 rs = shown 0 rs' := by
  have t4 : b'.take 4 = b.take 4 := by
    have := congrArg (List.take 4) h1; simpa [List.take_take] using this
  have t8 : (b'.drop 4).take 4 = (b.drop 4).take 4 := by
    have := congrArg (fun l => (List.drop 4 l).take 4) h1; simpa [List.take_take, List.drop_take] using this
  have t9 : b'.getD 8 0 = b.getD 8 0 := by
    have := congrArg (fun l => List.getD l 8 0) h1
    simpa [List.getD_eq_getElem?_getD, List.getElem?_take] using this
  have tn : (b'.drop 9).take 16 = (b.drop 9).take 16 := by
    have := congrArg (fun l => (List.drop 9 l).take 16) h1; simpa [List.take_take, List.drop_take] using this
  obtain ⟨r, hr, hd⟩ := received_some .sgip c cmd b
  obtain ⟨r', hr', hd'⟩ := received_some .sgip c cmd b'
  have e := sgip_bind_values seq b hl
  have e' := sgip_bind_values seq b' (by omega)
  rw [t4, t8, t9, tn, hl'] at e'
  generalize hB : ({ hdr := ⟨12 + UInt32.ofNat b.length, Sgip.BIND, seq, rd32 (b.take 4), rd32 ((b.drop 4).take 4)⟩
                     loginType := b.getD 8 0, loginName := trimStr ((b.drop 9).take 16)
                     loginPassword := trimStr ((b.drop 25).take 16) } : Sgip.Bind) = B at e
  generalize hB' : ({ hdr := ⟨12 + UInt32.ofNat b.length, Sgip.BIND, seq, rd32 (b.take 4), rd32 ((b.drop 4).take 4)⟩
                      loginType := b.getD 8 0, loginName := trimStr ((b.drop 9).take 16)
                      loginPassword := trimStr ((b'.drop 25).take 16) } : Sgip.Bind) = B' at e'
  have q1 : B'.loginName = B.loginName := by rw [← hB, ← hB']
  have q2 : sgipBind B' = sgipBind B := by rw [← hB, ← hB']; rfl
  have q3 : B'.hdr = B.hdr := by rw [← hB, ← hB']
  have q4 : B'.check (d.find B.loginName) = B.check (d.find B.loginName) := by
    cases ha : d.find B.loginName with
    | none => rfl
    | some ac =>
      have := hv ac (by rw [← hB] at ha; exact ha)
      have p1 : B.loginPassword = trimStr ((b.drop 25).take 16) := by rw [← hB]
      have p2 : B'.loginPassword = trimStr ((b'.drop 25).take 16) := by rw [← hB']
      simp only [Sgip.Bind.check, q1, p1, p2, this]
  obtain ⟨rs, hrs⟩ := sgipLoginTask_some c d B
  have q5 : sgipLoginTask c d B' = some rs := by
    rw [← hrs]
    simp only [sgipLoginTask, q1, q4, q2, Sgip.Bind.toResponse, q3]
  refine ⟨r :: rs, r' :: rs, ?_, ?_, ?_⟩
  · simp [login, hr, e, hrs]
  · simp [login, hr', e', q5]
  · rw [shown_debug 0 (by decide) r hd, shown_debug 0 (by decide) r' hd']

/-- Two wrong passwords of an account: the hypotheses of `sgip_password_partial`. -/
example : ∃ rs rs', login .sgip (fun _ => zeros 16) ⟨[], [], 0, []⟩ none
      { find := fun _ => some { loginName := [65], sharedSecret := [66] } } Sgip.BIND 1
      (zeros 9 ++ [65] ++ zeros 15 ++ [67] ++ zeros 15) = some rs ∧
    login .sgip (fun _ => zeros 16) ⟨[], [], 0, []⟩ none
      { find := fun _ => some { loginName := [65], sharedSecret := [66] } } Sgip.BIND 1
      (zeros 9 ++ [65] ++ zeros 15 ++ [68] ++ zeros 15) = some rs' ∧ shown 0 rs = shown 0 rs' :=
  sgip_password_partial _ _ _ _ _ _ _ (by decide) (by decide) (by decide) (by
    intro ac h
    cases h
    decide)

/-- A server that knows one account. -/
def only (ac : AuthConf) (sessions : Int) : ServerTraffic.Draw := { find := fun _ => some ac, sessions := sessions }

theorem shown_authCheck (level : Int) (h : 0 ≤ level) (input compute : Bytes) : shown level (authCheck input compute) = [] := by
  have : ¬ level ≤ -1 := by omega
  simp [shown, authCheck, Level.num, this]

theorem shown_append (level : Int) (a b : List Rec) : shown level (a ++ b) = shown level a ++ shown level b := by
  simp [shown]

theorem shown_cmppAuthCheck (level : Int) (h : 0 ≤ level) (md5 : Bytes → Bytes) (l : Cmpp.Connect) (ac : Option AuthConf) :
    shown level (cmppAuthCheck md5 l ac) = [] := by
  unfold cmppAuthCheck
  split
  · rfl
  · split
    · rfl
    · exact shown_authCheck level h _ _

theorem shown_smgpAuthCheck (level : Int) (h : 0 ≤ level) (md5 : Bytes → Bytes) (l : Smgp.Login) (ac : Option AuthConf) :
    shown level (smgpAuthCheck md5 l ac) = [] := by
  unfold smgpAuthCheck
  split
  · rfl
  · split
    · rfl
    · exact shown_authCheck level h _ _

/-- C98 (partial): at the shipped level the log of a refused CMPP login does not depend on the account's secret: two
accounts alike but for the secret, both refusing the login, give the same records. The goroutine pool is not full. Of an
accepted login the digests over the secret are logged, see `login_replay_fails`. -/
theorem cmpp_secret_partial (md5 : Bytes → Bytes) (c : Conn) (ac : AuthConf) (secret : Bytes) (n : Int) (cmd seq : UInt32)
    (body : Bytes) (l : Cmpp.Connect) (hd : Cmpp.Connect.decode seq (Buf.exact body) = some l)
    (h : (l.check md5 (some ac)).1 ≠ 0) (h' : (l.check md5 (some { ac with sharedSecret := secret })).1 ≠ 0) :
    ∃ rs rs', login .cmpp md5 c none (only ac n) cmd seq body = some rs ∧
      login .cmpp md5 c none (only { ac with sharedSecret := secret } n) cmd seq body = some rs' ∧ shown 0 rs = shown 0 rs' := by
  obtain ⟨r, hr, hdb⟩ := received_some .cmpp c cmd body
  obtain ⟨a, ha⟩ := cmppConnect_some l
  have k : l.check md5 (some { ac with sharedSecret := secret }) = l.check md5 (some ac) := by
    unfold Cmpp.Connect.check at h h' ⊢
    simp only at h h' ⊢
    split at h
    · simp_all
    · split at h
      · exact absurd rfl h
      · rename_i q1 q2
        rw [if_neg q1] at h' ⊢
        split at h'
        · exact absurd rfl h'
        · rename_i q3
          rw [if_neg q3, if_neg q1, if_neg q2]
  obtain ⟨b, hb⟩ := cmppConnectResp_some ((l.check md5 (some ac)).2.toResponse md5 (l.check md5 (some ac)).1.toUInt32)
  have t : ∀ ac' : AuthConf, l.check md5 (some ac') = l.check md5 (some ac) → cmppLoginTask md5 c (only ac' n) l =
      some ([⟨.info, session c ++ a⟩] ++ cmppAuthCheck md5 l (some ac') ++ [⟨.info, session c ++ b⟩]) := by
    intro ac' k
    simp only [cmppLoginTask, only, k, ServerTraffic.admitted, h, decide_false, false_and, if_false, ha, hb, afterLogin,
      Bool.false_eq_true]
    rfl
  refine ⟨r :: ([⟨.info, session c ++ a⟩] ++ cmppAuthCheck md5 l (some ac) ++ [⟨.info, session c ++ b⟩]),
    r :: ([⟨.info, session c ++ a⟩] ++ cmppAuthCheck md5 l (some { ac with sharedSecret := secret }) ++ [⟨.info, session c ++ b⟩]),
    ?_, ?_, ?_⟩
  · simp only [login, hr, hd, Option.bind_some, t ac rfl]; rfl
  · simp only [login, hr, hd, Option.bind_some, t _ k]; rfl
  · rw [shown_debug 0 (by decide) r hdb, shown_debug 0 (by decide) r hdb]
    simp only [shown_append, shown_cmppAuthCheck 0 (by decide)]

example : ∃ l, Cmpp.Connect.decode 1 (Buf.exact ServerTraffic.demoLogin) = some l ∧
    (l.check (fun _ => zeros 16) (some ServerTraffic.demoAccount)).1 ≠ 0 ∧
    (l.check (fun _ => zeros 16) (some { ServerTraffic.demoAccount with sharedSecret := [1] })).1 ≠ 0 := by
  refine ⟨_, rfl, ?_, ?_⟩ <;> decide

/-- C98 (partial): the same for SMGP. -/
theorem smgp_secret_partial (md5 : Bytes → Bytes) (c : Conn) (ac : AuthConf) (secret : Bytes) (n : Int) (cmd seq : UInt32)
    (body : Bytes) (l : Smgp.Login) (hd : Smgp.Login.decode seq (Buf.exact body) = some l)
    (h : (l.check md5 (some ac)).1 ≠ 0) (h' : (l.check md5 (some { ac with sharedSecret := secret })).1 ≠ 0) :
    ∃ rs rs', login .smgp md5 c none (only ac n) cmd seq body = some rs ∧
      login .smgp md5 c none (only { ac with sharedSecret := secret } n) cmd seq body = some rs' ∧ shown 0 rs = shown 0 rs' := by
  obtain ⟨r, hr, hdb⟩ := received_some .smgp c cmd body
  obtain ⟨a, ha⟩ := smgpLogin_some l
  have k : l.check md5 (some { ac with sharedSecret := secret }) = l.check md5 (some ac) := by
    unfold Smgp.Login.check at h h' ⊢
    simp only at h h' ⊢
    split at h
    · simp_all
    · split at h
      · exact absurd rfl h
      · rename_i q1 q2
        rw [if_neg q1] at h' ⊢
        split at h'
        · exact absurd rfl h'
        · rename_i q3
          rw [if_neg q3, if_neg q1, if_neg q2]
  obtain ⟨b, hb⟩ := smgpLoginRsp_some ((l.check md5 (some ac)).2.toResponse md5 (l.check md5 (some ac)).1)
  have t : ∀ ac' : AuthConf, l.check md5 (some ac') = l.check md5 (some ac) → smgpLoginTask md5 c (only ac' n) l =
      some ([⟨.info, session c ++ a⟩] ++ smgpAuthCheck md5 l (some ac') ++ [⟨.info, session c ++ b⟩]) := by
    intro ac' k
    simp only [smgpLoginTask, only, k, ServerTraffic.admitted, h, decide_false, false_and, if_false, ha, hb, afterLogin,
      Bool.false_eq_true]
    rfl
  refine ⟨r :: ([⟨.info, session c ++ a⟩] ++ smgpAuthCheck md5 l (some ac) ++ [⟨.info, session c ++ b⟩]),
    r :: ([⟨.info, session c ++ a⟩] ++ smgpAuthCheck md5 l (some { ac with sharedSecret := secret }) ++ [⟨.info, session c ++ b⟩]),
    ?_, ?_, ?_⟩
  · simp only [login, hr, hd, Option.bind_some, t ac rfl]; rfl
  · simp only [login, hr, hd, Option.bind_some, t _ k]; rfl
  · rw [shown_debug 0 (by decide) r hdb, shown_debug 0 (by decide) r hdb]
    simp only [shown_append, shown_smgpAuthCheck 0 (by decide)]

/-- C98 is false at debug level: the log of an SGIP login determines every byte of it, the password included. -/
theorem sgip_password_debug_fails (md5 : Bytes → Bytes) (c : Conn) (full : Option Bytes) (d : ServerTraffic.Draw)
    (cmd seq : UInt32) (b b' : Bytes) (rs : List Rec) (h : login .sgip md5 c full d cmd seq b = some rs)
    (h' : login .sgip md5 c full d cmd seq b' = some rs) : b = b' := by
  have first : ∀ x : Bytes, login .sgip md5 c full d cmd seq x = some rs → received .sgip c cmd x = rs.head? := by
    intro x hx
    unfold login at hx
    obtain ⟨r, hr, _⟩ := received_some .sgip c cmd x
    rw [do1 hr] at hx
    rw [hr]
    cases full with
    | some err =>
      obtain ⟨y, hy, _⟩ := dropped_some c opConnectionClose err x (by decide)
      simp [hy] at hx
      simp [← hx]
    | none =>
      simp only at hx
      cases hq : (Sgip.Bind.decode seq (Buf.exact x)).bind (sgipLoginTask c d) with
      | none => simp [hq] at hx
      | some q => simp [hq] at hx; simp [← hx]
  have e := (first b h).trans (first b' h').symm
  obtain ⟨n, hn, _⟩ := command_names .sgip cmd
  simp only [received, hn, Option.map_some, Option.some.injEq, Rec.mk.injEq, true_and] at e
  have := List.append_inj_right' e rfl
  simp [packetHex, fstr] at this
  exact hex_inj _ _ this

/-- C98 is false at any level once the goroutine pool is full: the error record holds the whole login packet. -/
theorem login_pool_full_fails (p : Proto) (md5 : Bytes → Bytes) (c : Conn) (err : Bytes) (d : ServerTraffic.Draw)
    (cmd seq : UInt32) (b b' : Bytes) : ∃ rs rs', login p md5 c (some err) d cmd seq b = some rs ∧
      login p md5 c (some err) d cmd seq b' = some rs' ∧ (shown 2 rs = shown 2 rs' → b = b') := by
  obtain ⟨r, hr, hd⟩ := received_some p c cmd b
  obtain ⟨r', hr', hd'⟩ := received_some p c cmd b'
  obtain ⟨x, hx, _, hl⟩ := dropped_some c opConnectionClose err b (by decide)
  obtain ⟨x', hx', _, hl'⟩ := dropped_some c opConnectionClose err b' (by decide)
  refine ⟨[r, x], [r', x'], by simp [login, hr, hx], by simp [login, hr', hx'], fun h => ?_⟩
  rw [shown_debug 2 (by decide) r hd, shown_debug 2 (by decide) r' hd'] at h
  simp [shown, hl, hl', Level.num] at h
  subst h
  rw [← hx'] at hx
  simp [dropped, opField, opString, opConnectionClose, packetHex, fstr] at hx
  exact hex_inj _ _ hx

/-- C98 is false for CMPP and SMGP at debug level: of a login that is refused the log shows the digest that would have
been accepted. -/
theorem login_digest_debug_fails (md5 : Bytes → Bytes) (c : Conn) (n : Int) (ac : AuthConf) (l : Cmpp.Connect) (s : Smgp.Login)
    (hc : Cmpp.majorMatch l.version ac.version = true) (hs : Smgp.majorMatch s.version ac.version = true) :
    (∃ rs, cmppLoginTask md5 c (only ac n) l = some rs ∧ ∃ digest, (⟨.debug, [fstr "[AuthCheck] compute" (hex digest)]⟩ : Rec) ∈ rs ∧
      ({ l with authenticatorSource := digest }.check md5 (some ac)).1 = 0) ∧
    (∃ rs, smgpLoginTask md5 c (only ac n) s = some rs ∧ ∃ digest, (⟨.debug, [fstr "[AuthCheck] compute" (hex digest)]⟩ : Rec) ∈ rs ∧
      ({ s with authenticatorClient := digest }.check md5 (some ac)).1 = 0) := by
  constructor
  · obtain ⟨rs, hrs⟩ := cmppLoginTask_some md5 c (only ac n) l
    refine ⟨rs, hrs, md5 (ac.clientId ++ zeros 9 ++ ac.sharedSecret ++ timeStamp2Str l.timestamp), ?_, ?_⟩
    · unfold cmppLoginTask at hrs
      simp only [only, Option.bind_eq_bind] at hrs
      obtain ⟨a, _, hrs⟩ := Option.bind_eq_some_iff.mp hrs
      obtain ⟨b, _, hrs⟩ := Option.bind_eq_some_iff.mp hrs
      cases hrs
      simp [cmppAuthCheck, hc, authCheck]
    · simp [Cmpp.Connect.check, hc]
  · obtain ⟨rs, hrs⟩ := smgpLoginTask_some md5 c (only ac n) s
    refine ⟨rs, hrs, md5 (ac.clientId ++ zeros 7 ++ ac.sharedSecret ++ timeStamp2Str s.timestamp), ?_, ?_⟩
    · unfold smgpLoginTask at hrs
      simp only [only, Option.bind_eq_bind] at hrs
      obtain ⟨a, _, hrs⟩ := Option.bind_eq_some_iff.mp hrs
      obtain ⟨b, _, hrs⟩ := Option.bind_eq_some_iff.mp hrs
      cases hrs
      simp [smgpAuthCheck, hs, authCheck]
    · simp [Smgp.Login.check, hs]

/-- C98 is false for CMPP and SMGP at the shipped level too: what is logged of a login is all that its acceptance
depends on. A login made up so that it would be logged alike is accepted by every account that accepts the one logged. -/
theorem login_replay_fails (md5 : Bytes → Bytes) (l l' : Cmpp.Connect) (s s' : Smgp.Login)
    (hl : cmppConnect l = cmppConnect l') (hs : smgpLogin s = smgpLogin s') (ac : Option AuthConf) :
    l.sourceAddr = l'.sourceAddr ∧ (l.check md5 ac).1 = (l'.check md5 ac).1 ∧
    s.clientID = s'.clientID ∧ (s.check md5 ac).1 = (s'.check md5 ac).1 := by
  obtain ⟨a, ha⟩ := header_cmpp l.hdr
  obtain ⟨a', ha'⟩ := header_cmpp l'.hdr
  obtain ⟨b, hb⟩ := header_smgp s.hdr
  obtain ⟨b', hb'⟩ := header_smgp s'.hdr
  simp only [cmppConnect, ha, ha', smgpLogin, hb, hb', Option.map_some, Option.some.injEq] at hl hs
  have e := List.append_inj_right' hl rfl
  have f := List.append_inj_right' hs rfl
  simp [fstr] at e f
  obtain ⟨e1, e2, e3, e4⟩ := e
  obtain ⟨f1, f2, _, f4, f5⟩ := f
  have e2 := hex_inj _ _ e2
  have e3 := hex_inj _ _ e3
  have f2 := hex_inj _ _ f2
  have f5 := hex_inj _ _ f5
  simp at e3 f5
  refine ⟨e1, ?_, f1, ?_⟩
  · cases ac with
    | none => rfl
    | some ac =>
      simp only [Cmpp.Connect.check, e2, e3, e4]
      split
      · rfl
      · split <;> rfl
  · cases ac with
    | none => rfl
    | some ac =>
      simp only [Smgp.Login.check, f2, f4, f5]
      split
      · rfl
      · split <;> rfl

/-! ## The text of messages (C99) -/

theorem excerpt_take (a b : Bytes) (h : a.take 6 = b.take 6) : excerpt a = excerpt b := by
  have k : ∀ x : Bytes, x.take (if x.length > 6 then 6 else x.length) = x.take 6 := by
    intro x
    split
    · rfl
    · rw [List.take_length, List.take_of_length_le (by omega)]
  simp only [excerpt, k, h]

/-- C99: the packet logged shows no more than the first six bytes of the text: submits and messages from phones that
differ only in the text after its sixth byte are logged alike. -/
theorem text_hidden (cs : Cmpp.Submit) (ss : Smgp.Submit) (gs : Sgip.Submit) (cd : Cmpp.Delivery) (sd : Smgp.Delivery)
    (gd : Sgip.Deliver) (m m' : Bytes) (h : m.take 6 = m'.take 6) :
    cmppSubmit { cs with msgContent := m } = cmppSubmit { cs with msgContent := m' } ∧
    smgpSubmit { ss with msgContent := m } = smgpSubmit { ss with msgContent := m' } ∧
    sgipSubmit { gs with messageContent := m } = sgipSubmit { gs with messageContent := m' } ∧
    cmppDelivery { cd with msgContent := m } = cmppDelivery { cd with msgContent := m' } ∧
    smgpDelivery { sd with msgContent := m } = smgpDelivery { sd with msgContent := m' } ∧
    sgipDeliver { gd with messageContent := m } = sgipDeliver { gd with messageContent := m' } := by
  have := excerpt_take m m' h
  refine ⟨?_, ?_, ?_, ?_, ?_, ?_⟩
  · simp only [cmppSubmit, this]
  · simp only [smgpSubmit, this]
  · simp only [sgipSubmit, this]
  · simp only [cmppDelivery, cmppContent, this]
  · simp only [smgpDelivery, smgpContent, this]
  · simp only [sgipDeliver, this]

/-- C99 (partial): at the shipped level a submit leaves nothing in the log, or, over the rate, a warning without anything of
the packet. The goroutine pool is not full. -/
theorem submit_silent_partial (p : Proto) (gbDec : Bytes → Option Bytes) (ver : UInt8) (c : Conn) (allow : Bool)
    (result : UInt32) (id : UInt64) (bcd : Bytes) (cmd seq : UInt32) (body : Bytes)
    (h : Handlers.decodes gbDec ver seq body p .submit = true) :
    ∃ rs, submit p gbDec c ver none allow result id bcd cmd seq body = some rs ∧
      shown 0 rs = if allow then [] else [⟨.warn, session c ++ [fstr "error" (ascii "Submit message flow control")]⟩] := by
  obtain ⟨r, hr, hd⟩ := received_some p c cmd body
  have key : ∀ (mt rsp : Option (List Field)) a b, mt = some a → rsp = some b →
      ∃ rs, (if allow = false then (do return [r, flowControlled c, ⟨.debug, session c ++ (← rsp)⟩]) else
        (do return r :: (← submitTask c mt rsp)) : Option (List Rec)) = some rs ∧
        shown 0 rs = if allow then [] else [⟨.warn, session c ++ [fstr "error" (ascii "Submit message flow control")]⟩] := by
    intro mt rsp a b ha hb
    subst ha hb
    cases allow
    · refine ⟨_, rfl, ?_⟩
      rw [shown_debug 0 (by decide) r hd]
      simp [shown, flowControlled, Level.num]
    · refine ⟨_, rfl, ?_⟩
      rw [shown_debug 0 (by decide) r hd]
      simp [shown, Level.num]
  unfold submit
  rw [do1 hr]
  cases p <;> simp only [Handlers.decodes, Option.isSome_iff_exists] at h <;> obtain ⟨s, hs⟩ := h <;>
    simp only [hs, Option.map_some]
  · obtain ⟨a, ha⟩ := cmppSubmit_some s
    obtain ⟨b, hb⟩ := cmppRsp_some (s.toResponse result id)
    exact key _ _ a b ha hb
  · obtain ⟨a, ha⟩ := sgipSubmit_some s
    obtain ⟨b, hb⟩ := sgipRsp_some (s.toResponse result)
    exact key _ _ a b ha hb
  · obtain ⟨a, ha⟩ := smgpSubmit_some s
    obtain ⟨b, hb⟩ := smgpRsp_some (s.toResponse result bcd)
    exact key _ _ a b ha hb

/-- C99 is false once the goroutine pool is full, at any level: the error record holds the whole submit, text and
recipients; and at debug level for every submit. -/
theorem submit_logged_whole_fails (p : Proto) (gbDec : Bytes → Option Bytes) (ver : UInt8) (c : Conn)
    (result : UInt32) (id : UInt64) (bcd err : Bytes) (cmd seq : UInt32) (body : Bytes)
    (h : Handlers.decodes gbDec ver seq body p .submit = true) :
    (∃ rs, submit p gbDec c ver (some err) true result id bcd cmd seq body = some rs ∧
      ∃ r ∈ shown 2 rs, packetHex body ∈ r.fields) ∧
    (∀ full allow, ∃ rs, submit p gbDec c ver full allow result id bcd cmd seq body = some rs ∧
      ∃ r ∈ shown (-1) rs, packetHex body ∈ r.fields) := by
  obtain ⟨r, hr, hd⟩ := received_some p c cmd body
  obtain ⟨x, hx, hp, hl⟩ := dropped_some c opDropMessage err body (by decide)
  constructor
  · refine ⟨[r, x], ?_, x, ?_, hp⟩
    · unfold submit
      rw [do1 hr]
      cases p <;> simp only [Handlers.decodes, Option.isSome_iff_exists] at h <;> obtain ⟨s, hs⟩ := h <;>
        simp [hs, hx]
    · rw [shown_debug 2 (by decide) r hd]
      simp [shown, hl, Level.num]
  · intro full allow
    have hb : packetHex body ∈ r.fields := by
      obtain ⟨n, hn, _⟩ := command_names p cmd
      simp only [received, hn, Option.map_some, Option.some.injEq] at hr
      rw [← hr]; simp
    obtain ⟨rs, hrs⟩ := Option.ne_none_iff_exists'.mp (submit_log p gbDec ver c full allow result id bcd cmd seq body h)
    refine ⟨rs, hrs, r, ?_, hb⟩
    have : r ∈ rs := by
      unfold submit at hrs
      rw [do1 hr] at hrs
      simp only [Option.bind_eq_bind] at hrs
      cases p <;> simp only at hrs <;> obtain ⟨⟨mt, rsp⟩, _, hrs⟩ := Option.bind_eq_some_iff.mp hrs <;> simp only at hrs <;>
        split at hrs <;> try split at hrs
      all_goals
        obtain ⟨y, _, hrs⟩ := Option.bind_eq_some_iff.mp hrs
        cases hrs; simp
    exact List.mem_filter.mpr ⟨this, by simp [hd, Level.num]⟩

end Gosms.Logging
