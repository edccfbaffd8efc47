import Verif.Model.Reuse

namespace Gosms.Rd

/-- `r'` does what `r` does and applies `g` to the value. -/
def Maps {α β : Type} (g : α → β) (r : Rd α) (r' : Rd β) : Prop :=
  ∀ f i, r' f i = (r f i).map fun p => (g p.1, p.2)

theorem maps_bind {α β γ : Type} {g : β → γ} {r : Rd α} {k : α → Rd β} {k' : α → Rd γ}
    (h : ∀ a, Maps g (k a) (k' a)) : Maps g (r >>= k) (r >>= k') := by
  intro f i
  simp only [bind_def, Rd.bind]
  cases r f i with
  | none => rfl
  | some p => exact h p.1 f p.2

theorem maps_bind_post {α β γ : Type} {g : β → γ} {r : Rd α} {k : α → Rd β} {k' : α → Rd γ} {Φ : α → Prop}
    (hr : Post r Φ) (h : ∀ a, Φ a → Maps g (k a) (k' a)) : Maps g (r >>= k) (r >>= k') := by
  intro f i
  simp only [bind_def, Rd.bind]
  cases hx : r f i with
  | none => rfl
  | some p => exact h p.1 (hr f i p.1 p.2 hx) f p.2

theorem maps_pure {α β : Type} {g : α → β} {a : α} {b : β} (h : b = g a) : Maps g (pure a) (pure b) := by
  intro f i
  rw [h]; rfl

/-- `r` and `r'` read the same, and their values agree after `g` and `g'`. -/
def Agree {α β γ : Type} (g : α → γ) (g' : β → γ) (r : Rd α) (r' : Rd β) : Prop :=
  ∀ f i, (r f i).map (fun p => (g p.1, p.2)) = (r' f i).map fun p => (g' p.1, p.2)

theorem agree_bind {α β γ δ : Type} {g : β → δ} {g' : γ → δ} {r : Rd α} {k : α → Rd β} {k' : α → Rd γ}
    (h : ∀ a, Agree g g' (k a) (k' a)) : Agree g g' (r >>= k) (r >>= k') := by
  intro f i
  simp only [bind_def, Rd.bind]
  cases r f i with
  | none => rfl
  | some p => exact h p.1 f p.2

theorem agree_bind_post {α β γ δ : Type} {g : β → δ} {g' : γ → δ} {r : Rd α} {k : α → Rd β} {k' : α → Rd γ} {Φ : α → Prop}
    (hr : Post r Φ) (h : ∀ a, Φ a → Agree g g' (k a) (k' a)) : Agree g g' (r >>= k) (r >>= k') := by
  intro f i
  simp only [bind_def, Rd.bind]
  cases hx : r f i with
  | none => rfl
  | some p => exact h p.1 (hr f i p.1 p.2 hx) f p.2

theorem agree_pure {α β γ : Type} {g : α → γ} {g' : β → γ} {a : α} {b : β} (h : g a = g' b) :
    Agree g g' (pure a) (pure b) := by
  intro f i
  simp only [pure_def, Rd.pure, Option.map_some, h]

theorem run_agree {α β γ : Type} {g : α → γ} {g' : β → γ} {r : Rd α} {r' : Rd β} (h : Agree g g' r r') (f : Buf) :
    (run r f).map g = (run r' f).map g' := by
  have e := h f 0
  simp only [run]
  cases h1 : r f 0 <;> cases h2 : r' f 0 <;> rw [h1, h2] at e <;> simp_all

/-- Returning and going on is going on. -/
theorem pure_go {α β : Type} (a : α) (k : α → Rd β) : ((pure a : Rd α) >>= k) = k a := rfl

theorem run_maps {α β : Type} {g : α → β} {r : Rd α} {r' : Rd β} (h : Maps g r r') (f : Buf) :
    run r' f = (run r f).map g := by
  simp only [run, h f 0]
  cases r f 0 <;> rfl

end Gosms.Rd

namespace Gosms.Reuse

open Gosms.Rd

macro "same_reads" : tactic =>
  `(tactic| repeat (first | exact maps_pure rfl | (refine maps_bind fun a => ?_)))

/-! ## What each `Decode` leaves of the object -/

theorem cmpp_connect_on (o : Cmpp.Connect) (seq : UInt32) (f : Buf) :
    o.decodeOn seq f = (Cmpp.Connect.decode seq f).map fun c => { c with secret := o.secret } := by
  unfold Cmpp.Connect.decodeOn Cmpp.Connect.decode
  apply run_maps
  same_reads

theorem cmpp_connect_resp_on (o : Cmpp.ConnectResp) (seq : UInt32) (f : Buf) :
    o.decodeOn seq f = (Cmpp.ConnectResp.decode o.version seq f).map id := by
  unfold Cmpp.ConnectResp.decodeOn Cmpp.ConnectResp.decode
  apply run_maps
  cases h : Cmpp.v3 o.version <;> simp only [Bool.false_eq_true, if_true, if_false, pure_go] <;> same_reads

theorem cmpp_rsp_on (cmd : UInt32) (o : Cmpp.Rsp) (seq : UInt32) (f : Buf) :
    o.decodeOn cmd seq f = (Cmpp.Rsp.decode cmd o.version seq f).map id := by
  unfold Cmpp.Rsp.decodeOn Cmpp.Rsp.decode
  apply run_maps
  cases h : Cmpp.v3 o.version <;> simp only [Bool.false_eq_true, if_true, if_false, pure_go] <;> same_reads

theorem cmpp_submit_on (o : Cmpp.Submit) (seq : UInt32) (f : Buf) :
    o.decodeOn seq f = (Cmpp.Submit.decode o.version seq f).map fun s => { s with
      msgId := o.msgId
      feeTerminalType := if Cmpp.v3 o.version then s.feeTerminalType else o.feeTerminalType
      destTerminalType := if Cmpp.v3 o.version then s.destTerminalType else o.destTerminalType
      linkID := if Cmpp.v3 o.version then s.linkID else o.linkID } := by
  unfold Cmpp.Submit.decodeOn Cmpp.Submit.decode
  apply run_maps
  cases h : Cmpp.v3 o.version <;> simp only [Bool.false_eq_true, if_true, if_false, pure_go] <;> same_reads

/-- A text keeps the report the object had, a report keeps the text. -/
theorem cmpp_deliver_on (o : Cmpp.Delivery) (seq : UInt32) (f : Buf) :
    o.decodeOn seq f = (Cmpp.Delivery.decode o.version seq f).map fun d => { d with
      serviceId := o.serviceId
      report := if d.registeredDelivery = 1 then d.report else o.report
      msgContent := if d.registeredDelivery = 1 then o.msgContent else d.msgContent
      srcTerminalType := if Cmpp.v3 o.version then d.srcTerminalType else o.srcTerminalType
      linkID := if Cmpp.v3 o.version then d.linkID else o.linkID } := by
  unfold Cmpp.Delivery.decodeOn Cmpp.Delivery.decode
  apply run_maps
  cases h : Cmpp.v3 o.version <;> simp only [Bool.false_eq_true, if_true, if_false, pure_go] <;>
    repeat (first
      | (refine maps_pure ?_; rename_i r _ _ _; by_cases hr : r = 1 <;> simp [hr]; done)
      | (refine maps_pure ?_; rename_i r _ _; by_cases hr : r = 1 <;> simp [hr]; done)
      | (refine maps_bind fun a => ?_))

theorem smgp_login_on (o : Smgp.Login) (seq : UInt32) (f : Buf) :
    o.decodeOn seq f = (Smgp.Login.decode seq f).map fun c => { c with secret := o.secret } := by
  unfold Smgp.Login.decodeOn Smgp.Login.decode
  apply run_maps
  same_reads

theorem smgp_login_resp_on (o : Smgp.LoginRsp) (seq : UInt32) (f : Buf) :
    o.decodeOn seq f = (Smgp.LoginRsp.decode seq f).map id := by
  unfold Smgp.LoginRsp.decodeOn Smgp.LoginRsp.decode
  apply run_maps
  same_reads

theorem smgp_rsp_on (cmd : UInt32) (o : Smgp.Rsp) (seq : UInt32) (f : Buf) :
    o.decodeOn cmd seq f = (Smgp.Rsp.decode cmd o.version seq f).map id := by
  unfold Smgp.Rsp.decodeOn Smgp.Rsp.decode
  apply run_maps
  same_reads

/-- The recipients read are added to those the object had. -/
theorem smgp_submit_on (gbDec : Bytes → Option Bytes) (o : Smgp.Submit) (seq : UInt32) (f : Buf) :
    o.decodeOn gbDec seq f = (Smgp.Submit.decode gbDec o.version seq f).map fun s => { s with
      destTermID := o.destTermID ++ s.destTermID
      tlvList := s.tlvList.or o.tlvList } := by
  unfold Smgp.Submit.decodeOn Smgp.Submit.decode
  apply run_maps
  same_reads

theorem sgip_bind_on (o : Sgip.Bind) (seq : UInt32) (f : Buf) :
    o.decodeOn seq f = (Sgip.Bind.decode seq f).map id := by
  unfold Sgip.Bind.decodeOn Sgip.Bind.decode
  apply run_maps
  same_reads

theorem sgip_bind_resp_on (o : Sgip.Rsp) (seq : UInt32) (f : Buf) :
    Sgip.bindRspDecodeOn o seq f = (Sgip.bindRspDecode seq f).map id := by
  unfold Sgip.bindRspDecodeOn Sgip.bindRspDecode
  apply run_maps
  same_reads

theorem sgip_unbind_on (cmd : UInt32) (o : SHeader) (seq : UInt32) (f : Buf) :
    Sgip.unbindDecodeOn cmd o seq f = (Sgip.unbindDecode cmd seq f).map id := by
  unfold Sgip.unbindDecodeOn Sgip.unbindDecode
  apply run_maps
  same_reads

theorem sgip_report_on (o : Sgip.Report) (seq : UInt32) (f : Buf) :
    o.decodeOn seq f = (Sgip.Report.decode seq f).map fun r => { r with reserve := o.reserve } := by
  unfold Sgip.Report.decodeOn Sgip.Report.decode
  apply run_maps
  same_reads

theorem sgip_rsp_on (cmd : UInt32) (o : Sgip.Rsp) (seq : UInt32) (f : Buf) :
    o.decodeOn cmd seq f = (Sgip.Rsp.decode cmd seq f).map id := by
  unfold Sgip.Rsp.decodeOn Sgip.Rsp.decode
  apply run_maps
  same_reads

theorem sgip_deliver_on (o : Sgip.Deliver) (seq : UInt32) (f : Buf) :
    o.decodeOn seq f = (Sgip.Deliver.decode seq f).map id := by
  unfold Sgip.Deliver.decodeOn Sgip.Deliver.decode
  apply run_maps
  same_reads

theorem sgip_submit_on (o : Sgip.Submit) (seq : UInt32) (f : Buf) :
    o.decodeOn seq f = (Sgip.Submit.decode seq f).map id := by
  unfold Sgip.Submit.decodeOn Sgip.Submit.decode
  apply run_maps
  same_reads

/-- The same for SMGP; a text that cannot be decoded keeps both. -/
theorem smgp_deliver_on (gbDec : Bytes → Option Bytes) (o : Smgp.Delivery) (seq : UInt32) (f : Buf) :
    o.decodeOn gbDec seq f = (Smgp.Delivery.decodeOn gbDec { version := o.version } seq f).map fun p => ({ p.1 with
        report := if p.1.isReport = 1 ∧ p.2 = false then p.1.report else o.report
        msgContent := if p.1.isReport ≠ 1 ∧ p.2 = false then p.1.msgContent else o.msgContent
        msgBytes := o.msgBytes
        reserve := o.reserve }, p.2) := by
  unfold Smgp.Delivery.decodeOn
  apply run_maps
  refine maps_bind fun _ => maps_bind fun _ => maps_bind fun r => maps_bind fun _ => maps_bind fun _ =>
    maps_bind fun _ => maps_bind fun _ => maps_bind fun _ => maps_bind fun c => ?_
  cases c with
  | none => refine maps_pure ?_; simp
  | some c =>
    refine maps_pure ?_
    by_cases hr : r = 1 <;> simp [hr]

theorem post_deliverContent (gbDec : Bytes → Option Bytes) (r l : UInt8) : Post (Smgp.deliverContent gbDec r l) fun c =>
    (r = 1 → ∃ rpt, c = some (some rpt, [])) ∧ (r ≠ 1 → ∀ x, c = some x → x.1 = none) := by
  unfold Smgp.deliverContent
  by_cases hr : r = 1
  · rw [if_pos hr]
    refine post_bind' fun _ => post_bind' fun rpt => post_pure ⟨fun _ => ⟨rpt, rfl⟩, fun h => absurd hr h⟩
  · rw [if_neg hr]
    refine post_bind' fun b => post_pure ⟨fun h => absurd h hr, fun _ x hx => ?_⟩
    cases hg : gbDec b with
    | none => rw [hg] at hx; cases hx
    | some t => rw [hg] at hx; simp only [Option.map_some, Option.some.injEq] at hx; rw [← hx]

/-- On a new object it is the `Decode` of the other models. -/
theorem smgp_deliver_fresh (gbDec : Bytes → Option Bytes) (v : UInt8) (seq : UInt32) (f : Buf) :
    (Smgp.Delivery.decodeOn gbDec { version := v } seq f).map (fun p => if p.2 then none else some p.1) =
      (Smgp.Delivery.decode gbDec v seq f).map id := by
  unfold Smgp.Delivery.decodeOn Smgp.Delivery.decode
  refine run_agree (r := ?_) (r' := ?_) ?_ f
  refine agree_bind fun _ => agree_bind fun _ => agree_bind fun r => agree_bind fun _ => agree_bind fun _ =>
    agree_bind fun _ => agree_bind fun _ => agree_bind fun l => agree_bind_post (post_deliverContent gbDec r l) fun c hc => ?_
  cases c with
  | none => exact agree_pure rfl
  | some c =>
    refine agree_pure ?_
    obtain ⟨rpt, text⟩ := c
    by_cases hr : r = 1
    · have e1 : text = [] := by
        obtain ⟨rp, e⟩ := hc.1 hr
        simp only [Option.some.injEq, Prod.mk.injEq] at e
        exact e.2
      simp only [hr, if_true, e1, Bool.false_eq_true, if_false, Option.map_some, id]
    · have e : rpt = none := hc.2 hr (rpt, text) rfl
      simp only [hr, e, Bool.false_eq_true, if_false, Option.map_some, id]

/-! ## Histories -/

/-- The packets whose `Decode` depends on what was done with the object before. -/
def Remembers : Kind → Prop
  | .smgpSubmit | .cmppDeliver | .smgpDeliver | .cmppConnectResp => True
  | _ => False

/-- What a history of uses leaves of a new object, as far as `Decode` looks at it. -/
def Clean (v : UInt8) : (k : Kind) → Obj k → Prop
  | .cmppConnect, (o : Cmpp.Connect) => o.secret = []
  | .cmppSubmit, (o : Cmpp.Submit) => o.version = v ∧ o.msgId = 0 ∧
      (Cmpp.v3 v = false → o.feeTerminalType = 0 ∧ o.destTerminalType = 0 ∧ o.linkID = [])
  | .cmppSubmitResp, (o : Cmpp.Rsp) => o.version = v
  | .cmppDeliverResp, (o : Cmpp.Rsp) => o.version = v
  | .smgpLogin, (o : Smgp.Login) => o.secret = []
  | .smgpSubmitResp, (o : Smgp.Rsp) => o.version = v
  | .smgpDeliverResp, (o : Smgp.Rsp) => o.version = v
  | .sgipReport, (o : Sgip.Report) => o.reserve = []
  | _, _ => True

theorem clean_fresh (v : UInt8) (k : Kind) : Clean v k (fresh v k) := by
  cases k <;> simp [Clean, fresh]

theorem clean_encode (v g : UInt8) (k : Kind) (o : Obj k) (h : Clean v k o) : Clean v k (encode g k o).2 := by
  cases k <;> exact h

/-- On a clean object `Decode` does what it does on a new one. -/
theorem decode_clean (gbDec : Bytes → Option Bytes) (v : UInt8) (k : Kind) (hk : ¬ Remembers k) (o : Obj k)
    (h : Clean v k o) (seq : UInt32) (f : Buf) : decode gbDec seq f k o = decode gbDec seq f k (fresh v k) := by
  cases k <;> first
    | exact absurd trivial hk
    | skip
  all_goals simp only [decode, fresh]
  all_goals simp only [Clean] at h
  case cmppConnect => rw [cmpp_connect_on, cmpp_connect_on, h]
  case cmppSubmit =>
    obtain ⟨h1, h2, h3⟩ := h
    rw [cmpp_submit_on, cmpp_submit_on, h1, h2]
    cases hv : Cmpp.v3 v with
    | true => rfl
    | false => obtain ⟨e1, e2, e3⟩ := h3 hv; rw [e1, e2, e3]
  case cmppSubmitResp => rw [cmpp_rsp_on, cmpp_rsp_on, h]
  case cmppDeliverResp => rw [cmpp_rsp_on, cmpp_rsp_on, h]
  case smgpLogin => rw [smgp_login_on, smgp_login_on, h]
  case smgpLoginResp => rw [smgp_login_resp_on, smgp_login_resp_on]
  case smgpSubmitResp => rw [smgp_rsp_on, smgp_rsp_on, h]
  case smgpDeliverResp => rw [smgp_rsp_on, smgp_rsp_on, h]
  case sgipBind => rw [sgip_bind_on, sgip_bind_on]
  case sgipBindResp => rw [sgip_bind_resp_on, sgip_bind_resp_on]
  case sgipUnbind => rw [sgip_unbind_on, sgip_unbind_on]
  case sgipUnbindResp => rw [sgip_unbind_on, sgip_unbind_on]
  case sgipSubmit => rw [sgip_submit_on, sgip_submit_on]
  case sgipSubmitResp => rw [sgip_rsp_on, sgip_rsp_on]
  case sgipDeliver => rw [sgip_deliver_on, sgip_deliver_on]
  case sgipDeliverResp => rw [sgip_rsp_on, sgip_rsp_on]
  case sgipReport => rw [sgip_report_on, sgip_report_on, h]
  case sgipReportResp => rw [sgip_rsp_on, sgip_rsp_on]

theorem map_fst_some {α : Type} {r : Option α} {p : α × Bool} (h : r.map (·, false) = some p) : r = some p.1 := by
  cases r with
  | none => cases h
  | some a => simp only [Option.map_some, Option.some.injEq] at h; rw [← h]

/-- `Decode` of a clean object leaves it clean. -/
theorem clean_decode (gbDec : Bytes → Option Bytes) (v : UInt8) (k : Kind) (hk : ¬ Remembers k) (o : Obj k)
    (h : Clean v k o) (seq : UInt32) (f : Buf) (p : Obj k × Bool) (hd : decode gbDec seq f k o = some p) :
    Clean v k p.1 := by
  cases k <;> first
    | exact absurd trivial hk
    | exact trivial
    | skip
  all_goals simp only [decode] at hd
  all_goals replace hd := map_fst_some hd
  all_goals simp only [Clean] at h ⊢
  case cmppConnect =>
    refine run_post (Φ := fun (c : Cmpp.Connect) => c.secret = []) ?_ hd
    repeat (refine post_bind' fun a => ?_)
    exact post_pure h
  case cmppSubmit =>
    refine run_post (Φ := fun (o : Cmpp.Submit) => o.version = v ∧ o.msgId = 0 ∧
      (Cmpp.v3 v = false → o.feeTerminalType = 0 ∧ o.destTerminalType = 0 ∧ o.linkID = [])) ?_ hd
    obtain ⟨h1, h2, h3⟩ := h
    rw [h1]
    cases hv : Cmpp.v3 v <;> simp only [Bool.false_eq_true, if_true, if_false, pure_go]
    · repeat (refine post_bind' fun a => ?_)
      exact post_pure ⟨h1, h2, fun _ => h3 hv⟩
    · repeat (refine post_bind' fun a => ?_)
      exact post_pure ⟨h1, h2, fun e => by cases e⟩
  case cmppSubmitResp | cmppDeliverResp =>
    refine run_post (Φ := fun (c : Cmpp.Rsp) => c.version = v) ?_ hd
    rw [h]
    cases hv : Cmpp.v3 v <;> simp only [Bool.false_eq_true, if_true, if_false, pure_go] <;>
      repeat (refine post_bind' fun a => ?_)
    all_goals exact post_pure h
  case smgpLogin =>
    refine run_post (Φ := fun (c : Smgp.Login) => c.secret = []) ?_ hd
    repeat (refine post_bind' fun a => ?_)
    exact post_pure h
  case smgpSubmitResp | smgpDeliverResp =>
    refine run_post (Φ := fun (c : Smgp.Rsp) => c.version = v) ?_ hd
    repeat (refine post_bind' fun a => ?_)
    exact post_pure h
  case sgipReport =>
    refine run_post (Φ := fun (c : Sgip.Report) => c.reserve = []) ?_ hd
    repeat (refine post_bind' fun a => ?_)
    exact post_pure h

theorem clean_after (gbDec : Bytes → Option Bytes) (v : UInt8) (k : Kind) (hk : ¬ Remembers k) (hist : List Use)
    (o0 o : Obj k) (h0 : Clean v k o0) (h : hist.foldlM (use gbDec k) o0 = some o) : Clean v k o := by
  induction hist generalizing o0 with
  | nil => simp only [List.foldlM_nil] at h; cases h; exact h0
  | cons u hist ih =>
    simp only [List.foldlM_cons] at h
    cases hu : use gbDec k o0 u with
    | none => rw [hu] at h; cases h
    | some o1 =>
      rw [hu] at h
      refine ih o1 ?_ h
      cases u with
      | encode g =>
        simp only [use, Option.some.injEq] at hu
        rw [← hu]; exact clean_encode v g k o0 h0
      | decode seq f =>
        simp only [use] at hu
        cases hd : decode gbDec seq f k o0 with
        | none => rw [hd] at hu; cases hu
        | some p =>
          rw [hd] at hu
          simp only [Option.map_some, Option.some.injEq] at hu
          rw [← hu]
          exact clean_decode gbDec v k hk o0 h0 seq f p hd

/-! ## The property -/

/-- What the property asks of a packet: after any history of uses, `Decode` does on the object what it does on a new one. -/
def Spec.Forgets (gbDec : Bytes → Option Bytes) (k : Kind) : Prop :=
  ∀ (v : UInt8) (hist : List Use) (o : Obj k), after gbDec v k hist = some o →
    ∀ (seq : UInt32) (f : Buf), decode gbDec seq f k o = decode gbDec seq f k (fresh v k)

/-- C119: eighteen of the packets do. -/
theorem decode_forgets_partial (gbDec : Bytes → Option Bytes) (k : Kind) (hk : ¬ Remembers k) :
    Spec.Forgets gbDec k := by
  intro v hist o h seq f
  exact decode_clean gbDec v k hk o (clean_after gbDec v k hk hist _ o (clean_fresh v k) h) seq f

/-- Raising the length of a header twice is raising it once. -/
theorem clamp_clamp (h : Header) : h.clamp.clamp = h.clamp := by
  unfold Header.clamp
  split
  · rfl
  · rfl

theorem sclamp_clamp (h : SHeader) : h.clamp.clamp = h.clamp := by
  unfold SHeader.clamp
  split
  · rfl
  · rfl

theorem header_encode_clamp (h : Header) : h.clamp.encode = h.encode := by
  unfold Header.encode; rw [clamp_clamp]

theorem sheader_encode_clamp (h : SHeader) : h.clamp.encode = h.encode := by
  unfold SHeader.encode; rw [sclamp_clamp]

/-- C119: `Encode` changes nothing an `Encode` or a `Decode` sees. -/
theorem encode_keeps (gbDec : Bytes → Option Bytes) (k : Kind) (o : Obj k) (g g' : UInt8) :
    (encode g k (encode g' k o).2).1 = (encode g k o).1 ∧
    (encode g k (encode g' k o).2).2 = (encode g' k o).2 ∧
    ∀ (seq : UInt32) (f : Buf), decode gbDec seq f k (encode g' k o).2 = decode gbDec seq f k o := by
  cases k
  case smgpSubmit =>
    simp only [encode]
    by_cases h : o.destTermID.length = o.destTermIDCount.toNat
    · simp only [h, if_true, Smgp.Submit.encode, encodeWith, header_encode_clamp, clamp_clamp]
      exact ⟨trivial, trivial, fun _ _ => rfl⟩
    · simp only [h, if_false]
      exact ⟨trivial, trivial, fun _ _ => trivial⟩
  case sgipUnbind | sgipUnbindResp =>
    exact ⟨sheader_encode_clamp o, sclamp_clamp o, fun _ _ => rfl⟩
  all_goals simp only [encode, clamp_clamp, sclamp_clamp]
  all_goals refine ⟨?_, trivial, fun _ _ => rfl⟩
  case cmppDeliver =>
    have e : Cmpp.Delivery.contentBytes { o with hdr := o.hdr.clamp } g = o.contentBytes g := rfl
    simp only [Cmpp.Delivery.encode, encodeWith, header_encode_clamp, e]
  all_goals simp only [Cmpp.Connect.encode, Cmpp.ConnectResp.encode, Cmpp.Submit.encode, Cmpp.Rsp.encode,
    Smgp.Login.encode, Smgp.LoginRsp.encode, Smgp.Rsp.encode, Smgp.Delivery.encode,
    Sgip.Bind.encode, Sgip.bindRspEncode, Sgip.Rsp.encode, Sgip.Submit.encode, Sgip.Submit.ops, Sgip.Deliver.encode,
    Sgip.Report.encode, encodeWith, encodeWithS, header_encode_clamp, sheader_encode_clamp, clamp_clamp, sclamp_clamp]

theorem post_deliverReport (reg : UInt8) (sub : Buf) :
    Post (Cmpp.deliverReport reg sub) fun r => (reg = 1 ↔ r ≠ none) := by
  intro f i v j h
  unfold Cmpp.deliverReport at h
  by_cases hr : reg = 1
  · rw [if_pos hr] at h
    cases hd : Rd.run Cmpp.reportDecode sub with
    | none => rw [hd] at h; cases h
    | some x =>
      rw [hd] at h
      simp only [Option.map_some, lift, Option.some.injEq, Prod.mk.injEq] at h
      rw [← h.1]
      exact ⟨fun _ e => (by cases e), fun _ => hr⟩
  · rw [if_neg hr] at h
    simp only [pure_def, Rd.pure, Option.some.injEq, Prod.mk.injEq] at h
    rw [← h.1]
    exact ⟨fun e => absurd e hr, fun e => absurd rfl e⟩

/-- The decoders of the other models. -/
def plain (gbDec : Bytes → Option Bytes) (v : UInt8) (seq : UInt32) (f : Buf) : (k : Kind) → Option (Option (Obj k))
  | .cmppConnect => (Cmpp.Connect.decode seq f).map some
  | .cmppConnectResp => (Cmpp.ConnectResp.decode v seq f).map some
  | .cmppSubmit => (Cmpp.Submit.decode v seq f).map some
  | .cmppSubmitResp => (Cmpp.Rsp.decode Cmpp.SUBMIT_RESP v seq f).map some
  | .cmppDeliver => (Cmpp.Delivery.decode v seq f).map some
  | .cmppDeliverResp => (Cmpp.Rsp.decode Cmpp.DELIVER_RESP v seq f).map some
  | .smgpLogin => (Smgp.Login.decode seq f).map some
  | .smgpLoginResp => (Smgp.LoginRsp.decode seq f).map some
  | .smgpSubmit => (Smgp.Submit.decode gbDec v seq f).map some
  | .smgpSubmitResp => (Smgp.Rsp.decode Smgp.SUBMIT_RESP v seq f).map some
  | .smgpDeliver => Smgp.Delivery.decode gbDec v seq f
  | .smgpDeliverResp => (Smgp.Rsp.decode Smgp.DELIVER_RESP v seq f).map some
  | .sgipBind => (Sgip.Bind.decode seq f).map some
  | .sgipBindResp => (Sgip.bindRspDecode seq f).map some
  | .sgipUnbind => (Sgip.unbindDecode Sgip.UNBIND seq f).map some
  | .sgipUnbindResp => (Sgip.unbindDecode Sgip.UNBIND_RESP seq f).map some
  | .sgipSubmit => (Sgip.Submit.decode seq f).map some
  | .sgipSubmitResp => (Sgip.Rsp.decode Sgip.SUBMIT_RESP seq f).map some
  | .sgipDeliver => (Sgip.Deliver.decode seq f).map some
  | .sgipDeliverResp => (Sgip.Rsp.decode Sgip.DELIVER_RESP seq f).map some
  | .sgipReport => (Sgip.Report.decode seq f).map some
  | .sgipReportResp => (Sgip.Rsp.decode Sgip.REPORT_RESP seq f).map some

theorem map_plain {α : Type} {x y : Option α} (h : x = y.map id) :
    (x.map (·, false)).map (fun p => if p.2 then none else some p.1) = y.map some := by
  rw [h]
  cases y with
  | none => rfl
  | some a => rfl

/-- C119: on a new object, `Decode` is the `Decode` all the other properties speak about. -/
theorem decode_fresh (gbDec : Bytes → Option Bytes) (v : UInt8) (k : Kind) (seq : UInt32) (f : Buf) :
    (decode gbDec seq f k (fresh v k)).map (fun p => if p.2 then none else some p.1) = plain gbDec v seq f k := by
  cases k <;> simp only [decode, fresh, plain]
  case smgpDeliver =>
    rw [smgp_deliver_fresh]
    cases Smgp.Delivery.decode gbDec v seq f <;> rfl
  all_goals refine map_plain ?_
  case cmppConnectResp => exact cmpp_connect_resp_on _ _ _
  case cmppSubmitResp | cmppDeliverResp => exact cmpp_rsp_on _ _ _ _
  case smgpSubmitResp | smgpDeliverResp => exact smgp_rsp_on _ _ _ _
  case smgpLoginResp => exact smgp_login_resp_on _ _ _
  case sgipBind => exact sgip_bind_on _ _ _
  case sgipBindResp => exact sgip_bind_resp_on _ _ _
  case sgipUnbind | sgipUnbindResp => exact sgip_unbind_on _ _ _ _
  case sgipSubmit => exact sgip_submit_on _ _ _
  case sgipDeliver => exact sgip_deliver_on _ _ _
  case sgipSubmitResp | sgipDeliverResp | sgipReportResp => exact sgip_rsp_on _ _ _ _
  case cmppConnect =>
    unfold Cmpp.Connect.decodeOn Cmpp.Connect.decode
    apply run_maps
    same_reads
  case smgpLogin =>
    unfold Smgp.Login.decodeOn Smgp.Login.decode
    apply run_maps
    same_reads
  case sgipReport =>
    unfold Sgip.Report.decodeOn Sgip.Report.decode
    apply run_maps
    same_reads
  case cmppSubmit =>
    unfold Cmpp.Submit.decodeOn Cmpp.Submit.decode
    apply run_maps
    cases h : Cmpp.v3 v <;> simp only [h, Bool.false_eq_true, if_true, if_false, pure_go] <;> same_reads
  case smgpSubmit =>
    unfold Smgp.Submit.decodeOn Smgp.Submit.decode
    apply run_maps
    repeat (first
      | exact maps_pure rfl
      | (refine maps_pure ?_; simp only [List.nil_append, Option.or_none, id])
      | (refine maps_bind fun a => ?_))
  case cmppDeliver =>
    unfold Cmpp.Delivery.decodeOn Cmpp.Delivery.decode
    apply run_maps
    cases h : Cmpp.v3 v <;> simp only [h, Bool.false_eq_true, if_true, if_false, pure_go] <;>
      repeat (first
        | (refine maps_bind_post (post_deliverReport _ _) fun r hr => ?_)
        | (refine maps_bind fun a => ?_))
    all_goals
      refine maps_pure ?_
      by_cases h2 : r = none
      · have h1 := mt hr.mp (fun hn => hn h2)
        simp only [h1, h2, if_false, id]
      · have h1 := hr.mpr h2
        simp only [h1, if_true, id]

/-! ## The four that remember -/

theorem post_times {α : Type} (r : Rd α) (n : Nat) : Post (times r n) fun l => l.length = n := by
  induction n with
  | zero => exact post_pure rfl
  | succ n ih =>
    refine post_bind' fun a => post_bind ih fun as h => post_pure ?_
    simp only [List.length_cons, h]

/-- A submit decoded into a new object has as many recipients as it says. -/
theorem smgp_submit_count (gbDec : Bytes → Option Bytes) (v : UInt8) (seq : UInt32) (f : Buf) (s : Smgp.Submit)
    (h : Smgp.Submit.decode gbDec v seq f = some s) : s.destTermID.length = s.destTermIDCount.toNat := by
  refine run_post (Φ := fun (s : Smgp.Submit) => s.destTermID.length = s.destTermIDCount.toNat) ?_ h
  refine post_bind' fun _ => post_bind' fun _ => post_bind' fun _ => post_bind' fun _ => post_bind' fun _ =>
    post_bind' fun _ => post_bind' fun _ => post_bind' fun _ => post_bind' fun _ => post_bind' fun _ =>
    post_bind' fun _ => post_bind' fun _ => post_bind' fun _ => post_bind' fun n => ?_
  refine post_bind (post_times _ n.toNat) fun l hl => ?_
  refine post_bind' fun _ => post_bind' fun _ => post_bind' fun _ => post_bind' fun _ => post_bind' fun _ => post_pure ?_
  exact hl

/-- C119 is violated: an SMGP submit decoded into an object that holds one with a recipient has the recipients of both, the earlier
ones first, and can no longer be encoded. -/
theorem smgp_submit_again_fails (gbDec : Bytes → Option Bytes) (v : UInt8) (seq1 seq2 : UInt32) (f1 f2 : Buf)
    (s1 s2 : Smgp.Submit) (h1 : Smgp.Submit.decode gbDec v seq1 f1 = some s1)
    (h2 : Smgp.Submit.decode gbDec v seq2 f2 = some s2) (hr : 0 < s1.destTermIDCount.toNat) :
    ∃ o : Smgp.Submit, after gbDec v .smgpSubmit [.decode seq1 f1, .decode seq2 f2] = some o ∧
      o.destTermID = s1.destTermID ++ s2.destTermID ∧ o.destTermIDCount = s2.destTermIDCount ∧
      o ≠ s2 ∧ o.encode = some [] := by
  have hv : s1.version = v := by
    refine run_post (Φ := fun (s : Smgp.Submit) => s.version = v) ?_ h1
    repeat (refine post_bind' fun _ => ?_)
    exact post_pure rfl
  have e1 : use gbDec .smgpSubmit (fresh v .smgpSubmit) (.decode seq1 f1) = some s1 := by
    simp only [use, decode, fresh, smgp_submit_on, h1, Option.map_some, List.nil_append, Option.or_none]
  have e2 : use gbDec .smgpSubmit s1 (.decode seq2 f2) =
      some ({ s2 with destTermID := s1.destTermID ++ s2.destTermID, tlvList := s2.tlvList.or s1.tlvList } : Smgp.Submit) := by
    simp only [use, decode, smgp_submit_on, hv, h2, Option.map_some]
  have c1 := smgp_submit_count gbDec v seq1 f1 s1 h1
  have c2 := smgp_submit_count gbDec v seq2 f2 s2 h2
  refine ⟨{ s2 with destTermID := s1.destTermID ++ s2.destTermID, tlvList := s2.tlvList.or s1.tlvList }, ?_, rfl, rfl, ?_, ?_⟩
  · simp only [after, List.foldlM_cons, List.foldlM_nil, e1, Option.bind_eq_bind, Option.bind_some, e2]
    rfl
  · intro e
    have := congrArg (fun s : Smgp.Submit => s.destTermID.length) e
    simp only [List.length_append] at this
    omega
  · unfold Smgp.Submit.encode
    rw [if_pos]
    simp only [List.length_append]
    omega

theorem cmpp_deliver_shape (v : UInt8) (seq : UInt32) (f : Buf) (d : Cmpp.Delivery)
    (h : Cmpp.Delivery.decode v seq f = some d) : d.version = v ∧ (d.registeredDelivery = 1 ↔ d.report ≠ none) := by
  refine run_post (Φ := fun (d : Cmpp.Delivery) => d.version = v ∧ (d.registeredDelivery = 1 ↔ d.report ≠ none)) ?_ h
  cases hv : Cmpp.v3 v <;> simp only [Bool.false_eq_true, if_true, if_false, pure_go] <;>
    repeat (first | (refine post_bind (post_deliverReport _ _) fun r hr => ?_) | (refine post_bind' fun _ => ?_))
  all_goals exact post_pure ⟨rfl, by assumption⟩

/-- C119 is violated: a text decoded into an object that holds a report keeps the report. -/
theorem cmpp_deliver_again_fails (gbDec : Bytes → Option Bytes) (v : UInt8) (seq1 seq2 : UInt32) (f1 f2 : Buf)
    (d1 d2 : Cmpp.Delivery) (h1 : Cmpp.Delivery.decode v seq1 f1 = some d1) (h2 : Cmpp.Delivery.decode v seq2 f2 = some d2)
    (r1 : d1.registeredDelivery = 1) (r2 : d2.registeredDelivery ≠ 1) :
    ∃ o : Cmpp.Delivery, after gbDec v .cmppDeliver [.decode seq1 f1, .decode seq2 f2] = some o ∧
      o.msgContent = d2.msgContent ∧ o.report = d1.report ∧ d2.report = none ∧ d1.report ≠ none := by
  have p1 := cmpp_deliver_shape v seq1 f1 d1 h1
  have p2 := cmpp_deliver_shape v seq2 f2 d2 h2
  obtain ⟨o1, e1, w1, q1⟩ : ∃ o1 : Cmpp.Delivery, use gbDec .cmppDeliver (fresh v .cmppDeliver) (.decode seq1 f1) = some o1 ∧
      o1.version = v ∧ o1.report = d1.report := by
    simp only [use, decode, fresh, cmpp_deliver_on, h1, Option.map_some]
    exact ⟨_, rfl, p1.1, if_pos r1⟩
  obtain ⟨o2, e2, q2, q3⟩ : ∃ o2 : Cmpp.Delivery, use gbDec .cmppDeliver o1 (.decode seq2 f2) = some o2 ∧
      o2.msgContent = d2.msgContent ∧ o2.report = o1.report := by
    simp only [use, decode, cmpp_deliver_on, w1, h2, Option.map_some]
    exact ⟨_, rfl, if_neg r2, if_neg r2⟩
  refine ⟨o2, ?_, q2, q3.trans q1, ?_, fun e => ?_⟩
  · simp only [after, List.foldlM_cons, List.foldlM_nil, e1, Option.bind_eq_bind, Option.bind_some, e2]
    rfl
  · exact Decidable.byContradiction fun hn => r2 (p2.2.mpr hn)
  · exact p1.2.mp r1 e

theorem smgp_deliver_shape (gbDec : Bytes → Option Bytes) (v : UInt8) (seq : UInt32) (f : Buf) (p : Smgp.Delivery × Bool)
    (h : decode gbDec seq f .smgpDeliver (fresh v .smgpDeliver) = some p) :
    p.1.version = v ∧ (p.1.isReport = 1 ↔ p.1.report ≠ none) := by
  simp only [decode, fresh] at h
  refine run_post (Φ := fun (p : Smgp.Delivery × Bool) => p.1.version = v ∧ (p.1.isReport = 1 ↔ p.1.report ≠ none)) ?_ h
  refine post_bind' fun _ => post_bind' fun _ => post_bind' fun r => post_bind' fun _ => post_bind' fun _ => post_bind' fun _ =>
    post_bind' fun _ => post_bind' fun l => post_bind (post_deliverContent gbDec r l) fun c hc => ?_
  cases c with
  | none =>
    have hr : r ≠ 1 := fun hr => (by obtain ⟨_, e⟩ := hc.1 hr; cases e)
    exact post_pure ⟨rfl, fun h => absurd h hr, fun hn => absurd rfl hn⟩
  | some c =>
    have hx : r = 1 → c.1 ≠ none := by
      intro hr
      obtain ⟨rp, e⟩ := hc.1 hr
      simp only [Option.some.injEq] at e
      rw [e]
      exact fun h => by cases h
    by_cases hr : r = 1
    · have := hx hr
      refine post_pure ?_
      simp only [hr, if_true]
      exact ⟨trivial, fun _ => this, fun _ => trivial⟩
    · refine post_pure ?_
      simp only [hr, if_false]
      exact ⟨trivial, fun h => h.elim, fun h => absurd rfl h⟩

/-- C119 is violated: so does an SMGP text, even one whose `Decode` reports an error. -/
theorem smgp_deliver_again_fails (gbDec : Bytes → Option Bytes) (v : UInt8) (seq1 seq2 : UInt32) (f1 f2 : Buf)
    (o1 o2 : Smgp.Delivery) (e1 e2 : Bool)
    (h1 : decode gbDec seq1 f1 .smgpDeliver (fresh v .smgpDeliver) = some (o1, e1))
    (h2 : decode gbDec seq2 f2 .smgpDeliver (fresh v .smgpDeliver) = some (o2, e2))
    (r1 : o1.isReport = 1) (r2 : o2.isReport ≠ 1) :
    ∃ o : Smgp.Delivery, after gbDec v .smgpDeliver [.decode seq1 f1, .decode seq2 f2] = some o ∧
      o.isReport = o2.isReport ∧ o.report = o1.report ∧ o2.report = none ∧ o1.report ≠ none := by
  have p1 := smgp_deliver_shape gbDec v seq1 f1 _ h1
  have p2 := smgp_deliver_shape gbDec v seq2 f2 _ h2
  have w1 : o1.version = v := p1.1
  have u1 : use gbDec .smgpDeliver (fresh v .smgpDeliver) (.decode seq1 f1) = some o1 := by
    simp only [use, h1, Option.map_some]
  simp only [decode, fresh] at h2
  obtain ⟨o, u2, q1, q2⟩ : ∃ o : Smgp.Delivery, use gbDec .smgpDeliver o1 (.decode seq2 f2) = some o ∧
      o.isReport = o2.isReport ∧ o.report = o1.report := by
    simp only [use, decode]
    rw [smgp_deliver_on gbDec o1, w1, h2]
    exact ⟨_, rfl, rfl, if_neg fun h => r2 h.1⟩
  refine ⟨o, ?_, q1, q2, ?_, fun e => ?_⟩
  · simp only [after, List.foldlM_cons, List.foldlM_nil, u1, Option.bind_eq_bind, Option.bind_some, u2]
    rfl
  · exact Decidable.byContradiction fun hn => r2 (p2.2.mpr hn)
  · exact p1.2.mp r1 e

theorem cmpp_connect_resp_len (v : UInt8) (seq : UInt32) (f : Buf) (r : Cmpp.ConnectResp)
    (h : Cmpp.ConnectResp.decode v seq f = some r) : r.hdr.totalLength = if Cmpp.v3 v then 33 else 30 := by
  refine run_post (Φ := fun (r : Cmpp.ConnectResp) => r.hdr.totalLength = if Cmpp.v3 v then 33 else 30) ?_ h
  cases hv : Cmpp.v3 v <;> simp only [Bool.false_eq_true, if_true, if_false, pure_go] <;>
    repeat (refine post_bind' fun _ => ?_)
  all_goals exact post_pure rfl

/-- C119 is violated: a CMPP connect response is read in the layout of the version that the response before it carried. -/
theorem cmpp_connect_resp_again_fails (gbDec : Bytes → Option Bytes) (v : UInt8) (seq1 seq2 : UInt32) (f1 f2 : Buf)
    (r1 r2 : Cmpp.ConnectResp) (h1 : Cmpp.ConnectResp.decode v seq1 f1 = some r1)
    (h2 : Cmpp.ConnectResp.decode v seq2 f2 = some r2) (hv : Cmpp.v3 r1.version ≠ Cmpp.v3 v) :
    after gbDec v .cmppConnectResp [.decode seq1 f1, .decode seq2 f2] = Cmpp.ConnectResp.decode r1.version seq2 f2 ∧
    Cmpp.ConnectResp.decode r1.version seq2 f2 ≠ some r2 := by
  have u1 : use gbDec .cmppConnectResp (fresh v .cmppConnectResp) (.decode seq1 f1) = some r1 := by
    simp only [use, decode, fresh, cmpp_connect_resp_on, h1, Option.map_some, id]
  have u2 : use gbDec .cmppConnectResp r1 (.decode seq2 f2) = Cmpp.ConnectResp.decode r1.version seq2 f2 := by
    simp only [use, decode, cmpp_connect_resp_on]
    cases Cmpp.ConnectResp.decode r1.version seq2 f2 <;> rfl
  refine ⟨?_, fun e => hv ?_⟩
  · simp only [after, List.foldlM_cons, List.foldlM_nil, u1, Option.bind_eq_bind, Option.bind_some, u2]
    cases Cmpp.ConnectResp.decode r1.version seq2 f2 <;> rfl
  · have a := cmpp_connect_resp_len _ _ _ _ e
    have b := cmpp_connect_resp_len _ _ _ _ h2
    rw [a] at b
    cases h3 : Cmpp.v3 r1.version <;> cases h4 : Cmpp.v3 v <;> rw [h3, h4] at b <;> first | rfl | (exact absurd b (by decide))

/-! ## All together -/

/-- A submit of SMGP with one recipient. -/
def oneRecipient : Buf := Buf.exact (zeros 104 ++ [1] ++ zeros 21 ++ [1, 0x61] ++ zeros 8)
/-- Deliveries of CMPP: a report and a text. -/
def cmppReport : Buf := Buf.exact (zeros 63 ++ [1, 60] ++ zeros 60)
def cmppText : Buf := Buf.exact (zeros 63 ++ [0, 1, 0x61])
/-- Deliveries of SMGP: a report and a text. -/
def smgpReport : Buf := Buf.exact (zeros 10 ++ [1] ++ zeros 58 ++ zeros 122)
def smgpText : Buf := Buf.exact (zeros 69)
/-- A connect response of version 2.0, in the layout of version 3.0. -/
def oldVersion : Buf := Buf.exact (zeros 20 ++ [0x20])

theorem of_map {α β : Type} {x : Option α} {g : α → β} {b : β} (h : x.map g = some b) : ∃ a, x = some a ∧ g a = b := by
  cases x with
  | none => cases h
  | some a => exact ⟨a, rfl, Option.some.inj h⟩

set_option maxRecDepth 20000 in
theorem oneRecipient_decodes (gbDec : Bytes → Option Bytes) (seq : UInt32) :
    ∃ s, Smgp.Submit.decode gbDec 0x30 seq oneRecipient = some s ∧ s.destTermIDCount = 1 := ⟨_, rfl, rfl⟩

theorem cmppReport_decodes : ∃ d, Cmpp.Delivery.decode 0x20 1 cmppReport = some d ∧ d.registeredDelivery = 1 :=
  of_map (g := fun d : Cmpp.Delivery => d.registeredDelivery) (by decide +kernel)

theorem cmppText_decodes : ∃ d, Cmpp.Delivery.decode 0x20 2 cmppText = some d ∧ d.registeredDelivery = 0 :=
  of_map (g := fun d : Cmpp.Delivery => d.registeredDelivery) (by decide +kernel)

set_option maxRecDepth 20000 in
theorem smgpReport_decodes (gbDec : Bytes → Option Bytes) :
    ∃ p, decode gbDec 1 smgpReport .smgpDeliver (fresh 0x30 .smgpDeliver) = some p ∧ p.1.isReport = 1 := ⟨_, rfl, rfl⟩

theorem smgpText_decodes (gbDec : Bytes → Option Bytes) :
    ∃ p, decode gbDec 2 smgpText .smgpDeliver (fresh 0x30 .smgpDeliver) = some p ∧ p.1.isReport = 0 := by
  cases h : gbDec [] with
  | none =>
    have e : decode (fun b => if b = [] then none else gbDec b) 2 smgpText .smgpDeliver (fresh 0x30 .smgpDeliver) =
      decode gbDec 2 smgpText .smgpDeliver (fresh 0x30 .smgpDeliver) := by
      congr 1; funext b; split <;> simp_all
    rw [← e]; exact ⟨_, rfl, rfl⟩
  | some t =>
    have e : decode (fun b => if b = [] then some t else gbDec b) 2 smgpText .smgpDeliver (fresh 0x30 .smgpDeliver) =
      decode gbDec 2 smgpText .smgpDeliver (fresh 0x30 .smgpDeliver) := by
      congr 1; funext b; split <;> simp_all
    rw [← e]; exact ⟨_, rfl, rfl⟩

theorem oldVersion_decodes (seq : UInt32) : ∃ r, Cmpp.ConnectResp.decode 0x30 seq oldVersion = some r ∧ r.version = 0x20 := ⟨_, rfl, rfl⟩

theorem after_cons (gbDec : Bytes → Option Bytes) (v : UInt8) (k : Kind) (seq1 seq2 : UInt32) (f1 f2 : Buf) (o1 : Obj k) (e1 : Bool)
    (h : decode gbDec seq1 f1 k (fresh v k) = some (o1, e1)) :
    after gbDec v k [.decode seq1 f1] = some o1 ∧
    after gbDec v k [.decode seq1 f1, .decode seq2 f2] = (decode gbDec seq2 f2 k o1).map (·.1) := by
  simp only [after, List.foldlM_cons, List.foldlM_nil, use, h, Option.map_some, Option.bind_eq_bind, Option.bind_some]
  exact ⟨rfl, by cases decode gbDec seq2 f2 k o1 <;> rfl⟩

/-- C119: which packets do and which do not. -/
theorem forgets_iff (gbDec : Bytes → Option Bytes) (k : Kind) : Spec.Forgets gbDec k ↔ ¬ Remembers k := by
  refine ⟨fun hf hk => ?_, decode_forgets_partial gbDec k⟩
  have two : ∀ (v : UInt8) (f1 f2 : Buf) (o1 : Obj k) (e1 : Bool), decode gbDec 1 f1 k (fresh v k) = some (o1, e1) →
      after gbDec v k [.decode 1 f1, .decode 2 f2] = (decode gbDec 2 f2 k (fresh v k)).map (·.1) := by
    intro v f1 f2 o1 e1 h
    obtain ⟨a, b⟩ := after_cons gbDec v k 1 2 f1 f2 o1 e1 h
    rw [b, hf v _ o1 a 2 f2]
  cases k <;> first
    | exact absurd hk id
    | skip
  case smgpSubmit =>
    obtain ⟨s1, h1, c1⟩ := oneRecipient_decodes gbDec 1
    obtain ⟨s2, h2, _⟩ := oneRecipient_decodes gbDec 2
    have d1 : ∀ (seq : UInt32) (s : Smgp.Submit), Smgp.Submit.decode gbDec 0x30 seq oneRecipient = some s →
        decode gbDec seq oneRecipient .smgpSubmit (fresh 0x30 .smgpSubmit) = some (s, false) := by
      intro seq s h
      simp only [decode, fresh, smgp_submit_on, h, Option.map_some, List.nil_append, Option.or_none]
    obtain ⟨o, e, _, _, hne, _⟩ := smgp_submit_again_fails gbDec 0x30 1 2 _ _ s1 s2 h1 h2 (by rw [c1]; decide)
    rw [two 0x30 oneRecipient oneRecipient s1 false (d1 1 s1 h1), d1 2 s2 h2] at e
    exact hne (Option.some.inj e).symm
  case cmppDeliver =>
    obtain ⟨d1, h1, r1⟩ := cmppReport_decodes
    obtain ⟨d2, h2, r2⟩ := cmppText_decodes
    obtain ⟨o, e, _, q1, q2, q3⟩ := cmpp_deliver_again_fails gbDec 0x20 1 2 _ _ d1 d2 h1 h2 r1 (by rw [r2]; decide)
    obtain ⟨x, hx, qx⟩ : ∃ x : Cmpp.Delivery, decode gbDec 2 cmppText .cmppDeliver (fresh 0x20 .cmppDeliver) = some (x, false) ∧
        x.report = none := by
      simp only [decode, fresh, cmpp_deliver_on, h2, Option.map_some]
      exact ⟨_, rfl, by simp [q2]⟩
    obtain ⟨y, hy⟩ : ∃ y : Cmpp.Delivery, decode gbDec 1 cmppReport .cmppDeliver (fresh 0x20 .cmppDeliver) = some (y, false) := by
      simp only [decode, fresh, cmpp_deliver_on, h1, Option.map_some]
      exact ⟨_, rfl⟩
    rw [two 0x20 cmppReport cmppText y false hy, hx] at e
    have e' : x = o := Option.some.inj e
    rw [← e', qx] at q1
    exact q3 q1.symm
  case smgpDeliver =>
    obtain ⟨⟨o1, e1⟩, h1, r1⟩ := smgpReport_decodes gbDec
    obtain ⟨⟨o2, e2⟩, h2, r2⟩ := smgpText_decodes gbDec
    obtain ⟨o, e, _, q1, q2, q3⟩ := smgp_deliver_again_fails gbDec 0x30 1 2 _ _ o1 o2 e1 e2 h1 h2 r1
      (by simp only at r2; rw [r2]; decide)
    rw [two 0x30 smgpReport smgpText o1 e1 h1, h2] at e
    have e' : o2 = o := Option.some.inj e
    rw [← e', q2] at q1
    exact q3 q1.symm
  case cmppConnectResp =>
    obtain ⟨r1, h1, v1⟩ := oldVersion_decodes 1
    obtain ⟨r2, h2, _⟩ := oldVersion_decodes 2
    have d1 : ∀ (seq : UInt32) (r : Cmpp.ConnectResp), Cmpp.ConnectResp.decode 0x30 seq oldVersion = some r →
        decode gbDec seq oldVersion .cmppConnectResp (fresh 0x30 .cmppConnectResp) = some (r, false) := by
      intro seq r h
      simp only [decode, fresh, cmpp_connect_resp_on, h, Option.map_some, id]
    obtain ⟨e, hne⟩ := cmpp_connect_resp_again_fails gbDec 0x30 1 2 _ _ r1 r2 h1 h2 (by rw [v1]; decide)
    rw [two 0x30 oldVersion oldVersion r1 false (d1 1 r1 h1), d1 2 r2 h2] at e
    exact hne e.symm

/-- C119 is violated. -/
theorem decode_forgets_fails (gbDec : Bytes → Option Bytes) : ¬ ∀ k, Spec.Forgets gbDec k :=
  fun h => (forgets_iff gbDec .smgpSubmit).mp (h _) trivial

end Gosms.Reuse

namespace Gosms.Reuse

/-! ## Concrete cases -/

/-- A submit of CMPP 2.0 with one recipient and the text "a". -/
def cmppSubmit : Buf := Buf.exact (zeros 116 ++ [1] ++ zeros 21 ++ [1, 0x61] ++ zeros 8)

/-- The hypotheses of `decode_forgets_partial`: an object encoded, decoded into twice and encoded between. -/
example : ¬ Remembers .cmppSubmit ∧
    (after (fun _ => none) 0x20 .cmppSubmit [.encode 7, .decode 1 cmppSubmit, .encode 7, .decode 2 cmppSubmit]).isSome := by
  refine ⟨id, ?_⟩
  decide +kernel

set_option maxRecDepth 20000 in
/-- The hypotheses of `smgp_submit_again_fails`, `cmpp_deliver_again_fails`, `smgp_deliver_again_fails`,
`cmpp_connect_resp_again_fails` are met by `oneRecipient_decodes`, `cmppReport_decodes` and `cmppText_decodes`, `smgpReport_decodes`
and `smgpText_decodes`, `oldVersion_decodes`; here is what comes out of the first. -/
example : (after (fun _ => none) 0x30 .smgpSubmit [.decode 1 oneRecipient, .decode 2 oneRecipient]).map
    (fun (s : Smgp.Submit) => (s.destTermIDCount, s.destTermID.length)) = some (1, 2) := rfl

/-- `encode_keeps` is about objects whose length is raised too. -/
example : (encode 0 .sgipUnbind (fresh 0 .sgipUnbind)).2 ≠ fresh 0 .sgipUnbind := by
  simp only [encode, fresh]; decide

end Gosms.Reuse
