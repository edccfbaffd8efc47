import Verif.Spec.ClientTraffic
import Verif.Model.ClientTraffic
import Verif.Props.Bodies
import Verif.Props.CmppResponses
import Verif.Props.SmgpLogin
import Verif.Props.Sgip
import Verif.Props.ClientResults
import Verif.Props.ClientReceive

/-!
# C73, C74, C75: what the client does with the carrier's packets
-/

namespace Gosms
open Rd

theorem isSome_skip {β : Type} (n : Nat) (k : Unit → Rd β) (f : Buf) (i : Nat) :
    ((Rd.skip n >>= k) f i).isSome ↔ (k () f (i + n)).isSome := Iff.rfl

theorem isSome_sub {β : Type} (n : Nat) (k : Buf → Rd β) (b : Bytes) (i : Nat) :
    ((Rd.sub n >>= k) (Buf.exact b) i).isSome ↔
      i + n ≤ b.length ∧ (k ⟨b.drop i, n⟩ (Buf.exact b) (i + n)).isSome := by
  simp only [bind_def, Rd.bind, Rd.sub, Buf.exact]
  by_cases h : i + n ≤ b.length
  · rw [if_pos h]; simp only [h, true_and]
  · rw [if_neg h]; simp [h]

/-! ## Reading when there are enough bytes -/

section
variable {β : Type} (b : Bytes) (i : Nat)

theorem bind_byte' (k : UInt8 → Rd β) (h : i < b.length) :
    (Rd.byte >>= k) (Buf.exact b) i = k (b.getD i 0) (Buf.exact b) (i + 1) := by
  have e : b[i]? = some (b.getD i 0) := by
    rw [List.getD_eq_getElem?_getD, List.getElem?_eq_getElem h]; rfl
  simp only [bind_def, Rd.bind, Rd.byte, Buf.exact, if_pos h, e]

theorem bind_slice' (n : Nat) (k : Bytes → Rd β) (h : i + n ≤ b.length) :
    (Rd.slice n >>= k) (Buf.exact b) i = k ((b.drop i).take n) (Buf.exact b) (i + n) := by
  simp only [bind_def, Rd.bind, Rd.slice, Buf.exact, if_pos h]

theorem bind_str' (n : Nat) (k : Bytes → Rd β) (h : i + n ≤ b.length) :
    (Rd.str n >>= k) (Buf.exact b) i = k (trimStr ((b.drop i).take n)) (Buf.exact b) (i + n) := by
  simp only [Rd.str, bind_def, Rd.bind, pure_def, Rd.pure, Rd.slice, Buf.exact, if_pos h]

theorem bind_u32' (k : UInt32 → Rd β) (h : i + 4 ≤ b.length) :
    (Rd.u32 >>= k) (Buf.exact b) i = k (rd32 ((b.drop i).take 4)) (Buf.exact b) (i + 4) := by
  simp only [Rd.u32, bind_def, Rd.bind, Rd.pure, Rd.slice, Buf.exact, if_pos h]

theorem bind_u64' (k : UInt64 → Rd β) (h : i + 8 ≤ b.length) :
    (Rd.u64 >>= k) (Buf.exact b) i = k (rd64 ((b.drop i).take 8)) (Buf.exact b) (i + 8) := by
  simp only [Rd.u64, bind_def, Rd.bind, Rd.pure, Rd.slice, Buf.exact, if_pos h]

theorem bind_sub' (n : Nat) (k : Buf → Rd β) (h : i + n ≤ b.length) :
    (Rd.sub n >>= k) (Buf.exact b) i = k ⟨b.drop i, n⟩ (Buf.exact b) (i + n) := by
  simp only [bind_def, Rd.bind, Rd.sub, Buf.exact, if_pos h]

theorem bind_seek' (j : Nat) (k : Unit → Rd β) (f : Buf) : (Rd.seek j >>= k) f i = k () f j := rfl
theorem bind_skip' (n : Nat) (k : Unit → Rd β) (f : Buf) : (Rd.skip n >>= k) f i = k () f (i + n) := rfl
theorem bind_length' (k : Nat → Rd β) : (Rd.length >>= k) (Buf.exact b) i = k b.length (Buf.exact b) i := rfl
theorem bind_pure' {α : Type} (a : α) (k : α → Rd β) (f : Buf) : ((pure a : Rd α) >>= k) f i = k a f i := rfl
theorem bind_lift' {α : Type} (a : α) (k : α → Rd β) (f : Buf) : (Rd.lift (some a) >>= k) f i = k a f i := rfl
theorem pure' {α : Type} (a : α) (f : Buf) : (pure a : Rd α) f i = some (a, i) := rfl
theorem bind_assoc' {α γ : Type} (r : Rd α) (k : α → Rd β) (k' : β → Rd γ) (f : Buf) :
    ((r >>= k) >>= k') f i = (r >>= fun a => k a >>= k') f i := by
  simp only [bind_def, Rd.bind]
  cases r f i <;> rfl
end

namespace Cmpp
open Spec.ClientTraffic

theorem connectResp_needs (v : UInt8) (seq : UInt32) (body : Bytes) :
    (ConnectResp.decode v seq (Buf.exact body)).isSome ↔ BodyComplete (v3 v) body .cmpp .loginResp := by
  unfold ConnectResp.decode
  cases hv : v3 v <;>
    simp only [isSome_run, isSome_skip, isSome_slice, isSome_byte, isSome_purebind, isSome_pure, and_true, if_true,
      if_false, Bool.false_eq_true, BodyComplete] <;> omega

theorem connectResp_status (v : UInt8) (seq : UInt32) (body : Bytes) (h : BodyComplete (v3 v) body .cmpp .loginResp) :
    ∃ r, ConnectResp.decode v seq (Buf.exact body) = some r ∧ r.status = body.getD (if v3 v then 3 else 0) 0 := by
  unfold ConnectResp.decode
  cases hv : v3 v <;> simp only [hv, BodyComplete, if_true, if_false, Bool.false_eq_true] at h ⊢ <;>
    simp (disch := omega) only [Rd.run, bind_skip', bind_pure', bind_byte', bind_slice', pure', Option.map_some] <;>
    exact ⟨_, rfl, rfl⟩

theorem rsp_needs (cmd : UInt32) (v : UInt8) (seq : UInt32) (body : Bytes) :
    (Rsp.decode cmd v seq (Buf.exact body)).isSome ↔ BodyComplete (v3 v) body .cmpp .submitResp := by
  unfold Rsp.decode
  cases hv : v3 v <;>
    simp only [isSome_run, isSome_seek, isSome_length, isSome_u64, isSome_u32, if_false, if_true, Bool.false_eq_true,
      isSome_bind_assoc, isSome_byte, isSome_purebind, isSome_pure, and_true, BodyComplete] <;> omega

theorem rsp_values (cmd : UInt32) (v : UInt8) (seq : UInt32) (body : Bytes)
    (h : BodyComplete (v3 v) body .cmpp .submitResp) :
    ∃ r, Rsp.decode cmd v seq (Buf.exact body) = some r ∧ r.hdr.sequenceId = seq ∧ r.msgId = rd64 (body.take 8) ∧
      r.result = if v3 v then rd32 ((body.drop 8).take 4) else (body.getD 8 0).toUInt32 := by
  unfold Rsp.decode
  cases hv : v3 v <;> simp only [hv, BodyComplete, if_true, if_false, Bool.false_eq_true] at h ⊢ <;>
    simp (disch := omega) only [Rd.run, bind_length', bind_seek', bind_u64', bind_u32', bind_assoc', bind_byte',
      bind_pure', pure', Option.map_some] <;>
    exact ⟨_, rfl, rfl, by simp, rfl⟩

theorem report_run (data : Bytes) (n : Nat) :
    (60 ≤ data.length → ∃ r, Rd.run reportDecode ⟨data, n⟩ = some r ∧ r.msgId = rd64 (data.take 8) ∧
      r.stat = trimStr ((data.drop 8).take 7)) ∧
    (data.length < 60 → Rd.run reportDecode ⟨data, n⟩ = none) := by
  have e : Rd.run reportDecode ⟨data, n⟩ = Rd.run reportDecode (Buf.exact data) := by
    simp only [Rd.run, reportDecode, Rd.str, Rd.u64, Rd.u32, bind_def, Rd.bind, pure_def, Rd.pure, Rd.seek, Rd.slice, Buf.exact]
  rw [e]
  constructor
  · intro h
    unfold reportDecode
    simp (disch := omega) only [Rd.run, bind_seek', bind_u64', bind_u32', bind_str', pure', Option.map_some]
    exact ⟨_, rfl, by simp, rfl⟩
  · intro h
    rw [← Option.not_isSome_iff_eq_none]
    unfold reportDecode
    simp only [isSome_run, isSome_seek, isSome_str, isSome_u32, isSome_u64, isSome_pure, and_true]
    omega

theorem deliver_needs (v : UInt8) (seq : UInt32) (body : Bytes) :
    (Delivery.decode v seq (Buf.exact body)).isSome ↔ BodyComplete (v3 v) body .cmpp .deliver := by
  unfold Delivery.decode deliverReport
  simp only [BodyComplete, CmppDeliverBody]
  cases hv : v3 v <;>
    simp only [isSome_run, isSome_seek, isSome_length, isSome_u64, isSome_str, isSome_byte, isSome_sub, if_false,
      if_true, Bool.false_eq_true, isSome_purebind, Nat.reduceAdd]
  · generalize hL : (List.getD body 64 0).toNat = L
    by_cases hr : List.getD body 63 0 = 1
    · simp only [hr, if_true, isSome_lift, isSome_purebind, isSome_pure, and_true, forall_const]
      have := report_run (body.drop 65) L
      rw [List.length_drop] at this
      by_cases h60 : 60 ≤ body.length - 65
      · obtain ⟨r, hr, _⟩ := this.1 h60
        simp only [hr, Option.map_some, Option.some.injEq, exists_eq', and_true]
        omega
      · rw [this.2 (by omega)]
        simp only [Option.map_none, reduceCtorEq, exists_false, and_false, false_iff]
        omega
    · simp only [hr, if_false, isSome_purebind, isSome_pure, and_true, false_implies]
      omega
  · generalize hL : (List.getD body 76 0).toNat = L
    by_cases hr : List.getD body 75 0 = 1
    · simp only [hr, if_true, isSome_lift, isSome_str, isSome_pure, and_true, forall_const]
      have := report_run (body.drop 77) L
      rw [List.length_drop] at this
      by_cases h60 : 60 ≤ body.length - 77
      · obtain ⟨r, hr, _⟩ := this.1 h60
        simp only [hr, Option.map_some, Option.some.injEq, exists_eq_left']
        omega
      · rw [this.2 (by omega)]
        simp only [Option.map_none, reduceCtorEq, false_and, exists_false, and_false, false_iff]
        omega
    · simp only [hr, if_false, isSome_purebind, isSome_str, isSome_pure, and_true, false_implies]
      omega

theorem deliver_values (v : UInt8) (seq : UInt32) (body : Bytes) (h : BodyComplete (v3 v) body .cmpp .deliver) :
    ∃ d, Delivery.decode v seq (Buf.exact body) = some d ∧ d.hdr.sequenceId = seq ∧ d.version = v ∧
      d.msgId = rd64 (body.take 8) ∧ d.registeredDelivery = body.getD (if v3 v then 75 else 63) 0 ∧
      (d.registeredDelivery = 1 → ∃ r, d.report = some r ∧
        r.msgId = rd64 ((body.drop (if v3 v then 77 else 65)).take 8) ∧
        r.stat = trimStr ((body.drop ((if v3 v then 77 else 65) + 8)).take 7)) := by
  unfold Delivery.decode deliverReport
  simp only [BodyComplete, CmppDeliverBody] at h
  cases hv : v3 v <;> simp only [hv, if_true, if_false, Bool.false_eq_true, Nat.add_zero, Nat.reduceAdd] at h ⊢ <;>
    obtain ⟨hl1, hl2, hl3⟩ := h
  · by_cases hr : List.getD body 63 0 = 1
    · have h60 := hl3 hr
      obtain ⟨r, e1, e2, e3⟩ := (report_run (body.drop 65) (List.getD body 64 0).toNat).1 (by rw [List.length_drop]; omega)
      simp (disch := omega) only [Rd.run, bind_length', bind_seek', bind_u64', bind_str', bind_byte', bind_sub', bind_pure',
        Nat.reduceAdd] at e1 ⊢
      rw [if_pos hr]
      simp (disch := omega) only [e1,  Option.map_some, bind_lift', bind_pure', pure']
      refine ⟨_, rfl, rfl, rfl, by simp, rfl, fun _ => ⟨r, rfl, e2, ?_⟩⟩
      rw [e3, List.drop_drop]
    · simp (disch := omega) only [Rd.run, bind_length', bind_seek', bind_u64', bind_str', bind_byte', bind_sub', bind_pure',
        Nat.reduceAdd]
      rw [if_neg hr]
      simp (disch := omega) only [Option.map_some, bind_pure', pure']
      exact ⟨_, rfl, rfl, rfl, by simp, rfl, fun h' => absurd h' hr⟩
  · by_cases hr : List.getD body 75 0 = 1
    · have h60 := hl3 hr
      obtain ⟨r, e1, e2, e3⟩ := (report_run (body.drop 77) (List.getD body 76 0).toNat).1 (by rw [List.length_drop]; omega)
      simp (disch := omega) only [Rd.run, bind_length', bind_seek', bind_u64', bind_str', bind_byte', bind_sub', bind_pure',
        Nat.reduceAdd] at e1 ⊢
      rw [if_pos hr]
      simp (disch := omega) only [e1,  Option.map_some, bind_lift', bind_str', bind_pure', pure']
      refine ⟨_, rfl, rfl, rfl, by simp, rfl, fun _ => ⟨r, rfl, e2, ?_⟩⟩
      rw [e3, List.drop_drop]
    · simp (disch := omega) only [Rd.run, bind_length', bind_seek', bind_u64', bind_str', bind_byte', bind_sub', bind_pure',
        Nat.reduceAdd]
      rw [if_neg hr]
      simp (disch := omega) only [Option.map_some, bind_str', bind_pure', pure']
      exact ⟨_, rfl, rfl, rfl, by simp, rfl, fun h' => absurd h' hr⟩

end Cmpp

namespace Smgp
open Spec.ClientTraffic

theorem loginRsp_needs (v : Bool) (seq : UInt32) (body : Bytes) :
    (LoginRsp.decode seq (Buf.exact body)).isSome ↔ BodyComplete v body .smgp .loginResp := by
  unfold LoginRsp.decode
  simp only [isSome_run, isSome_length, isSome_seek, isSome_u32, isSome_slice, isSome_byte, isSome_pure, and_true,
    BodyComplete]
  omega

theorem loginRsp_status (v : Bool) (seq : UInt32) (body : Bytes) (h : BodyComplete v body .smgp .loginResp) :
    ∃ r, LoginRsp.decode seq (Buf.exact body) = some r ∧ r.status = rd32 (body.take 4) := by
  unfold LoginRsp.decode
  simp only [BodyComplete] at h
  simp (disch := omega) only [Rd.run, bind_length', bind_seek', bind_u32', bind_slice', bind_byte', pure',
    Option.map_some]
  exact ⟨_, rfl, by simp⟩

theorem rsp_needs (v' : Bool) (cmd : UInt32) (v : UInt8) (seq : UInt32) (body : Bytes) :
    (Rsp.decode cmd v seq (Buf.exact body)).isSome ↔ BodyComplete v' body .smgp .submitResp := by
  unfold Rsp.decode
  simp only [isSome_run, isSome_length, isSome_seek, isSome_u32, isSome_slice, isSome_pure, and_true, BodyComplete]
  omega

theorem rsp_values (v' : Bool) (cmd : UInt32) (v : UInt8) (seq : UInt32) (body : Bytes)
    (h : BodyComplete v' body .smgp .submitResp) :
    ∃ r, Rsp.decode cmd v seq (Buf.exact body) = some r ∧ r.hdr.sequenceId = seq ∧ r.msgId = body.take 10 ∧
      r.status = rd32 ((body.drop 10).take 4) := by
  unfold Rsp.decode
  simp only [BodyComplete] at h
  simp (disch := omega) only [Rd.run, bind_length', bind_seek', bind_u32', bind_slice', pure', Option.map_some]
  exact ⟨_, rfl, rfl, by simp, rfl⟩

theorem report_run (data : Bytes) (n : Nat) (h : 122 ≤ data.length) :
    ∃ r, Rd.run reportDecode ⟨data, n⟩ = some r ∧ r.id = (data.drop 3).take 10 ∧ r.stat = (data.drop 81).take 7 := by
  have e : Rd.run reportDecode ⟨data, n⟩ = Rd.run reportDecode (Buf.exact data) := by
    simp only [Rd.run, reportDecode, bind_def, Rd.bind, pure_def, Rd.pure, Rd.skip, Rd.slice, Buf.exact]
  rw [e]
  unfold reportDecode
  simp (disch := omega) only [Rd.run, bind_skip', bind_slice', pure', Option.map_some]
  exact ⟨_, rfl, rfl, rfl⟩

theorem deliver_needs (gbDec : Bytes → Option Bytes) (v' : Bool) (v : UInt8) (seq : UInt32) (body : Bytes) :
    (Delivery.decode gbDec v seq (Buf.exact body)).isSome ↔ BodyComplete v' body .smgp .deliver := by
  unfold Delivery.decode deliverContent
  simp only [BodyComplete, SmgpDeliverBody, isSome_run, isSome_length, isSome_slice, isSome_byte, isSome_str, Nat.reduceAdd,
    Nat.zero_add]
  by_cases hr : List.getD body 10 0 = 1
  · simp only [hr, if_true, isSome_bind_assoc, isSome_sub, isSome_lift, isSome_purebind, isSome_pure, and_true]
    by_cases h : 69 + 122 ≤ body.length
    · obtain ⟨r, e, _⟩ := report_run (body.drop 69) 122 (by rw [List.length_drop]; omega)
      simp only [e, Option.some.injEq, exists_eq', and_true]
      omega
    · omega
  · simp only [hr, if_false, isSome_bind_assoc, isSome_slice, isSome_purebind, isSome_pure, and_true]
    omega

theorem deliver_values (gbDec : Bytes → Option Bytes) (v' : Bool) (v : UInt8) (seq : UInt32) (body : Bytes)
    (h : BodyComplete v' body .smgp .deliver) :
    (Undecodable gbDec .smgp .deliver body → Delivery.decode gbDec v seq (Buf.exact body) = some none) ∧
    (¬ Undecodable gbDec .smgp .deliver body →
      ∃ d, Delivery.decode gbDec v seq (Buf.exact body) = some (some d) ∧ d.hdr.sequenceId = seq ∧ d.version = v ∧
        d.isReport = body.getD 10 0 ∧
        (d.isReport = 1 → ∃ r, d.report = some r ∧ r.id = ((body.drop 69).drop 3).take 10 ∧
          r.stat = ((body.drop 69).drop 81).take 7)) := by
  unfold Delivery.decode deliverContent
  simp only [BodyComplete, SmgpDeliverBody] at h
  obtain ⟨h1, h2⟩ := h
  simp only [Undecodable, true_and]
  by_cases hr : List.getD body 10 0 = 1
  · rw [if_pos hr] at h2
    obtain ⟨r, e, e1, e2⟩ := report_run (body.drop 69) 122 (by rw [List.length_drop]; omega)
    constructor
    · exact fun hh => absurd hr hh.1
    · intro _
      simp (disch := omega) only [Rd.run, bind_length', bind_slice', bind_byte', bind_str', Nat.reduceAdd,
        Nat.zero_add] at e ⊢
      rw [if_pos hr]
      simp (disch := omega) only [bind_assoc', bind_sub', e, bind_lift', bind_pure', pure', Option.map_some]
      exact ⟨_, rfl, rfl, rfl, rfl, fun _ => ⟨r, rfl, e1, e2⟩⟩
  · rw [if_neg hr] at h2
    simp (disch := omega) only [Rd.run, bind_length', bind_slice', bind_byte', bind_str', Nat.reduceAdd,
        Nat.zero_add]
    rw [if_neg hr]
    simp (disch := omega) only [bind_assoc', bind_slice', bind_pure', pure', Option.map_some]
    constructor
    · intro hh; rw [hh.2]; rfl
    · intro hh
      cases hg : gbDec (List.take (List.getD body 68 0).toNat (List.drop 69 body)) with
      | none => exact absurd ⟨hr, hg⟩ hh
      | some t => exact ⟨_, rfl, rfl, rfl, rfl, fun h' => absurd h' hr⟩

end Smgp

namespace Sgip
open Spec.ClientTraffic

theorem bindRsp_needs (v : Bool) (seq : UInt32) (body : Bytes) :
    (bindRspDecode seq (Buf.exact body)).isSome ↔ BodyComplete v body .sgip .loginResp := by
  unfold bindRspDecode
  simp only [isSome_run, isSome_length, isSome_u32, isSome_byte, isSome_pure, and_true, BodyComplete]
  omega

theorem bindRsp_status (v : Bool) (seq : UInt32) (body : Bytes) (h : BodyComplete v body .sgip .loginResp) :
    ∃ r, bindRspDecode seq (Buf.exact body) = some r ∧ r.status = body.getD 8 0 := by
  unfold bindRspDecode
  simp only [BodyComplete] at h
  simp (disch := omega) only [Rd.run, bind_length', bind_u32', bind_byte', pure', Option.map_some]
  exact ⟨_, rfl, rfl⟩

theorem rsp_needs (v : Bool) (cmd seq : UInt32) (body : Bytes) :
    (Rsp.decode cmd seq (Buf.exact body)).isSome ↔ BodyComplete v body .sgip .submitResp := by
  unfold Rsp.decode
  simp only [isSome_run, isSome_length, isSome_seek, isSome_u32, isSome_byte, isSome_pure, and_true, BodyComplete]
  omega

theorem rsp_values (v : Bool) (cmd seq : UInt32) (body : Bytes) (h : BodyComplete v body .sgip .submitResp) :
    ∃ r, Rsp.decode cmd seq (Buf.exact body) = some r ∧ r.hdr.seq0 = seq ∧ r.hdr.seq1 = rd32 (body.take 4) ∧
      r.hdr.seq2 = rd32 ((body.drop 4).take 4) ∧ r.status = body.getD 8 0 := by
  unfold Rsp.decode
  simp only [BodyComplete] at h
  simp (disch := omega) only [Rd.run, bind_length', bind_seek', bind_u32', bind_byte', pure', Option.map_some]
  exact ⟨_, rfl, rfl, by simp, rfl, rfl⟩

theorem unbind_values (cmd seq : UInt32) (body : Bytes) (h : 8 ≤ body.length) :
    unbindDecode cmd seq (Buf.exact body) =
      some ⟨20, cmd, seq, rd32 (body.take 4), rd32 ((body.drop 4).take 4)⟩ := by
  unfold unbindDecode
  simp (disch := omega) only [Rd.run, bind_seek', bind_u32', pure', Option.map_some, List.drop_zero]

end Sgip

namespace ClientTraffic
open Spec.ClientTraffic

open Classical in
/-- What is expected of the client for a packet of kind `k`. -/
noncomputable def expectK (p : Proto) (k : Kind) (e : Env) (s : Client.State) (cmd seq : UInt32) (body : Bytes) : Option Out :=
  if BodyComplete (Cmpp.v3 e.ver) body p k ∧ (k = .loginResp → LoginOk (Cmpp.v3 e.ver) body p) then
    some
      { written := if e.ok = true ∧ ¬ Undecodable e.gbDec p k body then
          answerTo (Cmpp.v3 e.ver) e.nextId p k cmd seq body else none
        closed := decide (k = .terminate ∨ k = .terminateResp ∨ Undecodable e.gbDec p k body ∨
          ((answerTo (Cmpp.v3 e.ver) e.nextId p k cmd seq body).isSome = true ∧ e.ok = false))
        st := match effect (Cmpp.v3 e.ver) p k seq body e.now with
          | none => s
          | some x => Client.step s x }
  else none

theorem frame12 (len cmd seq : UInt32) (h : len = 12) :
    Header.encode ⟨len, cmd, seq⟩ = some (Spec.header12 (UInt32.ofNat (12 + ([] : Bytes).length)) cmd seq ++ []) := by
  subst h
  rw [header_encode, clamp_of_le (show 12 ≤ (12 : UInt32).toNat by decide)]
  rfl

variable (e : Env) (s : Client.State) (seq : UInt32) (body : Bytes)

theorem not_smgp {p : Proto} {k : Kind} {gbDec : Bytes → Option Bytes} {body : Bytes} (h : ¬ (p = .smgp ∧ k = .deliver)) :
    ¬ Undecodable gbDec p k body := fun u => h ⟨u.1, u.2.1⟩

theorem cmpp_loginResp :
    onTraffic .cmpp e s 0x80000001 seq body = expectK .cmpp .loginResp e s 0x80000001 seq body := by
  have e0 : onTraffic .cmpp e s 0x80000001 seq body =
    (Cmpp.ConnectResp.decode e.ver seq (Buf.exact body)).bind fun r => if r.status ≠ 0 then none else some { st := s } := rfl
  rw [e0, expectK]
  by_cases hb : BodyComplete (Cmpp.v3 e.ver) body .cmpp .loginResp
  · obtain ⟨r, e1, e2⟩ := Cmpp.connectResp_status e.ver seq body hb
    rw [e1]
    simp only [hb, true_and, forall_const, LoginOk, ← e2, Option.bind_some]
    by_cases hs : r.status = 0
    · simp [hs, answerTo, Undecodable, effect]
    · simp [hs]
  · have := (not_congr (Cmpp.connectResp_needs e.ver seq body)).2 hb
    rw [Option.not_isSome_iff_eq_none] at this
    rw [this, if_neg (fun h => hb h.1)]; rfl

theorem cmpp_active : onTraffic .cmpp e s 8 seq body = expectK .cmpp .active e s 8 seq body := by
  have e0 : onTraffic .cmpp e s 8 seq body =
    answer s (Cmpp.activeTestRspEncode ⟨13, Cmpp.ACTIVE_TEST_RESP, seq⟩) e.ok false := rfl
  have e1 : Cmpp.activeTestRspEncode ⟨13, Cmpp.ACTIVE_TEST_RESP, seq⟩ =
      some (Spec.header12 (UInt32.ofNat (12 + [(0 : UInt8)].length)) (Spec.responseOf 8) seq ++ [0]) :=
    encodeWith_exact _ _ _ rfl (by simp [AllOk, WOp.Ok]) rfl
  rw [e0, e1, expectK, if_pos ⟨trivial, fun h => nomatch h⟩]
  cases e.ok <;> simp [answer, answerTo, Undecodable, effect]

theorem cmpp_activeResp : onTraffic .cmpp e s 0x80000008 seq body = expectK .cmpp .activeResp e s 0x80000008 seq body := by
  have e0 : onTraffic .cmpp e s 0x80000008 seq body = some { st := s } := rfl
  rw [e0, expectK, if_pos ⟨trivial, fun h => nomatch h⟩]
  simp [answerTo, Undecodable, effect]

theorem cmpp_terminate : onTraffic .cmpp e s 2 seq body = expectK .cmpp .terminate e s 2 seq body := by
  have e0 : onTraffic .cmpp e s 2 seq body = answer s (Header.encode ⟨12, Spec.responseOf 2, seq⟩) e.ok true := rfl
  rw [e0, frame12 _ _ _ rfl, expectK, if_pos ⟨trivial, fun h => nomatch h⟩]
  cases e.ok <;> simp [answer, answerTo, Undecodable, effect]

theorem cmpp_terminateResp :
    onTraffic .cmpp e s 0x80000002 seq body = expectK .cmpp .terminateResp e s 0x80000002 seq body := by
  have e0 : onTraffic .cmpp e s 0x80000002 seq body = some { st := s, closed := true } := rfl
  rw [e0, expectK, if_pos ⟨trivial, fun h => nomatch h⟩]
  simp [answerTo, effect]

theorem cmpp_submitResp :
    onTraffic .cmpp e s 0x80000004 seq body = expectK .cmpp .submitResp e s 0x80000004 seq body := by
  have e0 : onTraffic .cmpp e s 0x80000004 seq body =
    (Cmpp.Rsp.decode Cmpp.SUBMIT_RESP e.ver seq (Buf.exact body)).map fun r =>
      { st := Client.onResp s (.cmpp r.hdr.sequenceId r.msgId r.result) e.now } := rfl
  rw [e0, expectK]
  by_cases hb : BodyComplete (Cmpp.v3 e.ver) body .cmpp .submitResp
  · obtain ⟨r, e1, e2, e3, e4⟩ := Cmpp.rsp_values Cmpp.SUBMIT_RESP e.ver seq body hb
    rw [e1, if_pos ⟨hb, fun h => nomatch h⟩]
    simp [answerTo, Undecodable, effect, Client.step, e2, e3, e4]
  · have := (not_congr (Cmpp.rsp_needs Cmpp.SUBMIT_RESP e.ver seq body)).2 hb
    rw [Option.not_isSome_iff_eq_none] at this
    rw [this, if_neg (fun h => hb h.1)]; rfl

theorem cmpp_deliver : onTraffic .cmpp e s 5 seq body = expectK .cmpp .deliver e s 5 seq body := by
  have e0 : onTraffic .cmpp e s 5 seq body =
    (Cmpp.Delivery.decode e.ver seq (Buf.exact body)).bind fun d =>
      (answer s (d.toResponse 0).encode e.ok false).map fun o => { o with st := cmppReport d e.now o.st } := rfl
  rw [e0, expectK]
  by_cases hb : BodyComplete (Cmpp.v3 e.ver) body .cmpp .deliver
  · obtain ⟨d, e1, e2, e3, e4, e5, e6⟩ := Cmpp.deliver_values e.ver seq body hb
    have hl : 8 ≤ body.length := by
      have := hb
      simp only [BodyComplete, CmppDeliverBody] at this
      cases hv : Cmpp.v3 e.ver <;> simp only [hv, if_true, if_false, Bool.false_eq_true] at this <;> omega
    have e7 : (d.toResponse 0).encode = answerTo (Cmpp.v3 e.ver) e.nextId .cmpp .deliver 5 seq body := by
      rw [Cmpp.rsp_encode]
      · simp only [answerTo, Option.some.injEq]
        have hbody : Spec.Cmpp.rspBody (d.toResponse 0) = body.take 8 ++ List.replicate (if Cmpp.v3 e.ver then 4 else 1) 0 := by
          have h8 : be64 (rd64 (body.take 8)) = body.take 8 := be64_rd64 (by simp; omega)
          cases hv : Cmpp.v3 e.ver
          · have hv' : ¬ Spec.major e.ver = 3 := fun hh => by rw [(Cmpp.v3_iff _).2 hh] at hv; cases hv
            simp [Spec.Cmpp.rspBody, Cmpp.Delivery.toResponse, e3, e4, h8, hv']
          · have hv' : Spec.major e.ver = 3 := (Cmpp.v3_iff _).1 hv
            simp [Spec.Cmpp.rspBody, Cmpp.Delivery.toResponse, e3, e4, h8, hv']
            rfl
        rw [hbody]
        cases hv : Cmpp.v3 e.ver <;> simp [Cmpp.Delivery.toResponse, e2, e3, hv, Nat.min_eq_left hl] <;> rfl
      · rw [Spec.Cmpp.rspBody]
        have := Cmpp.total_rsp d.version
        simp only [Cmpp.Delivery.toResponse, this]
        by_cases hv : Spec.major d.version = 3 <;> simp [hv]
    rw [e1, if_pos ⟨hb, fun h => nomatch h⟩]
    simp only [Option.bind_some, e7]
    have hst : cmppReport d e.now s = match effect (Cmpp.v3 e.ver) .cmpp .deliver seq body e.now with
          | none => s
          | some x => Client.step s x := by
      unfold cmppReport
      by_cases hr : d.registeredDelivery = 1
      · obtain ⟨r, f1, f2, f3⟩ := e6 hr
        rw [if_pos hr, f1]
        rw [e5] at hr
        simp only [effect, hr, if_true, Client.step, f2, f3, Spec.slot, List.drop_drop, trimStr_eq_takeWhile]
      · rw [if_neg hr]
        rw [e5] at hr
        simp only [effect, hr, if_false]
    cases e.ok <;> simp [answer, Undecodable, hst, answerTo]
  · have := (not_congr (Cmpp.deliver_needs e.ver seq body)).2 hb
    rw [Option.not_isSome_iff_eq_none] at this
    rw [this, if_neg (fun h => hb h.1)]; rfl

theorem smgp_loginResp :
    onTraffic .smgp e s 0x80000001 seq body = expectK .smgp .loginResp e s 0x80000001 seq body := by
  have e0 : onTraffic .smgp e s 0x80000001 seq body =
    (Smgp.LoginRsp.decode seq (Buf.exact body)).bind fun r => if r.status ≠ 0 then none else some { st := s } := rfl
  rw [e0, expectK]
  by_cases hb : BodyComplete (Cmpp.v3 e.ver) body .smgp .loginResp
  · obtain ⟨r, e1, e2⟩ := Smgp.loginRsp_status _ seq body hb
    have hl : (body.take 4).length = 4 := by simp only [BodyComplete] at hb; simp; omega
    have e3 : body.take 4 = [0, 0, 0, 0] ↔ r.status = 0 := by
      rw [e2]
      constructor
      · intro h; rw [h]; rfl
      · intro h; rw [← be32_rd32 hl, h]; rfl
    rw [e1]
    simp only [hb, true_and, forall_const, LoginOk, e3, Option.bind_some]
    by_cases hs : r.status = 0
    · simp [hs, answerTo, Undecodable, effect]
    · simp [hs]
  · have := (not_congr (Smgp.loginRsp_needs _ seq body)).2 hb
    rw [Option.not_isSome_iff_eq_none] at this
    rw [this, if_neg (fun h => hb h.1)]; rfl

theorem smgp_active : onTraffic .smgp e s 4 seq body = expectK .smgp .active e s 4 seq body := by
  have e0 : onTraffic .smgp e s 4 seq body = answer s (Header.encode ⟨12, Spec.responseOf 4, seq⟩) e.ok false := rfl
  rw [e0, frame12 _ _ _ rfl, expectK, if_pos ⟨trivial, fun h => nomatch h⟩]
  cases e.ok <;> simp [answer, answerTo, Undecodable, effect]

theorem smgp_activeResp : onTraffic .smgp e s 0x80000004 seq body = expectK .smgp .activeResp e s 0x80000004 seq body := by
  have e0 : onTraffic .smgp e s 0x80000004 seq body = some { st := s } := rfl
  rw [e0, expectK, if_pos ⟨trivial, fun h => nomatch h⟩]
  simp [answerTo, Undecodable, effect]

theorem smgp_terminate : onTraffic .smgp e s 6 seq body = expectK .smgp .terminate e s 6 seq body := by
  have e0 : onTraffic .smgp e s 6 seq body = answer s (Header.encode ⟨12, Spec.responseOf 6, seq⟩) e.ok true := rfl
  rw [e0, frame12 _ _ _ rfl, expectK, if_pos ⟨trivial, fun h => nomatch h⟩]
  cases e.ok <;> simp [answer, answerTo, Undecodable, effect]

theorem smgp_terminateResp :
    onTraffic .smgp e s 0x80000006 seq body = expectK .smgp .terminateResp e s 0x80000006 seq body := by
  have e0 : onTraffic .smgp e s 0x80000006 seq body = some { st := s, closed := true } := rfl
  rw [e0, expectK, if_pos ⟨trivial, fun h => nomatch h⟩]
  simp [answerTo, effect]

theorem smgp_submitResp :
    onTraffic .smgp e s 0x80000002 seq body = expectK .smgp .submitResp e s 0x80000002 seq body := by
  have e0 : onTraffic .smgp e s 0x80000002 seq body =
    (Smgp.Rsp.decode Smgp.SUBMIT_RESP e.ver seq (Buf.exact body)).map fun r =>
      { st := Client.onResp s (.smgp r.hdr.sequenceId r.msgId r.status) e.now } := rfl
  rw [e0, expectK]
  by_cases hb : BodyComplete (Cmpp.v3 e.ver) body .smgp .submitResp
  · obtain ⟨r, e1, e2, e3, e4⟩ := Smgp.rsp_values _ Smgp.SUBMIT_RESP e.ver seq body hb
    rw [e1, if_pos ⟨hb, fun h => nomatch h⟩]
    simp [answerTo, Undecodable, effect, Client.step, e2, e3, e4]
  · have := (not_congr (Smgp.rsp_needs _ Smgp.SUBMIT_RESP e.ver seq body)).2 hb
    rw [Option.not_isSome_iff_eq_none] at this
    rw [this, if_neg (fun h => hb h.1)]; rfl

theorem smgp_deliver (hid : e.nextId.length = 10) :
    onTraffic .smgp e s 3 seq body = expectK .smgp .deliver e s 3 seq body := by
  have e0 : onTraffic .smgp e s 3 seq body =
    (Smgp.Delivery.decode e.gbDec e.ver seq (Buf.exact body)).bind fun
      | none => some { st := s, closed := true }
      | some d =>
        (answer s (d.toResponse 0 e.nextId).encode e.ok false).map fun o => { o with st := smgpReport d e.now o.st } := rfl
  rw [e0, expectK]
  by_cases hb : BodyComplete (Cmpp.v3 e.ver) body .smgp .deliver
  · have hv := Smgp.deliver_values e.gbDec _ e.ver seq body hb
    rw [if_pos ⟨hb, fun h => nomatch h⟩]
    by_cases hu : Undecodable e.gbDec .smgp .deliver body
    · rw [hv.1 hu]
      simp only [Option.bind_some, effect, if_neg hu.2.2.1]
      simp [hu]
    · obtain ⟨d, e1, e2, e3, e5, e6⟩ := hv.2 hu
      have e7 : (d.toResponse 0 e.nextId).encode = answerTo (Cmpp.v3 e.ver) e.nextId .smgp .deliver 3 seq body := by
        rw [Smgp.rsp_encode _ rfl]
        simp only [answerTo, Option.some.injEq, Spec.Smgp.rspBody, Smgp.Delivery.toResponse, e2, List.length_append, hid]
        simp only [pad_eq_self hid, List.flatten_cons, List.flatten_nil, List.append_nil]
        rfl
      rw [e1]
      simp only [Option.bind_some, e7]
      have hst : smgpReport d e.now s = match effect (Cmpp.v3 e.ver) .smgp .deliver seq body e.now with
            | none => s
            | some x => Client.step s x := by
        unfold smgpReport
        by_cases hr : d.isReport = 1
        · obtain ⟨r, f1, f2, f3⟩ := e6 hr
          rw [if_pos hr, f1]
          rw [e5] at hr
          simp only [effect, hr, if_true, Client.step, f2, f3]
        · rw [if_neg hr]
          rw [e5] at hr
          simp only [effect, hr, if_false]
      cases e.ok <;> simp [answer, hu, hst, answerTo]
  · have := (not_congr (Smgp.deliver_needs e.gbDec _ e.ver seq body)).2 hb
    rw [Option.not_isSome_iff_eq_none] at this
    rw [this, if_neg (fun h => hb h.1)]; rfl

theorem sgip_loginResp :
    onTraffic .sgip e s 0x80000001 seq body = expectK .sgip .loginResp e s 0x80000001 seq body := by
  have e0 : onTraffic .sgip e s 0x80000001 seq body =
    (Sgip.bindRspDecode seq (Buf.exact body)).bind fun r => if r.status ≠ 0 then none else some { st := s } := rfl
  rw [e0, expectK]
  by_cases hb : BodyComplete (Cmpp.v3 e.ver) body .sgip .loginResp
  · obtain ⟨r, e1, e2⟩ := Sgip.bindRsp_status _ seq body hb
    rw [e1]
    simp only [hb, true_and, forall_const, LoginOk, ← e2, Option.bind_some]
    by_cases hs : r.status = 0
    · simp [hs, answerTo, Undecodable, effect]
    · simp [hs]
  · have := (not_congr (Sgip.bindRsp_needs _ seq body)).2 hb
    rw [Option.not_isSome_iff_eq_none] at this
    rw [this, if_neg (fun h => hb h.1)]; rfl

theorem sgip_terminate : onTraffic .sgip e s 2 seq body = expectK .sgip .terminate e s 2 seq body := by
  have e0 : onTraffic .sgip e s 2 seq body = (Sgip.unbindDecode Sgip.UNBIND seq (Buf.exact body)).bind fun u =>
      answer s (Sgip.unbindEncode (Sgip.unbindToResponse u 0)) e.ok true := rfl
  rw [e0, expectK]
  by_cases hb : BodyComplete (Cmpp.v3 e.ver) body .sgip .terminate
  · have hl : 8 ≤ body.length := hb
    have e1 : Sgip.unbindEncode (Sgip.unbindToResponse
        ⟨20, Sgip.UNBIND, seq, rd32 (body.take 4), rd32 ((body.drop 4).take 4)⟩ 0) =
        answerTo (Cmpp.v3 e.ver) e.nextId .sgip .terminate 2 seq body := by
      have h4 : be32 (rd32 (body.take 4)) = body.take 4 := be32_rd32 (by simp; omega)
      have h8 : be32 (rd32 ((body.drop 4).take 4)) = (body.drop 4).take 4 := be32_rd32 (by simp; omega)
      have h48 : body.take 8 = body.take 4 ++ (body.drop 4).take 4 := by
        rw [← List.take_add]
      simp only [Sgip.unbindEncode, Sgip.unbindToResponse]
      rw [sheader_encode, sclamp_of_le (show 20 ≤ (20 : UInt32).toNat by decide)]
      simp only [Spec.header20, h4, h8, answerTo, h48, Spec.header12, List.append_assoc]
      have hln : (body.take 4 ++ (body.drop 4).take 4).length = 8 := by rw [← h48]; simp; omega
      rw [hln]
      simp [zeros]
      rfl
    rw [Sgip.unbind_values _ _ _ hl, if_pos ⟨hb, fun h => nomatch h⟩]
    simp only [Option.bind_some, e1]
    cases e.ok <;> simp [answer, answerTo, Undecodable, effect]
  · have := (not_congr (Sgip.unbind_needs Sgip.UNBIND seq body)).2 hb
    rw [Option.not_isSome_iff_eq_none] at this
    rw [this, if_neg (fun h => hb h.1)]; rfl

theorem sgip_terminateResp :
    onTraffic .sgip e s 0x80000002 seq body = expectK .sgip .terminateResp e s 0x80000002 seq body := by
  have e0 : onTraffic .sgip e s 0x80000002 seq body =
    (Sgip.unbindDecode Sgip.UNBIND_RESP seq (Buf.exact body)).map fun _ => { st := s, closed := true } := rfl
  rw [e0, expectK]
  by_cases hb : BodyComplete (Cmpp.v3 e.ver) body .sgip .terminateResp
  · rw [Sgip.unbind_values _ _ _ hb, if_pos ⟨hb, fun h => nomatch h⟩]
    simp [answerTo, effect]
  · have := (not_congr (Sgip.unbind_needs Sgip.UNBIND_RESP seq body)).2 hb
    rw [Option.not_isSome_iff_eq_none] at this
    rw [this, if_neg (fun h => hb h.1)]; rfl

theorem sgip_submitResp :
    onTraffic .sgip e s 0x80000003 seq body = expectK .sgip .submitResp e s 0x80000003 seq body := by
  have e0 : onTraffic .sgip e s 0x80000003 seq body =
    (Sgip.Rsp.decode Sgip.SUBMIT_RESP seq (Buf.exact body)).map fun r =>
      { st := Client.onResp s (.sgip r.hdr.seq0 r.hdr.seq1 r.hdr.seq2 r.status) e.now } := rfl
  rw [e0, expectK]
  by_cases hb : BodyComplete (Cmpp.v3 e.ver) body .sgip .submitResp
  · obtain ⟨r, e1, e2, e3, e4, e5⟩ := Sgip.rsp_values _ Sgip.SUBMIT_RESP seq body hb
    rw [e1, if_pos ⟨hb, fun h => nomatch h⟩]
    simp [answerTo, Undecodable, effect, Client.step, e2, e3, e4, e5]
  · have := (not_congr (Sgip.rsp_needs _ Sgip.SUBMIT_RESP seq body)).2 hb
    rw [Option.not_isSome_iff_eq_none] at this
    rw [this, if_neg (fun h => hb h.1)]; rfl

/-- What the client does with a packet is what is expected for its kind; other packets are ignored. -/
theorem onTraffic_eq (p : Proto) (cmd : UInt32) (hid : e.nextId.length = 10) :
    onTraffic p e s cmd seq body = match kind p cmd with
      | none => some { st := s }
      | some k => expectK p k e s cmd seq body := by
  cases p with
  | cmpp =>
    by_cases h : cmd = 0x80000001; · subst h; exact cmpp_loginResp e s seq body
    by_cases h : cmd = 8; · subst h; exact cmpp_active e s seq body
    by_cases h : cmd = 0x80000008; · subst h; exact cmpp_activeResp e s seq body
    by_cases h : cmd = 2; · subst h; exact cmpp_terminate e s seq body
    by_cases h : cmd = 0x80000002; · subst h; exact cmpp_terminateResp e s seq body
    by_cases h : cmd = 0x80000004; · subst h; exact cmpp_submitResp e s seq body
    by_cases h : cmd = 5; · subst h; exact cmpp_deliver e s seq body
    have : kind .cmpp cmd = none := by unfold kind; split <;> first | contradiction | rfl
    rw [this]
    simp only [onTraffic, onTrafficCmpp]
    iterate 7 rw [if_neg (by assumption)]
  | smgp =>
    by_cases h : cmd = 0x80000001; · subst h; exact smgp_loginResp e s seq body
    by_cases h : cmd = 4; · subst h; exact smgp_active e s seq body
    by_cases h : cmd = 0x80000004; · subst h; exact smgp_activeResp e s seq body
    by_cases h : cmd = 6; · subst h; exact smgp_terminate e s seq body
    by_cases h : cmd = 0x80000006; · subst h; exact smgp_terminateResp e s seq body
    by_cases h : cmd = 0x80000002; · subst h; exact smgp_submitResp e s seq body
    by_cases h : cmd = 3; · subst h; exact smgp_deliver e s seq body hid
    have : kind .smgp cmd = none := by unfold kind; split <;> first | contradiction | rfl
    rw [this]
    simp only [onTraffic, onTrafficSmgp]
    iterate 7 rw [if_neg (by assumption)]
  | sgip =>
    by_cases h : cmd = 0x80000001; · subst h; exact sgip_loginResp e s seq body
    by_cases h : cmd = 2; · subst h; exact sgip_terminate e s seq body
    by_cases h : cmd = 0x80000002; · subst h; exact sgip_terminateResp e s seq body
    by_cases h : cmd = 0x80000003; · subst h; exact sgip_submitResp e s seq body
    have : kind .sgip cmd = none := by unfold kind; split <;> first | contradiction | rfl
    rw [this]
    simp only [onTraffic, onTrafficSgip]
    iterate 4 rw [if_neg (by assumption)]

/-! ## C73 -/

/-- Full property: no packet of the carrier crashes the client. Proved: exactly which ones do. The missing part is false:
see the two theorems below. -/
theorem carrier_packet_panics_exactly_partial (p : Proto) (cmd : UInt32) (hid : e.nextId.length = 10) :
    onTraffic p e s cmd seq body = none ↔
      ∃ k, kind p cmd = some k ∧ (¬ BodyComplete (Cmpp.v3 e.ver) body p k ∨
        (k = .loginResp ∧ ¬ LoginOk (Cmpp.v3 e.ver) body p)) := by
  rw [onTraffic_eq e s seq body p cmd hid]
  cases hk : kind p cmd with
  | none => simp
  | some k =>
    simp only [Option.some.injEq, exists_eq_left', expectK]
    by_cases hc : BodyComplete (Cmpp.v3 e.ver) body p k <;> by_cases hl : k = .loginResp <;>
      by_cases ho : LoginOk (Cmpp.v3 e.ver) body p <;> simp [hc, hl, ho] <;> simp_all

/-- A heartbeat never does, whatever its body. -/
example (hid : e.nextId.length = 10) : onTraffic .cmpp e s 8 seq body ≠ none := by
  rw [Ne, carrier_packet_panics_exactly_partial e s seq body .cmpp 8 hid]
  rintro ⟨k, hk, h⟩
  obtain rfl : Kind.active = k := Option.some.inj hk
  rcases h with h | ⟨h, _⟩
  · exact h trivial
  · cases h

/-- Every login response with a status other than success ends the process, whatever else it carries. -/
theorem carrier_packet_never_panics_fails_login (p : Proto) (h : ¬ LoginOk (Cmpp.v3 e.ver) body p) :
    onTraffic p e s 0x80000001 seq body = none := by
  have hh : ∀ k, ¬ (BodyComplete (Cmpp.v3 e.ver) body p k ∧ (Kind.loginResp = .loginResp → LoginOk (Cmpp.v3 e.ver) body p)) :=
    fun k hk => h (hk.2 rfl)
  cases p with
  | cmpp => rw [cmpp_loginResp, expectK, if_neg (hh _)]
  | smgp => rw [smgp_loginResp, expectK, if_neg (hh _)]
  | sgip => rw [sgip_loginResp, expectK, if_neg (hh _)]

example : ¬ LoginOk true [0, 0, 0, 3] .cmpp := by simp [LoginOk]

/-- Every submit response of fewer than 9 bytes does, in all three protocols. -/
theorem carrier_packet_never_panics_fails_short (p : Proto) (cmd : UInt32) (hk : kind p cmd = some .submitResp)
    (hid : e.nextId.length = 10) (h : body.length < 9) : onTraffic p e s cmd seq body = none := by
  rw [carrier_packet_panics_exactly_partial e s seq body p cmd hid]
  refine ⟨_, hk, .inl fun hc => ?_⟩
  cases p <;> simp only [BodyComplete] at hc <;> try omega
  cases hv : Cmpp.v3 e.ver <;> simp only [hv, if_true, if_false, Bool.false_eq_true] at hc <;> omega

example : kind .cmpp 0x80000004 = some .submitResp ∧ kind .smgp 0x80000002 = some .submitResp ∧
    kind .sgip 0x80000003 = some .submitResp := ⟨rfl, rfl, rfl⟩

/-! ## C74 -/

theorem out_of_some {p : Proto} {cmd : UInt32} {o : Out} {e : Env} {s : Client.State} {seq : UInt32} {body : Bytes}
    (hid : e.nextId.length = 10) (h : onTraffic p e s cmd seq body = some o) :
    (kind p cmd = none ∧ o = { st := s }) ∨ ∃ k, kind p cmd = some k ∧
      BodyComplete (Cmpp.v3 e.ver) body p k ∧ (k = .loginResp → LoginOk (Cmpp.v3 e.ver) body p) ∧
      o.written = (if e.ok = true ∧ ¬ Undecodable e.gbDec p k body then
          answerTo (Cmpp.v3 e.ver) e.nextId p k cmd seq body else none) ∧
      (o.closed = true ↔ (k = .terminate ∨ k = .terminateResp ∨ Undecodable e.gbDec p k body ∨
          ((answerTo (Cmpp.v3 e.ver) e.nextId p k cmd seq body).isSome = true ∧ e.ok = false))) ∧
      o.st = match effect (Cmpp.v3 e.ver) p k seq body e.now with
          | none => s
          | some x => Client.step s x := by
  rw [onTraffic_eq e s seq body p cmd hid] at h
  cases hk : kind p cmd with
  | none =>
    rw [hk] at h
    exact .inl ⟨rfl, (Option.some.inj h).symm⟩
  | some k =>
    rw [hk] at h
    simp only [expectK] at h
    split at h
    · rename_i hc
      cases h
      exact .inr ⟨k, rfl, hc.1, hc.2, by simp only [], by rw [decide_eq_true_iff], rfl⟩
    · cases h

/-- Full property: every request of the carrier is answered. Proved: as long as writing works, the bytes written for a
packet that does not crash the client are exactly the answer to it – one packet, with the request's sequence number and the
response command – and nothing for packets that ask for none. The exceptions: an SMGP delivery whose text cannot be
decoded, and all deliveries and reports of SGIP (see below). -/
theorem carrier_request_answered_partial (p : Proto) (cmd : UInt32) (o : Out) (hid : e.nextId.length = 10)
    (h : onTraffic p e s cmd seq body = some o) (hok : e.ok = true) :
    o.written = match kind p cmd with
      | none => none
      | some k => if Undecodable e.gbDec p k body then none else answerTo (Cmpp.v3 e.ver) e.nextId p k cmd seq body := by
  rcases out_of_some hid h with ⟨hk, rfl⟩ | ⟨k, hk, _, _, hw, _⟩
  · rw [hk]
  · rw [hk, hw]
    by_cases hu : Undecodable e.gbDec p k body <;> simp [hu, hok]

/-- A CMPP 3 heartbeat request with sequence number 7. -/
example : (onTraffic .cmpp {} {} 8 7 []).map Out.written =
    some (some [0, 0, 0, 13, 0x80, 0, 0, 8, 0, 0, 0, 7, 0]) := by decide

/-- The session is closed exactly when the carrier ends it or has confirmed its end, when an answer cannot be written, and
when an SMGP text cannot be decoded. -/
theorem session_closed_exactly (p : Proto) (cmd : UInt32) (o : Out) (hid : e.nextId.length = 10)
    (h : onTraffic p e s cmd seq body = some o) :
    o.closed = true ↔ ∃ k, kind p cmd = some k ∧ (k = .terminate ∨ k = .terminateResp ∨ Undecodable e.gbDec p k body ∨
      ((answerTo (Cmpp.v3 e.ver) e.nextId p k cmd seq body).isSome = true ∧ e.ok = false)) := by
  rcases out_of_some hid h with ⟨hk, rfl⟩ | ⟨k, hk, _, _, _, hc, _⟩
  · simp [hk]
  · rw [hc, hk]; simp

example : (onTraffic .smgp {} {} 6 7 []).map Out.closed = some true := by decide

/-- What the client knows about its messages changes only as the packet says: by a submit response and by a report. -/
theorem results_changed_as_told (p : Proto) (cmd : UInt32) (o : Out) (hid : e.nextId.length = 10)
    (h : onTraffic p e s cmd seq body = some o) :
    o.st = match (kind p cmd).bind fun k => effect (Cmpp.v3 e.ver) p k seq body e.now with
      | none => s
      | some x => Client.step s x := by
  rcases out_of_some hid h with ⟨hk, rfl⟩ | ⟨k, hk, _, _, _, _, hs⟩
  · simp [hk]
  · rw [hs, hk]; rfl

example : effect false .cmpp .submitResp 7 ([1, 2, 3, 4, 5, 6, 7, 8] ++ [0]) 0 =
    some (.resp (.cmpp 7 0x0102030405060708 0) 0) := by decide

/-- All deliveries (4) and reports (5) of SGIP are ignored: no answer, no record, whatever they carry. -/
theorem carrier_request_answered_fails (cmd : UInt32) (hc : cmd = 4 ∨ cmd = 5) :
    onTraffic .sgip e s cmd seq body = some { written := none, closed := false, st := s } := by
  rcases hc with rfl | rfl <;> rfl

/-! ## C75 -/

/-- A packet that arrives in one piece passes the receiver. -/
theorem turn_wire (p : ClientReceive.Packet) (hp : ClientReceive.Spec.Fits p) :
    ClientReceive.turn [ClientReceive.Spec.wire p] = .inr (p, []) := by
  obtain ⟨g, h1, h2, h3⟩ := ClientReceive.turn_packet p hp [ClientReceive.Spec.pieces p] (by
    intro g hg
    simp only [List.mem_singleton] at hg
    subst hg
    unfold ClientReceive.Spec.pieces
    split <;> simp) [] (by simp) (by simp)
  have : g = [] := by
    cases g with
    | nil => rfl
    | cons a as => 
      have := h3 a (by simp)
      simp at h2
      exact absurd h2.1 this
  subst this
  simpa [ClientReceive.pieces_flatten] using h1

open Client in
/-- Full property: when the carrier, running this library's server, answers a submit of this client, the result of that
submit gets the verdict and the message id. Proved for SGIP, under the assumptions of `response_recorded_sgip_partial`
(the sequence number is not used twice and the cache entry has not expired): whatever the message and the verdict, the
frame of the answer goes through the receiver in one piece and sets exactly the one result. -/
theorem submit_answer_recorded_sgip_partial (pre post : List Step) (call : Nat) (phone : Bytes) (qs1 qs2 : List UInt64)
    (ok : Bool) (t : Int) (m : Sgip.Submit) (code : UInt32) (hid : e.nextId.length = 10)
    (h : sequence2Uint64 m.hdr.seq1 m.hdr.seq2 ∉ qs2)
    (h1 : ∀ x ∈ post, ¬ Spec.sends (sequence2Uint64 m.hdr.seq1 m.hdr.seq2) x) (h2 : ∀ x ∈ post, ¬ Spec.dropsSeq t x) :
    let before := pre ++ .send call phone (qs1 ++ sequence2Uint64 m.hdr.seq1 m.hdr.seq2 :: qs2) ok t :: post
    let i := (run pre).heap.length + qs1.length
    ∃ frame pkt r o, (m.toResponse code).encode = some frame ∧ ClientReceive.turn [frame] = .inr (pkt, []) ∧
      (run before).heap[i]? = some r ∧ r.phone = phone ∧
      onTraffic .sgip e (run before) pkt.cmd pkt.seq pkt.body = some o ∧ o.written = none ∧ o.closed = false ∧
      o.st.heap = (run before).heap.set i
        { r with result := code.toUInt8.toUInt32, msgId := sequence2String m.hdr.seq0 m.hdr.seq1 m.hdr.seq2,
                 responseTime := e.now } := by
  intro before i
  obtain ⟨r, hr, hp, hq, ht, hset⟩ := response_recorded_sgip_partial pre post call phone qs1 qs2 ok t e.now m.hdr.seq0
    m.hdr.seq1 m.hdr.seq2 code.toUInt8 h h1 h2
  have henc := Sgip.rsp_encode (m.toResponse code) rfl
  have hbody : Spec.Sgip.rspBody (m.toResponse code) = code.toUInt8 :: zeros 8 := by
    simp [Spec.Sgip.rspBody, Sgip.Submit.toResponse]
  rw [hbody] at henc
  generalize hb : be32 m.hdr.seq1 ++ (be32 m.hdr.seq2 ++ code.toUInt8 :: zeros 8) = b at *
  have hlen : b.length = 17 := by rw [← hb]; simp
  have hw : Gosms.Spec.header20 29 (m.toResponse code).hdr.commandId (m.toResponse code).hdr.seq0
      (m.toResponse code).hdr.seq1 (m.toResponse code).hdr.seq2 ++ (code.toUInt8 :: zeros 8) =
      ClientReceive.Spec.wire ⟨0x80000003, m.hdr.seq0, b⟩ := by
    simp only [ClientReceive.Spec.wire, hlen]
    rw [← hb]
    simp only [Gosms.Spec.header20, Gosms.Spec.header12, List.append_assoc, Sgip.Submit.toResponse]
    rfl
  rw [hw] at henc
  have hturn := turn_wire ⟨0x80000003, m.hdr.seq0, b⟩ (by unfold ClientReceive.Spec.Fits; rw [hlen]; omega)
  have hc : BodyComplete (Cmpp.v3 e.ver) b .sgip .submitResp := by simp only [BodyComplete]; omega
  have htr := sgip_submitResp e (Client.run before) m.hdr.seq0 b
  rw [expectK, if_pos ⟨hc, fun h => nomatch h⟩] at htr
  refine ⟨_, _, r, _, henc, hturn, hr, hp, htr, ?_, ?_, ?_⟩
  · simp [answerTo]
  · simp [answerTo, Undecodable]
  · have e1 : rd32 (b.take 4) = m.hdr.seq1 := by rw [← hb]; simp
    have e2 : rd32 ((b.drop 4).take 4) = m.hdr.seq2 := by rw [← hb]; simp
    have e3 : b.getD 8 0 = code.toUInt8 := by rw [← hb]; simp [List.getElem?_append]
    simp only [effect, e1, e2, e3]
    rw [run_snoc] at hset
    exact hset

/-- The assumptions can be met: two messages sent before and after, then the one is answered with verdict 3. -/
example := submit_answer_recorded_sgip_partial {} [.send 0 [0x31] [1] true 10] [.send 1 [0x33] [9] true 12] 2 [0x32] [] []
  true 11 { hdr := ⟨0, 3, 4, 5, 6⟩ } 3 (by decide) (by simp) (by simp [Client.Spec.sends]; decide) (by simp [Client.Spec.dropsSeq])

/-- For CMPP and SMGP it never is: no submit response, whatever it carries and whatever was sent before, changes anything
the client knows. -/
theorem submit_answer_recorded_cmpp_smgp_fails (steps : List Client.Step) (p : Proto) (hp : p = .cmpp ∨ p = .smgp)
    (cmd : UInt32) (hk : kind p cmd = some .submitResp) (o : Out) (hid : e.nextId.length = 10)
    (h : onTraffic p e (Client.run steps) cmd seq body = some o) : o.st = Client.run steps := by
  have hs := results_changed_as_told e (Client.run steps) seq body p cmd o hid h
  rw [hs, hk]
  have hf := Client.response_recorded_cmpp_smgp_fails steps e.now seq
  rcases hp with rfl | rfl
  · exact (Client.run_snoc _ _).symm.trans (hf.1 _ _)
  · exact (Client.run_snoc _ _).symm.trans (hf.2 _ _)

/-- A CMPP submit response that the client accepts and forgets. -/
example : (onTraffic .cmpp {} {} 0x80000004 7 ([1, 2, 3, 4, 5, 6, 7, 8] ++ [0])).isSome = true := by decide

end ClientTraffic
end Gosms
