import Verif.Props.CmppDeliver
import Verif.Props.CmppLogin

/-!
# C22 (CMPP part): every CMPP packet is as long as it declares
-/

namespace Gosms.Cmpp
open Gosms.Rd

theorem msgSlices_ne_nil (g fmt : UInt8) (c : Bytes) : ∃ s rest, msgSlices g fmt c = some (s :: rest) := by
  have key : ∀ (c : Bytes) (pkg : Nat), 6 < pkg → ∃ s rest, toTPUDHISlices g c pkg = some (s :: rest) := by
    intro c pkg hp
    by_cases h : c.length < pkg
    · exact ⟨c, [], short_message_unchanged g c pkg h⟩
    · rw [toTPUDHISlices_long g c pkg hp (by omega)]
      have := ((sliceCount_bounds c.length (pkg - 6) (by omega)).2 (by omega)).2
      obtain ⟨n, hn⟩ : ∃ n, sliceCount c.length (pkg - 6) = n + 1 := ⟨_, (Nat.succ_pred_eq_of_pos this).symm⟩
      rw [hn, List.range_succ_eq_map]
      exact ⟨_, _, rfl⟩
  unfold msgSlices
  split
  · exact key _ 140 (by decide)
  · exact key _ 160 (by decide)

/-- `NewSubmit` with up to 255 recipients: every packet encodes to exactly its declared length. -/
theorem cmpp_newSubmit_length (ac : AuthConf) (phones : List Bytes) (content : Bytes) (seq : UInt32)
    (opts : List OptionFunc) (g : UInt8) (expiry : Clock) (seqs : Nat → UInt32)
    (hp : phones.length ≤ 255) :
    ∃ msgs, newSubmit ac phones content seq opts g expiry seqs = some msgs ∧ msgs ≠ [] ∧
      ∀ m ∈ msgs, ∃ frame, m.encode = some frame ∧ Spec.SelfDelimiting frame := by
  obtain ⟨msgs, slices, h1, h2, h3, h4⟩ := cmpp_newSubmit ac phones content seq opts g expiry seqs hp
  obtain ⟨s, rest, hs⟩ := msgSlices_ne_nil g (Gosms.msgFmt content) content
  refine ⟨msgs, h1, ?_, fun m hm => ?_⟩
  · rintro rfl
    rw [h2, Option.some.injEq] at hs
    rw [hs] at h3
    simp at h3
  · obtain ⟨i, hi, rfl⟩ := List.getElem_of_mem hm
    have hok := (h4 i hi (h3 ▸ hi)).1
    exact ⟨_, submit_encode _ hok.total, selfDelimiting_header12 hok.total⟩

example : [ascii "13800138000", ascii "13900139000"].length ≤ 255 := by decide

theorem moContent_le (msg : Bytes) : (moContent msg).2.1 ≤ 160 := by
  simp only [moContent]
  split <;> split <;> simp <;> omega

/-- `NewDelivery`, for every text. -/
theorem cmpp_newDelivery_length (ac : AuthConf) (phone msg dest sid : Bytes) (seq : UInt32) (id : UInt64)
    (g : UInt8) :
    ∃ frame, (newDelivery ac phone msg dest sid seq id).encode g = some frame ∧ Spec.SelfDelimiting frame := by
  obtain ⟨d, hd⟩ : ∃ d, newDelivery ac phone msg dest sid seq id = d := ⟨_, rfl⟩
  rw [hd]
  unfold newDelivery at hd
  obtain ⟨⟨fmt, l, text⟩, hm⟩ : ∃ p, moContent msg = p := ⟨_, rfl⟩
  have hl : l ≤ 160 := by have := moContent_le msg; rw [hm] at this; exact this
  rw [hm] at hd
  have e1 : d.registeredDelivery = 0 := by rw [← hd]
  have e4 : d.msgLength.toNat = l := by rw [← hd]; exact u8_ofNat_toNat (by omega)
  have e5 : d.version = ac.version := by rw [← hd]
  have e6 : d.hdr.totalLength = (if v3 ac.version then 109 else 85) + d.msgLength.toUInt32 := by rw [← hd]
  obtain ⟨s, rest, hs⟩ := msgSlices_ne_nil g d.msgFmt d.msgContent
  have hc : d.contentBytes g = some s := by
    rw [Delivery.contentBytes, if_neg (by rw [e1]; decide), hs]; rfl
  have htot : d.hdr.totalLength.toNat = 12 + (Spec.Cmpp.deliverBody d s).length := by
    rw [length_deliverBody, e5, e6]
    have hu : d.msgLength.toUInt32.toNat = l := by simpa using e4
    by_cases h : v3 ac.version = true
    · simp only [h, (v3_iff _).1 h, if_true]
      have en : (109 : UInt32).toNat = 109 := rfl
      rw [UInt32.toNat_add, hu, en, e4]; omega
    · have h' : ¬ Spec.major ac.version = 3 := fun e => h ((v3_iff _).2 e)
      simp only [h, h', if_false, Bool.false_eq_true]
      have en : (85 : UInt32).toNat = 85 := rfl
      rw [UInt32.toNat_add, hu, en, e4]; omega
  exact ⟨_, deliver_encode d g s hc htot, selfDelimiting_header12 htot⟩

/-- `ToDeliveryReport`, for every submit. -/
theorem cmpp_report_length (s : Submit) (id rid : UInt64) (seq smsc : UInt32) (sub done : Bytes) (g : UInt8) :
    ∃ frame, (s.toDeliveryReport id seq rid smsc sub done).encode g = some frame ∧
      Spec.SelfDelimiting frame := by
  obtain ⟨d, hd⟩ : ∃ d, s.toDeliveryReport id seq rid smsc sub done = d := ⟨_, rfl⟩
  rw [hd]
  unfold Submit.toDeliveryReport at hd
  have e1 : d.registeredDelivery = 1 := by rw [← hd]
  have e2 : d.report = some (newReport id s.destTerminalId sub done smsc) := by rw [← hd]
  have e3 : d.msgLength = 60 := by rw [← hd]
  have e4 : d.version = s.version := by rw [← hd]
  have e5 : d.hdr.totalLength = if v3 s.version then 169 else 145 := by rw [← hd]
  have hdl : d.hdr.totalLength.toNat = 12 + (if Spec.major d.version = 3 then 97 else 73) + 60 := by
    rw [e4, e5]
    by_cases h : v3 s.version = true
    · simp [h, (v3_iff _).1 h]
    · have h' : ¬ Spec.major s.version = 3 := fun e => h ((v3_iff _).2 e)
      simp [h, h']
  obtain ⟨h1, _⟩ := deliver_recv_report d g _ [] e1 e2 e3 hdl
  refine ⟨_, h1, selfDelimiting_header12 ?_⟩
  have e60 : (60 : UInt8).toNat = 60 := rfl
  rw [length_deliverBody, e3, hdl, e60]; omega

/-- The other CMPP constructors: connect and its response, submit/deliver responses. (Active test and
terminate: `cmpp_link_packets_roundtrip`.) -/
theorem cmpp_other_lengths (md5 : Bytes → Bytes) (ac : AuthConf) (seq : UInt32) (cl : Clock) (c : Connect)
    (s : Submit) (d : Delivery) (code : UInt32) (id : UInt64) :
    (∃ f, (newConnect md5 ac seq cl).encode = some f ∧ Spec.SelfDelimiting f) ∧
    (∃ f, (c.toResponse md5 code).encode = some f ∧ Spec.SelfDelimiting f) ∧
    (∃ f, (s.toResponse code id).encode = some f ∧ Spec.SelfDelimiting f) ∧
    (∃ f, (d.toResponse code).encode = some f ∧ Spec.SelfDelimiting f) := by
  refine ⟨?_, ?_, ?_, ?_⟩
  · have hlen : (Spec.Cmpp.connectBody (newConnect md5 ac seq cl)).length = 27 := by
      simp [Spec.Cmpp.connectBody]
    exact ⟨_, connect_encode _ rfl, selfDelimiting_header12 (by rw [hlen]; rfl)⟩
  · have hl : (c.toResponse md5 code).hdr.totalLength.toNat =
        12 + (Spec.Cmpp.connectRespBody (c.toResponse md5 code)).length := by
      unfold Spec.Cmpp.connectRespBody
      show (if v3 c.version then (33 : UInt32) else 30).toNat = 12 + (List.flatten
        [if Spec.major c.version = 3 then _ else _, _, _]).length
      by_cases h : v3 c.version = true
      · simp [h, (v3_iff _).1 h]
      · have h' : ¬ Spec.major c.version = 3 := fun e => h ((v3_iff _).2 e)
        simp [h, h']
    exact ⟨_, connectResp_encode _ hl, selfDelimiting_header12 hl⟩
  · have hl : (s.toResponse code id).hdr.totalLength.toNat =
        12 + (Spec.Cmpp.rspBody (s.toResponse code id)).length := by
      rw [length_rspBody]; exact total_rsp s.version
    exact ⟨_, rsp_encode _ hl, selfDelimiting_header12 hl⟩
  · have hl : (d.toResponse code).hdr.totalLength.toNat =
        12 + (Spec.Cmpp.rspBody (d.toResponse code)).length := by
      rw [length_rspBody]; exact total_rsp d.version
    exact ⟨_, rsp_encode _ hl, selfDelimiting_header12 hl⟩

end Gosms.Cmpp
