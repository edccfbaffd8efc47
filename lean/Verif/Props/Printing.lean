import Verif.Model.Printing
import Verif.Props.Logging
import Verif.Props.SmgpSubmit
import Verif.Props.ClientResults
import Verif.Props.Snowflake
import Verif.Props.Snowflake32

/-!
# C115: what is printed

The `String` methods of packets, statuses and id generators.
-/

namespace Gosms.Printing

open Gosms.Logging (hex hexNum join seq12 tlvListString hexSharp)
open Gosms.ServerTraffic (Draw Act)

/-! ## Specification -/

/-- A status in words: its number, a colon, and an explanation. -/
def Spec.Explained (printed : Bytes) (n : Nat) : Prop := ∃ words, words ≠ [] ∧ printed = dec n ++ ascii ": " ++ words

/-- The command is one the protocol knows. -/
def Spec.Known (p : Proto) (id : UInt32) : Prop := id ∈ (Gosms.Spec.commands p).map Prod.fst

/-! ## Lemmas -/

theorem digit_lt {d : Nat} (h : d < 10) : 0x30 ≤ digit d ∧ digit d ≤ 0x39 := by
  have e : (digit d).toNat = 0x30 + d := by unfold digit; rw [UInt8.toNat_ofNat']; omega
  rw [UInt8.le_iff_toNat_le, UInt8.le_iff_toNat_le, e]
  exact ⟨by simp, by show 48 + d ≤ 57; omega⟩

/-- `dec` prints digits only. -/
theorem dec_digits (v : Nat) : ∀ b ∈ dec v, 0x30 ≤ b ∧ b ≤ 0x39 := by
  induction v using dec.induct with
  | case1 v h =>
    unfold dec; rw [dif_pos h]
    intro b hb; rw [List.mem_singleton] at hb; rw [hb]; exact digit_lt h
  | case2 v h ih =>
    unfold dec; rw [dif_neg h]
    intro b hb
    rcases List.mem_append.1 hb with hb | hb
    · exact ih b hb
    · rw [List.mem_singleton] at hb; rw [hb]; exact digit_lt (Nat.mod_lt _ (by decide))

theorem dec_inj {a b : Nat} (h : dec a = dec b) : a = b := by rw [← atoi_dec a, h, atoi_dec]

/-- Texts without a separator are determined by what stands before it. -/
theorem sep_inj {α : Type} {c : α} {a b x y : List α} (ha : c ∉ a) (hb : c ∉ b) (h : a ++ c :: x = b ++ c :: y) : a = b ∧ x = y := by
  induction a generalizing b with
  | nil =>
    cases b with
    | nil => exact ⟨rfl, by simpa using h⟩
    | cons d b => simp only [List.nil_append, List.cons_append, List.cons.injEq] at h; exact absurd (List.mem_cons_self ..) (h.1 ▸ hb)
  | cons d a ih =>
    cases b with
    | nil => simp only [List.nil_append, List.cons_append, List.cons.injEq] at h; exact absurd (List.mem_cons_self ..) (h.1 ▸ ha)
    | cons e b =>
      simp only [List.cons_append, List.cons.injEq] at h
      obtain ⟨h1, h2⟩ := ih (fun m => ha (List.mem_cons_of_mem _ m)) (fun m => hb (List.mem_cons_of_mem _ m)) h.2
      exact ⟨by rw [h.1, h1], h2⟩

theorem dec_sep {c : UInt8} {a b : Nat} {x y : Bytes} (hc : ¬ (0x30 ≤ c ∧ c ≤ 0x39)) (h : dec a ++ c :: x = dec b ++ c :: y) :
    a = b ∧ x = y := by
  obtain ⟨h1, h2⟩ := sep_inj (fun m => hc (dec_digits a c m)) (fun m => hc (dec_digits b c m)) h
  exact ⟨dec_inj h1, h2⟩

set_option maxRecDepth 8000 in
theorem name_comma (p : Proto) (id : UInt32) (name : Bytes) (h : commandName p id = some name) : (0x2C : UInt8) ∉ name := by
  by_cases hid : id ∈ tableIds p
  · have all : ∀ p : Proto, ∀ id ∈ tableIds p, (match commandName p id with | some n => decide ((0x2C : UInt8) ∉ n) | none => true) = true := by
      intro p
      cases p <;> decide
    have := all p id hid
    rw [h] at this
    exact of_decide_eq_true this
  · rw [commandName_outside p id hid] at h
    injection h with h
    rw [← h]
    decide

/-- Commands with the same name: the same command, or two the protocol does not know. -/
theorem same_name (p : Proto) (a b : UInt32) (h : commandName p a = commandName p b) :
    a = b ∨ ¬ Spec.Known p a ∧ ¬ Spec.Known p b := by
  obtain ⟨n, h1, h2, h3⟩ := command_names p a
  obtain ⟨m, h4, h5, h6⟩ := command_names p b
  rw [h, h4] at h1
  injection h1 with h1
  subst h1
  by_cases hu : Gosms.Spec.IsUnknown m
  · exact .inr ⟨fun k => h3 k hu, fun k => h6 k hu⟩
  · exact .inl (command_names_distinct p a b m (by rw [h, h4]) h4 hu)

theorem ascii_append (a b : String) : ascii (a ++ b) = ascii a ++ ascii b := by simp [ascii]

theorem seq12_inj {a b c a' b' c' : UInt32} {x y : Bytes} (h : seq12 a b c ++ x = seq12 a' b' c' ++ y) :
    a = a' ∧ b = b' ∧ c = c' ∧ x = y := by
  have len : ∀ t : UInt32, (timeStamp2Str t).length = 10 := by
    intro t
    have := t.toNat_lt
    have hp := padLeft_dec 10 t.toNat (by decide) (by omega)
    unfold timeStamp2Str
    rw [hp.2, length_fixDec]
  have inj : ∀ s t : UInt32, timeStamp2Str s = timeStamp2Str t → s = t := by
    intro s t hst
    have hs := s.toNat_lt
    have ht := t.toNat_lt
    unfold timeStamp2Str at hst
    rw [(padLeft_dec 10 s.toNat (by decide) (by omega)).2, (padLeft_dec 10 t.toNat (by decide) (by omega)).2] at hst
    exact UInt32.toNat_inj.1 (fixDec_inj (by omega) (by omega) hst)
  unfold seq12 at h
  simp only [List.append_assoc] at h
  obtain ⟨h1, h⟩ := List.append_inj h (by rw [len, len])
  obtain ⟨h2, h⟩ := List.append_inj h (by rw [len, len])
  obtain ⟨h3, h⟩ := List.append_inj h (by rw [(uint32HexString_value c).1, (uint32HexString_value c').1])
  refine ⟨inj _ _ h1, inj _ _ h2, ?_, h⟩
  have e := (uint32HexString_value c).2
  rw [h3, (uint32HexString_value c').2] at e
  exact (UInt32.toNat_inj.1 (Option.some.inj e)).symm

/-! ## Headers -/

/-- The header of every SMGP packet prints, and the print tells which packet it is: its length, its sequence number and its command,
unless the protocol does not know the command. -/
theorem smgp_header_string (h h' : Header) :
    smgpHeader h ≠ none ∧
    (smgpHeader h = smgpHeader h' → h.totalLength = h'.totalLength ∧ h.sequenceId = h'.sequenceId ∧
      (h.commandId = h'.commandId ∨ ¬ Spec.Known .smgp h.commandId ∧ ¬ Spec.Known .smgp h'.commandId)) := by
  obtain ⟨n, hn, -, -⟩ := command_names .smgp h.commandId
  obtain ⟨n', hn', -, -⟩ := command_names .smgp h'.commandId
  have c := name_comma .smgp _ _ hn
  have c' := name_comma .smgp _ _ hn'
  have s := same_name .smgp h.commandId h'.commandId
  simp only [commandName] at hn hn' s
  unfold smgpHeader
  rw [hn, hn'] at *
  refine ⟨by simp, fun he => ?_⟩
  simp only [Option.map_some, Option.some.injEq, List.append_assoc] at he
  have he := List.append_cancel_left he
  rw [show ascii ", op: " = 0x2C :: ascii " op: " from rfl, List.cons_append, List.cons_append] at he
  obtain ⟨e1, he⟩ := dec_sep (by decide) he
  have he := List.append_cancel_left he
  rw [show ascii ", seq: " = 0x2C :: ascii " seq: " from rfl, List.cons_append, List.cons_append] at he
  obtain ⟨e2, he⟩ := sep_inj c c' he
  have he := List.append_cancel_left he
  rw [show ascii "}" = 0x7D :: [] from rfl] at he
  obtain ⟨e3, -⟩ := dec_sep (by decide) he
  exact ⟨UInt32.toNat_inj.1 e1, UInt32.toNat_inj.1 e3, s (by rw [e2])⟩

/-- The same for SGIP, whose sequence number has three words. -/
theorem sgip_header_string (h h' : SHeader) :
    sgipHeader h ≠ none ∧
    (sgipHeader h = sgipHeader h' → h.packetLength = h'.packetLength ∧
      h.seq0 = h'.seq0 ∧ h.seq1 = h'.seq1 ∧ h.seq2 = h'.seq2 ∧
      (h.commandId = h'.commandId ∨ ¬ Spec.Known .sgip h.commandId ∧ ¬ Spec.Known .sgip h'.commandId)) := by
  obtain ⟨n, hn, -, -⟩ := command_names .sgip h.commandId
  obtain ⟨n', hn', -, -⟩ := command_names .sgip h'.commandId
  have c := name_comma .sgip _ _ hn
  have c' := name_comma .sgip _ _ hn'
  have s := same_name .sgip h.commandId h'.commandId
  simp only [commandName] at hn hn' s
  unfold sgipHeader
  rw [hn, hn'] at *
  refine ⟨by simp, fun he => ?_⟩
  simp only [Option.map_some, Option.some.injEq, List.append_assoc] at he
  have he := List.append_cancel_left he
  rw [show ascii ", op: " = 0x2C :: ascii " op: " from rfl, List.cons_append, List.cons_append] at he
  obtain ⟨e1, he⟩ := dec_sep (by decide) he
  have he := List.append_cancel_left he
  rw [show ascii ", seq: " = 0x2C :: ascii " seq: " from rfl, List.cons_append, List.cons_append] at he
  obtain ⟨e2, he⟩ := sep_inj c c' he
  have he := List.append_cancel_left he
  obtain ⟨a1, a2, a3, -⟩ := seq12_inj he
  exact ⟨UInt32.toNat_inj.1 e1, a1, a2, a3, s (by rw [e2])⟩

example : smgpHeader ⟨12, Smgp.ACTIVE_TEST, 7⟩ = some (ascii "{pkl: 12, op: SMGP_ACTIVE_TEST, seq: 7}") := by
  simp [smgpHeader, dec]; decide

example : sgipHeader ⟨20, Sgip.UNBIND, 3, 1, 255⟩ =
    some (ascii "{pkl: 20, op: SGIP_UNBIND, seq: 00000000030000000001000000ff}") := by
  simp [sgipHeader, dec, seq12, timeStamp2Str]; decide

/-! ## Statuses -/

theorem textBytes_ne {s : String} (h : s ≠ "") : textBytes s ≠ [] := by
  unfold textBytes utf8
  intro he
  cases hl : s.toList with
  | nil => exact h (String.toList_eq_nil_iff.1 hl)
  | cons c cs =>
    rw [hl, List.flatMap_cons] at he
    have := List.append_eq_nil_iff.1 he
    have h1 := this.1
    unfold utf8Enc at h1
    split at h1
    · cases h1
    · split at h1
      · cases h1
      · split at h1 <;> cases h1

/-- Every status prints as its number, a colon and a text; different statuses print differently. -/
theorem status_string (t : Table) (n m : Nat) :
    (status t n).takeWhile (· ≠ 0x3A) = dec n ∧ dec n ++ ascii ": " <+: status t n ∧ (status t n = status t m → n = m) := by
  have hd : ∀ k, ∀ b ∈ dec k, (b ≠ (0x3A : UInt8)) := by
    intro k b hb e
    have := (dec_digits k b hb).2
    rw [e] at this
    exact absurd this (by decide)
  refine ⟨?_, ⟨_, rfl⟩, fun h => ?_⟩
  · unfold status
    rw [show ascii ": " = 0x3A :: ascii " " from rfl, List.append_assoc, List.cons_append,
      List.takeWhile_append_of_pos (by simpa using hd n)]
    simp
  · unfold status at h
    rw [show ascii ": " = 0x3A :: ascii " " from rfl, List.append_assoc, List.append_assoc, List.cons_append, List.cons_append] at h
    exact (dec_sep (by decide) h).1

theorem explained {t : Table} {n : Nat} {s : String} (h : (table t).lookup n = some s) (hs : s ≠ "") :
    Spec.Explained (status t n) n := ⟨_, textBytes_ne hs, by unfold status; rw [h]; rfl⟩

/-- Every status the server ever answers to a submit or a login is explained in words where it is printed or logged. -/
theorem server_statuses (md5 : Bytes → Bytes) (d : Draw) :
    (∀ (mt : Cmpp.Submit) f a rest, ServerTraffic.cmppSubmit d mt = Act.send f a :: rest →
      ∃ r : Cmpp.Rsp, r.encode = some f ∧ Spec.Explained (status .cmppSubmit r.result.toNat) r.result.toNat) ∧
    (∀ (mt : Smgp.Submit) f a rest, ServerTraffic.smgpSubmit d mt = Act.send f a :: rest →
      ∃ r : Smgp.Rsp, r.encode = some f ∧ Spec.Explained (status .smgp r.status.toNat) r.status.toNat) ∧
    (∀ (mt : Sgip.Submit) f a rest, ServerTraffic.sgipSubmit d mt = Act.send f a :: rest →
      ∃ r : Sgip.Rsp, r.encode = some f ∧ Spec.Explained (status .sgip r.status.toNat) r.status.toNat) ∧
    (∀ (l : Cmpp.Connect) f a rest, ServerTraffic.cmppConnect md5 d l = Act.send f a :: rest →
      ∃ r : Cmpp.ConnectResp, r.encode = some f ∧ Spec.Explained (status .cmppConnect r.status.toNat) r.status.toNat) ∧
    (∀ (l : Smgp.Login) f a rest, ServerTraffic.smgpLogin md5 d l = Act.send f a :: rest →
      ∃ r : Smgp.LoginRsp, r.encode = some f ∧ Spec.Explained (status .smgp r.status.toNat) r.status.toNat) ∧
    (∀ (l : Sgip.Bind) f a rest, ServerTraffic.sgipBind d l = Act.send f a :: rest →
      ∃ r : Sgip.Rsp, Sgip.bindRspEncode r = some f ∧ Spec.Explained (status .sgip r.status.toNat) r.status.toNat) := by
  have w : ∀ {fr : Option Bytes} {af a : ServerTraffic.After} {rs rest : List Act} {f : Bytes},
      ServerTraffic.write fr af rs = .send f a :: rest → fr = some f := by
    intro fr af a rs rest f h
    unfold ServerTraffic.write at h
    split at h
    · simp only [List.cons.injEq, Act.send.injEq] at h; rw [h.1.1]
    · cases h
  refine ⟨?_, ?_, ?_, ?_, ?_, ?_⟩
  · intro mt f a rest h
    unfold ServerTraffic.cmppSubmit ServerTraffic.respond at h
    split at h
    · exact ⟨_, w h, explained (s := "流量控制错") rfl (by decide)⟩
    · split at h
      · cases h
      · cases h
      · rename_i r _ hc _
        have hr : r = 0 := by
          unfold ServerTraffic.cmppCheck at hc
          cases hac : d.account with
          | none => rw [hac] at hc; cases hc
          | some ac => rw [hac] at hc; exact (Option.some.inj hc).symm
        subst hr
        refine ⟨_, w h, ?_⟩
        cases d.fail
        · exact explained (s := "正确") rfl (by decide)
        · exact explained (s := "流量控制错") rfl (by decide)
  · intro mt f a rest h
    unfold ServerTraffic.smgpSubmit ServerTraffic.respond at h
    split at h
    · exact ⟨_, w h, explained (s := "系统忙") rfl (by decide)⟩
    · split at h
      · cases h
      · cases h
      · rename_i r _ hc _
        have hr : r = 0 := by
          unfold ServerTraffic.smgpCheck at hc
          cases hac : d.account with
          | none => rw [hac] at hc; cases hc
          | some ac => rw [hac] at hc; exact (Option.some.inj hc).symm
        subst hr
        refine ⟨_, w h, ?_⟩
        cases d.fail
        · exact explained (s := "成功") rfl (by decide)
        · exact explained (s := "SP发送超过日流量") rfl (by decide)
  · intro mt f a rest h
    unfold ServerTraffic.sgipSubmit ServerTraffic.respond at h
    split at h
    · exact ⟨_, w h, explained (s := "短信中心队列满") rfl (by decide)⟩
    · split at h
      · cases h
      · cases h
      · rename_i r _ hc _
        have hr : r = 0 := by
          unfold ServerTraffic.sgipCheck at hc
          cases hac : d.account with
          | none => rw [hac] at hc; cases hc
          | some ac => rw [hac] at hc; exact (Option.some.inj hc).symm
        subst hr
        refine ⟨_, w h, ?_⟩
        cases d.fail
        · exact explained (s := "成功") rfl (by decide)
        · exact explained (s := "短信中心队列满") rfl (by decide)
  · intro l f a rest h
    unfold ServerTraffic.cmppConnect ServerTraffic.loginReply at h
    refine ⟨_, w h, ?_⟩
    have e : ∀ c : UInt8, c ∈ [(0 : UInt8), 2, 3, 4, 5] → Spec.Explained (status .cmppConnect c.toUInt32.toUInt8.toNat) c.toUInt32.toUInt8.toNat := by
      intro c hc
      have k : c.toUInt32.toUInt8 = c := by apply UInt8.toNat_inj.1; simp
      rw [k]
      simp only [List.mem_cons, List.not_mem_nil, or_false] at hc
      rcases hc with rfl | rfl | rfl | rfl | rfl
      · exact explained (s := "成功") rfl (by decide)
      · exact explained (s := "非法源地址") rfl (by decide)
      · exact explained (s := "认证错") rfl (by decide)
      · exact explained (s := "版本太高") rfl (by decide)
      · exact explained (s := "其他错误") rfl (by decide)
    have m : (l.check md5 (d.find l.sourceAddr)).1 ∈ [(0 : UInt8), 2, 3, 4, 5] := by
      unfold Cmpp.Connect.check
      split
      · simp
      · split
        · simp
        · split <;> simp
    unfold Cmpp.Connect.toResponse
    refine e _ ?_
    split
    · simp
    · exact m
  · intro l f a rest h
    unfold ServerTraffic.smgpLogin ServerTraffic.loginReply at h
    refine ⟨_, w h, ?_⟩
    have e : ∀ c : UInt32, c ∈ [(0 : UInt32), 2, 21, 22, 69] → Spec.Explained (status .smgp c.toNat) c.toNat := by
      intro c hc
      simp only [List.mem_cons, List.not_mem_nil, or_false] at hc
      rcases hc with rfl | rfl | rfl | rfl | rfl
      · exact explained (s := "成功") rfl (by decide)
      · exact explained (s := "超过最大连接数") rfl (by decide)
      · exact explained (s := "认证错") rfl (by decide)
      · exact explained (s := "版本太高") rfl (by decide)
      · exact explained (s := "非法SP企业代码（SPID）") rfl (by decide)
    have m : (l.check md5 (d.find l.clientID)).1 ∈ [(0 : UInt32), 2, 21, 22, 69] := by
      unfold Smgp.Login.check
      split
      · simp
      · split
        · simp
        · split <;> simp
    unfold Smgp.Login.toResponse
    refine e _ ?_
    split
    · simp
    · exact m
  · intro l f a rest h
    unfold ServerTraffic.sgipBind ServerTraffic.loginReply at h
    refine ⟨_, w h, ?_⟩
    have e : ∀ c : UInt8, c ∈ [(0 : UInt8), 1, 3] → Spec.Explained (status .sgip c.toUInt32.toUInt8.toNat) c.toUInt32.toUInt8.toNat := by
      intro c hc
      have k : c.toUInt32.toUInt8 = c := by apply UInt8.toNat_inj.1; simp
      rw [k]
      simp only [List.mem_cons, List.not_mem_nil, or_false] at hc
      rcases hc with rfl | rfl | rfl
      · exact explained (s := "成功") rfl (by decide)
      · exact explained (s := "非法登录, 如登录名、口令出错、登录名与口令不符等。") rfl (by decide)
      · exact explained (s := "连接过多, 指单个节点要求同时建立的连接数过多。") rfl (by decide)
    have m : l.check (d.find l.loginName) ∈ [(0 : UInt8), 1, 3] := by
      unfold Sgip.Bind.check
      split
      · simp
      · split <;> simp
    unfold Sgip.Bind.toResponse
    refine e _ ?_
    split
    · simp
    · exact m

example : ∃ f a rest, ServerTraffic.sgipBind {} {} = Act.send f a :: rest := ⟨_, _, _, rfl⟩

/-! ## SMGP packets -/

theorem header_value (h : Header) : ∃ b, smgpHeaderValue h = some b := by
  obtain ⟨n, hn, -, -⟩ := command_names .smgp h.commandId
  simp only [commandName] at hn
  exact ⟨_, by unfold smgpHeaderValue; rw [hn]; rfl⟩

/-- Logins, their responses, and responses to submits and deliveries always print; a delivery that carries a report if it says so
prints, and decoded ones do; a submit whose text is as long as it says prints, whatever lies behind its text in memory. -/
theorem packets_print_partial :
    (∀ l, smgpLogin l ≠ none) ∧ (∀ r, smgpLoginRsp r ≠ none) ∧ (∀ r, smgpRsp r ≠ none) ∧
    (∀ d : Smgp.Delivery, smgpDelivery d = none ↔ d.isReport = 1 ∧ d.report = none) ∧
    (∀ gbDec ver seq f d, Smgp.Delivery.decode gbDec ver seq f = some (some d) → smgpDelivery d ≠ none) ∧
    (∀ s tlvs extra, Gosms.Spec.Smgp.SubmitOk s tlvs → smgpSubmit s extra ≠ none) := by
  have hh : ∀ h, ∃ b, smgpHeader h = some b := fun h => Option.ne_none_iff_exists'.1 (smgp_header_string h h).1
  have dl : ∀ d : Smgp.Delivery, smgpDelivery d = none ↔ d.isReport = 1 ∧ d.report = none := by
    intro d
    obtain ⟨b, hb⟩ := header_value d.hdr
    unfold smgpDelivery smgpContent
    rw [hb]
    by_cases hr : d.isReport = 1
    · rw [if_pos hr]
      cases d.report with
      | none => simp [hr]
      | some r => simp
    · rw [if_neg hr]; simp [hr]
  refine ⟨?_, ?_, ?_, dl, ?_, ?_⟩
  · intro l; obtain ⟨b, hb⟩ := hh l.hdr; unfold smgpLogin; rw [hb]; simp
  · intro l; obtain ⟨b, hb⟩ := hh l.hdr; unfold smgpLoginRsp; rw [hb]; simp
  · intro l; obtain ⟨b, hb⟩ := hh l.hdr; unfold smgpRsp; rw [hb]; simp
  · intro gbDec ver seq f d h hn
    obtain ⟨h1, h2⟩ := (dl d).1 hn
    have := Logging.smgp_deliver_report h h1
    rw [h2] at this
    cases this
  · intro s tlvs extra hok
    obtain ⟨b, hb⟩ := hh s.hdr
    unfold smgpSubmit shown
    rw [hb]
    by_cases h6 : s.msgLength > 6
    · have h7 : 6 < s.msgLength.toNat := UInt8.lt_iff_toNat_lt.1 h6
      have := hok.content
      rw [if_pos h6, if_pos (by omega)]
      simp
    · rw [if_neg h6]; simp

/-- The submits the library makes print. -/
theorem new_submits_print (gbEnc : Bytes → Option Bytes) (ac : AuthConf) (phones : List Bytes)
    (content data : Bytes) (seq : UInt32) (opts : List OptionFunc) (g : UInt8) (clock : Clock)
    (seqs : Nat → UInt32) (hp : phones.length ≤ 255) (hgb : gbEnc content = some data) :
    ∃ msgs, Smgp.newSubmit gbEnc ac phones content seq opts g clock seqs = some msgs ∧ msgs ≠ [] ∧
      ∀ m ∈ msgs, ∀ extra, smgpSubmit m extra ≠ none := by
  obtain ⟨msgs, slices, h1, -, h3, h4, h5⟩ := Smgp.smgp_newSubmit gbEnc ac phones content data seq opts g clock seqs hp hgb
  refine ⟨msgs, h1, ?_, fun m hm extra => ?_⟩
  · intro e; rw [e] at h4; exact h3 (List.length_eq_zero_iff.1 h4.symm)
  · obtain ⟨i, hi, rfl⟩ := List.getElem_of_mem hm
    exact packets_print_partial.2.2.2.2.2 _ _ extra (h5 i hi (h4 ▸ hi)).1

/-- The full statement fails: a part of a long message with at most five characters, as the last part may be, arrives and is decoded,
and then cannot be printed: the text was cut free of its six bytes of part number, and the length was not. -/
theorem short_part_prints_fails (gbDec : Bytes → Option Bytes) (s : Smgp.Submit)
    (tlvs : List (UInt16 × Bytes)) (spare body text : Bytes) (g t n : UInt8)
    (hok : Gosms.Spec.Smgp.SubmitOk s tlvs) (hfit : Gosms.Spec.Smgp.SubmitFits s)
    (htl : s.tlvList = some (tlvBuild tlvs)) (hlt : ∀ tv ∈ tlvs, tv.2.length < 65536)
    (hb : s.msgContent = Gosms.Spec.udhHeader g t n ++ body) (hne : body ≠ []) (hg : gbDec body = some text)
    (h6 : text.length < 6) :
    ∃ frame s', s.encode = some frame ∧ recv (Smgp.Submit.decode gbDec s.version) frame spare = some s' ∧ s'.msgContent = text ∧
      smgpSubmit s' [] = none := by
  obtain ⟨frame, h1, -, h3⟩ := Smgp.smgp_submit_long_text gbDec s tlvs spare body text g t n hok hfit htl hlt hb hg
  refine ⟨frame, _, h1, h3, rfl, ?_⟩
  have hl : 6 < s.msgLength.toNat := by
    rw [← hok.content, hb, List.length_append]
    have : (Gosms.Spec.udhHeader g t n).length = 6 := rfl
    have := List.length_pos_iff.2 hne
    omega
  have hs : shown { s with hdr := ⟨s.hdr.totalLength, 2, s.hdr.sequenceId⟩, msgContent := text } [] = none := by
    unfold shown
    rw [if_pos (show (6 : UInt8) < s.msgLength from UInt8.lt_iff_toNat_lt.2 hl), if_neg (by simp; omega)]
  unfold smgpSubmit
  rw [hs]
  cases smgpHeader _ <;> rfl

example : Smgp.exampleSlice.msgContent = Gosms.Spec.udhHeader 1 2 1 ++ ascii "ab" ∧ ascii "ab" ≠ [] ∧ (ascii "ab").length < 6 := by
  decide

/-- Of the text of a submit the print shows the first six bytes at most. -/
theorem submit_text_hidden (s : Smgp.Submit) (text : Bytes) (e e' : Bytes)
    (h6 : 6 < s.msgLength) (hl : 6 ≤ s.msgContent.length) (hl' : 6 ≤ text.length) (ht : s.msgContent.take 6 = text.take 6) :
    smgpSubmit s e = smgpSubmit { s with msgContent := text } e' := by
  have hs : shown s e = some (s.msgContent.take 6) := by
    unfold shown
    rw [if_pos h6, if_pos (by omega), List.take_append_of_le_length hl]
  have hs' : shown { s with msgContent := text } e' = some (s.msgContent.take 6) := by
    unfold shown
    rw [if_pos h6, if_pos (by show 6 ≤ text.length + _; omega)]
    show some ((text ++ e').take 6) = _
    rw [List.take_append_of_le_length hl', ht]
  unfold smgpSubmit
  rw [hs, hs']

/-- It fails for deliveries: the print of a delivery shows its whole text. Two that differ in a text without line ends
print differently. -/
theorem delivery_text_hidden_fails (d : Smgp.Delivery) (text : Bytes) (hr : d.isReport ≠ 1)
    (hn : (0x0A : UInt8) ∉ d.msgContent) (hn' : (0x0A : UInt8) ∉ text) (hne : text ≠ d.msgContent) :
    smgpDelivery d ≠ smgpDelivery { d with msgContent := text } := by
  obtain ⟨b, hb⟩ := header_value d.hdr
  have id' : ∀ l : Bytes, (0x0A : UInt8) ∉ l → l.map (fun (b : UInt8) => if b = 0x0A then (0x20 : UInt8) else b) = l := by
    intro l hl
    conv => rhs; rw [← List.map_id l]
    exact List.map_congr_left fun x hx => if_neg (fun (e : x = 0x0A) => hl (e ▸ hx))
  obtain ⟨pre, post, key⟩ : ∃ pre post : Bytes, ∀ c : Bytes, (0x0A : UInt8) ∉ c →
      smgpDelivery { d with msgContent := c } = some (pre ++ (c ++ post)) := by
    refine ⟨ascii "{ header: " ++ b ++ ascii ", msgId: " ++ hex d.msgId ++ ascii ", isReport: " ++ dec d.isReport.toNat ++
      ascii ", msgFormat: " ++ dec d.msgFormat.toNat ++ ascii ", recvTime: " ++ d.recvTime ++ ascii ", SrcTermID: " ++
      d.srcTermID ++ ascii ", destTermID: " ++ d.destTermID ++ ascii ", msgLength: " ++ dec d.msgLength.toNat ++
      ascii ", msgContent: \"", ascii "\", reserve: " ++ d.reserve ++ ascii ", tlv: " ++ tlvListString none ++ ascii " }",
      fun c hc => ?_⟩
    have e : smgpContent { d with msgContent := c } = some c := by
      unfold smgpContent
      rw [if_neg hr]
      show some (c.map _) = some c
      rw [id' c hc]
    unfold smgpDelivery
    rw [e]
    show (smgpHeaderValue d.hdr).bind _ = _
    rw [hb]
    simp only [Option.bind_some, List.append_assoc]
    rfl
  have k1 : smgpDelivery d = _ := key d.msgContent hn
  rw [k1, key text hn']
  intro he
  injection he with he
  exact hne (List.append_cancel_right (List.append_cancel_left he)).symm

example : smgpDelivery { msgContent := ascii "secret" } ≠ none := by
  simp [smgpDelivery, smgpContent, smgpHeaderValue, Smgp.commandName]

/-! ## Id generators -/

theorem hexVal_zeros (n : Nat) (l : Bytes) : Gosms.Spec.hexVal (List.replicate n 0x30 ++ l) = Gosms.Spec.hexVal l := by
  induction n with
  | zero => rfl
  | succ n ih => rw [List.replicate_succ, List.cons_append, ← ih]; rfl

theorem hexVal_drop (l : Bytes) : Gosms.Spec.hexVal (l.dropWhile (· == 0x30)) = Gosms.Spec.hexVal l := by
  induction l with
  | nil => rfl
  | cons b l ih =>
    by_cases hb : b = 0x30
    · subst hb
      rw [List.dropWhile_cons_of_pos (by simp), ih]
      exact (hexVal_zeros 1 l).symm
    · rw [List.dropWhile_cons_of_neg (by simpa using hb)]

theorem hexNum_value (l : Bytes) : Gosms.Spec.hexVal (hexNum l) = Gosms.Spec.hexVal l := by
  rw [← hexVal_drop l]
  unfold hexNum
  split
  · rename_i h; rw [h]; rfl
  · rfl

theorem hexNum_length (l : Bytes) (h : l ≠ []) : (hexNum l).length ≤ l.length := by
  unfold hexNum
  split
  · have := List.length_pos_iff.2 h; simp; omega
  · exact (List.dropWhile_sublist _).length_le

theorem hexInt_value (n : Nat) (i : Int) (h0 : 0 ≤ i) (hn : 0 < n) (hi : i.natAbs < 16 ^ n) :
    (hexInt n i).length = n ∧ Gosms.Spec.hexVal (hexInt n i) = some i.natAbs := by
  have hl : (hexNum (hexLoop i.natAbs (n - 1))).length ≤ n := by
    have h1 : (hexLoop i.natAbs (n - 1)).length = n := by rw [length_hexLoop]; omega
    have := hexNum_length (hexLoop i.natAbs (n - 1)) (by intro e; rw [e] at h1; simp at h1; omega)
    omega
  unfold hexInt
  simp only
  rw [if_neg (by omega)]
  refine ⟨by rw [List.length_append, List.length_replicate]; omega, ?_⟩
  rw [hexVal_zeros, hexNum_value, Gosms.Spec.hexVal, hexVal_hexLoop, show n - 1 + 1 = n by omega, Nat.mod_eq_of_lt hi]
  simp

theorem toInt_of_pos {w : Nat} {x : BitVec w} (h : x.msb = false) : x.toInt = x.toNat := by
  rw [BitVec.toInt_eq_msb_cond, h]; rfl

/-- After a 64-bit id was handed out, the generator prints that id: sixteen hexadecimal digits of its value. (An id of 0 tells that
the clock is beyond the range.) -/
theorem snowflake_string (s s' : Snowflake) (clock clock' : List Int) (id : BitVec 64)
    (h : s.nextVal clock = some ((id, s'), clock')) (h0 : id ≠ 0) (hpos : id.msb = false) :
    (snowflake s').length = 16 ∧ Gosms.Spec.hexVal (snowflake s') = some id.toNat := by
  have fin : ∀ now q, s.finish now q = (id, s') → snowflake s' = hexInt 16 id.toInt := by
    intro now q hf
    unfold Snowflake.finish at hf
    simp only at hf
    split at hf
    · exact absurd (Prod.mk.inj hf).1.symm h0
    · obtain ⟨e1, e2⟩ := Prod.mk.inj hf
      subst e1 e2
      rfl
  have e : snowflake s' = hexInt 16 id.toInt := by
    unfold Snowflake.nextVal at h
    split at h
    · cases h
    · split at h
      · simp only at h
        split at h
        · obtain ⟨w, -, hw⟩ := Option.map_eq_some_iff.1 h
          exact fin _ _ (Prod.mk.inj hw).1
        · exact fin _ _ (Prod.mk.inj (Option.some.inj h)).1
      · exact fin _ _ (Prod.mk.inj (Option.some.inj h)).1
  have hlt := id.isLt
  have := hexInt_value 16 id.toInt (by rw [toInt_of_pos hpos]; omega) (by decide)
    (by rw [toInt_of_pos hpos, Int.natAbs_natCast]; omega)
  rw [e]
  rw [toInt_of_pos hpos, Int.natAbs_natCast] at this
  rw [toInt_of_pos hpos]
  exact this

/-- The same for 32-bit ids: eight digits. -/
theorem snowflake32_string (s s' : Snowflake32) (clock clock' : List Int) (id : BitVec 32)
    (h : s.nextVal clock = some ((id, s'), clock')) (hpos : id.msb = false) :
    (snowflake32 s').length = 8 ∧ Gosms.Spec.hexVal (snowflake32 s') = some id.toNat := by
  have fin : ∀ now q, s.finish now q = (id, s') → snowflake32 s' = hexInt 8 id.toInt := by
    intro now q hf
    unfold Snowflake32.finish at hf
    obtain ⟨e1, e2⟩ := Prod.mk.inj hf
    subst e1 e2
    rfl
  have e : snowflake32 s' = hexInt 8 id.toInt := by
    unfold Snowflake32.nextVal at h
    split at h
    · cases h
    · split at h
      · simp only at h
        split at h
        · obtain ⟨w, -, hw⟩ := Option.map_eq_some_iff.1 h
          exact fin _ _ (Prod.mk.inj hw).1
        · exact fin _ _ (Prod.mk.inj (Option.some.inj h)).1
      · exact fin _ _ (Prod.mk.inj (Option.some.inj h)).1
  have hlt := id.isLt
  have := hexInt_value 8 id.toInt (by rw [toInt_of_pos hpos]; omega) (by decide)
    (by rw [toInt_of_pos hpos, Int.natAbs_natCast]; omega)
  rw [e]
  rw [toInt_of_pos hpos, Int.natAbs_natCast] at this
  rw [toInt_of_pos hpos]
  exact this

/-- It fails for a generator that has handed out no id yet: whatever its node, it prints a negative number, which no id is. -/
theorem fresh_snowflake_string_fails (d w : BitVec 64) : (snowflake (newSnowflake d w)).head? = some 0x2D := by
  have hneg : ∀ x : BitVec 64, x.msb = true → (hexInt 16 x.toInt).head? = some 0x2D := by
    intro x hx
    have hlt := x.isLt
    unfold hexInt
    simp only
    rw [if_pos (by rw [BitVec.toInt_eq_msb_cond, hx]; simp; omega)]
    rfl
  unfold snowflake newSnowflake
  apply hneg
  simp only [BitVec.msb_or]
  have : (BitVec.ofInt 64 (0 - sfEpoch) <<< 22).msb = true := by decide
  rw [this]
  rfl

example : ∃ id s', (newSnowflake 1 2).nextVal [1600000000000] = some ((id, s'), []) ∧ id ≠ 0 ∧ id.msb = false :=
  ⟨_, _, rfl, by decide, by decide⟩

/-- The cyclic generator prints its node and how often it was used since the last round: the three numbers of the ids. -/
theorem cycle_string (d w : BitVec 32) (s : CycleSeq) (hs : s.datacenter = d ∧ s.worker = w) :
    cycleSeq s.nextVal.2 = decInt d.toInt ++ ascii ":" ++ decInt w.toInt ++ ascii ":" ++
      dec ((s.sequence.toNat + 1) % 2 ^ 26) := by
  obtain ⟨rfl, rfl⟩ := hs
  have hv : ((s.sequence + 1) &&& 0x03ffffff#32).toNat = (s.sequence.toNat + 1) % 2 ^ 26 := by
    rw [BitVec.toNat_and, BitVec.toNat_add, show (0x03ffffff#32).toNat = 2 ^ 26 - 1 from rfl, Nat.and_two_pow_sub_one_eq_mod]
    show (s.sequence.toNat + 1) % 2 ^ 32 % 2 ^ 26 = _
    omega
  have hp : ((s.sequence + 1) &&& 0x03ffffff#32).msb = false := by
    rw [BitVec.msb_and]
    have : (0x03ffffff#32).msb = false := by decide
    rw [this, Bool.and_false]
  unfold cycleSeq CycleSeq.nextVal
  simp only
  congr 1
  unfold decInt
  rw [toInt_of_pos hp, if_neg (by omega), Int.natAbs_natCast, hv]

example : cycleSeq (newCycleSequence 1 2).nextVal.2 = ascii "1:2:1" := by
  simp [cycleSeq, newCycleSequence, CycleSeq.nextVal, decInt, dec]; decide

end Gosms.Printing
