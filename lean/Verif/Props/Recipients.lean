import Verif.Props.TextArrives
import Verif.Props.SmgpDeliver
import Verif.Model.ServerTraffic

/-!
# C136: everybody a message is sent to is accounted for

A submit may name up to 255 recipients. What the sender's record says about them, and who is named in the status reports.
-/

namespace Gosms

namespace Spec

/-- The parts of a text between commas. -/
def commaParts : Bytes → List Bytes
  | [] => [[]]
  | b :: r =>
    if b = 0x2C then [] :: commaParts r
    else match commaParts r with
      | [] => [[b]]
      | p :: ps => (b :: p) :: ps

example : commaParts (ascii "1,22,3") = [ascii "1", ascii "22", ascii "3"] ∧ commaParts (ascii "7") = [ascii "7"] := by decide

/-- The packets a handler sends as status reports. -/
def reports (acts : List ServerTraffic.Act) : List Bytes :=
  acts.filterMap fun | .send f .rpt => some f | _ => none

theorem reports_respond (frame : Option Bytes) (result : UInt32) (rest : List ServerTraffic.Act) :
    reports (ServerTraffic.respond frame result rest) = match frame with | some _ => reports rest | none => [] := by
  unfold ServerTraffic.respond ServerTraffic.write
  cases frame with
  | none => rfl
  | some f =>
    unfold reports
    by_cases h : result = 0 <;> simp [h]

end Spec

theorem commaParts_single (p : Bytes) (h : (0x2C : UInt8) ∉ p) : Spec.commaParts p = [p] := by
  induction p with
  | nil => rfl
  | cons b p ih =>
    simp only [List.mem_cons, not_or] at h
    rw [Spec.commaParts, if_neg (fun e => h.1 e.symm), ih h.2]

theorem commaParts_append (p r : Bytes) (h : (0x2C : UInt8) ∉ p) :
    Spec.commaParts (p ++ 0x2C :: r) = p :: Spec.commaParts r := by
  induction p with
  | nil => rw [List.nil_append, Spec.commaParts, if_pos rfl]
  | cons b p ih =>
    simp only [List.mem_cons, not_or] at h
    rw [List.cons_append, Spec.commaParts, if_neg (fun e => h.1 e.symm), ih h.2]

theorem commaParts_join (ps : List Bytes) (hne : ps ≠ []) (h : ∀ p ∈ ps, (0x2C : UInt8) ∉ p) :
    Spec.commaParts (Cmpp.joinComma ps) = ps := by
  induction ps with
  | nil => exact absurd rfl hne
  | cons p ps ih =>
    cases ps with
    | nil => exact commaParts_single p (h p (by simp))
    | cons q qs =>
      rw [Cmpp.joinComma, List.append_assoc, List.singleton_append, commaParts_append _ _ (h p (by simp)),
        ih (by simp) (fun x hx => h x (by simp [hx]))]
      simp

namespace Cmpp

/-- **C136: the record of every packet a client makes lists the recipients**, all of them, in order and as they were given, separated by commas (which no number
has). -/
theorem cmpp_recipients_listed (ac : AuthConf) (phones : List Bytes) (content : Bytes) (seq : UInt32) (opts : List OptionFunc) (g : UInt8)
    (expiry : Clock) (seqs : Nat → UInt32) (msgs : List Submit) (h : newSubmit ac phones content seq opts g expiry seqs = some msgs)
    (hne : phones ≠ []) (hc : ∀ p ∈ phones, (0x2C : UInt8) ∉ p) :
    ∀ m ∈ msgs, Spec.commaParts m.destTerminalId = phones := by
  intro m hm
  have : m.destTerminalId = joinComma phones := by
    unfold newSubmit at h
    simp only [Option.bind_eq_some_iff, Option.map_eq_some_iff] at h
    obtain ⟨_, _, slices, _, rfl⟩ := h
    split at hm
    · simp only [List.mem_singleton] at hm
      subst hm; rfl
    · rw [List.mem_mapIdx] at hm
      obtain ⟨i, hi, rfl⟩ := hm
      rfl
  rw [this, commaParts_join phones hne hc]

theorem takeWhile_phone {w : Nat} {p r : Bytes} (h0 : (0 : UInt8) ∉ p) (hl : p.length < w) :
    (pad w p ++ r).takeWhile (· ≠ 0) = p := by
  have e : pad w p ++ r = p ++ (0 :: (zeros (w - p.length - 1) ++ r)) := by
    rw [pad_of_le (Nat.le_of_lt hl)]
    have : zeros (w - p.length) = 0 :: zeros (w - p.length - 1) := by
      obtain ⟨k, hk⟩ : ∃ k, w - p.length = k + 1 := ⟨w - p.length - 1, by omega⟩
      rw [hk]; rfl
    rw [this]
    simp
  rw [e, List.takeWhile_append_of_pos (fun x hx => by simp; rintro rfl; exact h0 hx)]
  simp

theorem slot_fits21 (s : Bytes) : Spec.Fits 21 (Spec.slot 21 s) := by
  unfold Spec.Fits Spec.slot
  refine ⟨Nat.le_trans (List.takeWhile_prefix _).length_le (by rw [List.length_take]; omega), fun h => ?_⟩
  have := List.all_takeWhile (p := fun x : UInt8 => decide (x ≠ 0)) (l := s.take 21)
  rw [List.all_eq_true] at this
  have := this 0 h
  simp at this

/-- The handler of a CMPP submit sends at most one report, and it is the one of `ToDeliveryReport`. -/
theorem reports_of_submit (d : ServerTraffic.Draw) (mt : Submit) :
    Spec.reports (ServerTraffic.cmppSubmit d mt) = [] ∨
    ∃ f, (mt.toDeliveryReport (mt.toResponse 0 d.id).msgId d.rptSeq d.rptId d.smsc d.subTime d.doneTime).encode d.g = some f ∧
      Spec.reports (ServerTraffic.cmppSubmit d mt) = [f] := by
  unfold ServerTraffic.cmppSubmit
  split
  · rw [Spec.reports_respond]; split <;> exact Or.inl rfl
  · split
    · exact Or.inl rfl
    · exact Or.inl rfl
    · rename_i r _ hc _
      have hr0 : r = 0 := by
        unfold ServerTraffic.cmppCheck at hc
        cases ha : d.account with
        | none => rw [ha] at hc; cases hc
        | some a => rw [ha] at hc; injection hc with hc; exact hc.symm
      subst hr0
      simp only
      rw [Spec.reports_respond]
      split
      · by_cases hf : d.fail = true
        · simp only [hf, if_true]; exact Or.inl rfl
        · simp only [hf, if_false, if_true, Bool.false_eq_true]
          unfold ServerTraffic.cmppReport ServerTraffic.write
          split
          · exact Or.inl rfl
          · split
            · rename_i f he
              exact Or.inr ⟨f, he, rfl⟩
            · exact Or.inl rfl
      · exact Or.inl rfl

/-- **C136 fails for CMPP.** Of a message to several numbers, in whatever packets it is sent, only the first number is ever reported on: the handling of each packet sends at most
one report, and that names the first number. -/
theorem cmpp_first_recipient_only_fails (ac : AuthConf) (first : Bytes) (others : List Bytes) (content : Bytes) (seq : UInt32)
    (opts : List OptionFunc) (g : UInt8) (expiry : Clock) (seqs : Nat → UInt32)
    (hp : (first :: others).length ≤ if Spec.major ac.version = 3 then 255 else 12) (hfirst : (0 : UInt8) ∉ first) (hlen : first.length < 21)
    (msgs : List Submit) (hm : newSubmit ac (first :: others) content seq opts g expiry seqs = some msgs) (m : Submit) (hmem : m ∈ msgs)
    (frame spare : Bytes) (he : m.encode = some frame) (r : Submit) (hrecv : recv (Submit.decode ac.version) frame spare = some r)
    (d : ServerTraffic.Draw) :
    (Spec.reports (ServerTraffic.cmppSubmit d r)).length ≤ 1 ∧
    ∀ f ∈ Spec.reports (ServerTraffic.cmppSubmit d r), ∀ spare', ∃ dl rep, recv (Delivery.decode ac.version) f spare' = some dl ∧
      dl.report = some rep ∧ rep.destTerminalId = first ∧ ∀ o ∈ others, o ≠ first → rep.destTerminalId ≠ o := by
  have hp' : (first :: others).length ≤ 255 := by split at hp <;> omega
  obtain ⟨msgs', slices, h1, _, h3, h4⟩ := cmpp_newSubmit ac (first :: others) content seq opts g expiry seqs hp'
  obtain rfl := Option.some.inj (h1.symm.trans hm)
  obtain ⟨i, hi, rfl⟩ := List.getElem_of_mem hmem
  obtain ⟨hok, hv, _, _, hti, hn, _⟩ := h4 i hi (by omega)
  have hw : Spec.major msgs'[i].version = 3 ∨ msgs'[i].destUsrTl.toNat ≤ 12 := by
    rw [hv, hn]
    by_cases h : Spec.major ac.version = 3
    · exact Or.inl h
    · rw [if_neg h] at hp; exact Or.inr hp
  have hwidth : 21 ≤ Spec.Cmpp.numberWidth ac.version := by unfold Spec.Cmpp.numberWidth; split <;> omega
  have hdest : (Spec.Cmpp.submitReceived msgs'[i]).destTerminalId = first := by
    show msgs'[i].termIds.takeWhile (· ≠ 0) = first
    rw [hti, List.flatMap_cons]
    exact takeWhile_phone hfirst (by omega)
  have hr : r.destTerminalId = first ∧ r.version = ac.version ∧ Spec.Fits 21 r.srcId := by
    obtain ⟨f', e1, e2, e3, e4⟩ := cmpp_submit_content_exactly msgs'[i] spare hok hw
    obtain rfl := Option.some.inj (e1.symm.trans he)
    rw [hv] at e2 e3 e4
    rcases (content_cases msgs'[i].msgContent).1 with h | h | h
    · rw [e2 h, Option.some.injEq] at hrecv
      subst hrecv
      exact ⟨hdest, hv, slot_fits21 _⟩
    · rw [e3 h, Option.some.injEq] at hrecv
      subst hrecv
      exact ⟨hdest, hv, slot_fits21 _⟩
    · rw [e4 h] at hrecv; cases hrecv
  rcases reports_of_submit d r with h | ⟨f, hf, h⟩
  · rw [h]; exact ⟨by simp, fun f hf => absurd hf (by simp)⟩
  · rw [h]
    refine ⟨Nat.le_refl 1, fun f' hf' spare' => ?_⟩
    rw [List.mem_singleton] at hf'
    subst hf'
    obtain ⟨_, _, f', dl, rep, _, _, _, _, _, e6, e7, _, e9, _, _, e12, _⟩ := cmpp_report_tied r (r.toResponse 0 d.id).msgId d.rptSeq d.smsc d.rptId
      d.subTime d.doneTime d.g spare' [] (by rw [hr.1]; exact ⟨by omega, hfirst⟩) hr.2.2
    obtain rfl := Option.some.inj (e6.symm.trans hf)
    rw [hr.2.1] at e7
    rw [hr.1] at e12
    exact ⟨dl, rep, e7, e9, e12, fun o _ ho => by rw [e12]; exact fun e => ho e.symm⟩

/-- Two numbers that meet the hypotheses: the client makes one packet of it, the server reads it and reports on the first number. -/
example : ((newSubmit { clientId := ascii "123456", version := 0x20 } [ascii "13800138000", ascii "13900139000"] (ascii "hello") 7 [] 0
      ⟨2026, 1, 1, 0, 0, 0⟩ (fun _ => 8)).bind fun msgs => msgs.head?.bind fun m => m.encode.bind fun frame =>
        (recv (Submit.decode 0x20) frame []).map fun r =>
          (msgs.length, Spec.commaParts m.destTerminalId, r.destTerminalId, (Spec.reports (ServerTraffic.cmppSubmit { account := some {} } r)).length)) =
    some (1, [ascii "13800138000", ascii "13900139000"], ascii "13800138000", 1) := by
  decide +kernel

end Cmpp

namespace Smgp

/-- **C136 fails for SMGP.** Whatever numbers a submit that the server reads names, only the first is ever reported on. -/
theorem smgp_first_recipient_only_fails (gbDec : Bytes → Option Bytes) (ac : AuthConf) (mt : Submit) (first : Bytes) (others : List Bytes)
    (hdest : mt.destTermID = first :: others) (hfirst : Spec.Fits 21 first) (d : ServerTraffic.Draw) (hconf : d.conf = some ac)
    (hid : d.bcd.length = 10) (hnext : d.rptBcd.length = 10) :
    (Spec.reports (ServerTraffic.smgpSubmit d mt)).length ≤ 1 ∧
    ∀ f ∈ Spec.reports (ServerTraffic.smgpSubmit d mt), ∀ spare, ∃ dl, recv (Delivery.decode gbDec ac.version) f spare = some (some dl) ∧
      dl.isReport = 1 ∧ dl.srcTermID = first ∧ ∀ o ∈ others, o ≠ first → dl.srcTermID ≠ o := by
  have key : Spec.reports (ServerTraffic.smgpSubmit d mt) = [] ∨
      ∃ f, (newDeliveryReport ac mt d.rptSeq d.bcd d.rptBcd d.clock d.subClock d.doneClock d.unix).bind (·.encode) = some f ∧
        Spec.reports (ServerTraffic.smgpSubmit d mt) = [f] := by
    unfold ServerTraffic.smgpSubmit
    split
    · rw [Spec.reports_respond]; split <;> exact Or.inl rfl
    · split
      · exact Or.inl rfl
      · exact Or.inl rfl
      · rename_i r _ hc _
        have hr0 : r = 0 := by
          unfold ServerTraffic.smgpCheck at hc
          cases ha : d.account with
          | none => rw [ha] at hc; cases hc
          | some a => rw [ha] at hc; injection hc with hc; exact hc.symm
        subst hr0
        simp only
        rw [Spec.reports_respond]
        split
        · by_cases hf : d.fail = true
          · simp only [hf, if_true]; exact Or.inl rfl
          · simp only [hf, if_false, if_true, Bool.false_eq_true]
            unfold ServerTraffic.smgpReport ServerTraffic.write
            rw [hconf]
            split
            · exact Or.inl rfl
            · simp only
              split
              · rename_i f he
                exact Or.inr ⟨f, he, rfl⟩
              · exact Or.inl rfl
        · exact Or.inl rfl
  rcases key with h | ⟨f, hf, h⟩
  · rw [h]; exact ⟨by simp, fun f hf => absurd hf (by simp)⟩
  · rw [h]
    refine ⟨Nat.le_refl 1, fun f' hf' spare => ?_⟩
    rw [List.mem_singleton] at hf'
    subst hf'
    obtain ⟨dl, fr, r, rep, e1, e2, _, e4, e5, _, _, e8, _⟩ := smgp_newDeliveryReport gbDec ac mt d.rptSeq d.bcd d.rptBcd d.clock d.subClock d.doneClock
      d.unix spare hid hnext (by rw [hdest]; simp)
    rw [e1, Option.bind_some, e2, Option.some.injEq] at hf
    subst hf
    have e : r.srcTermID = first := by
      rw [e8]
      simp only [hdest, List.head_cons]
      exact Spec.slot_fits hfirst
    exact ⟨r, e4, e5, e, fun o _ ho => by rw [e]; exact fun h => ho h.symm⟩

/-- Three numbers, of which the first is reported on. -/
example : (Spec.reports (ServerTraffic.smgpSubmit
    { account := some {}, conf := some { clientId := ascii "123456" }, bcd := zeros 10, rptBcd := zeros 10 }
    { destTermID := [ascii "13800138000", ascii "13900139000", ascii "13700137000"] })).length = 1 := by
  decide +kernel

end Smgp

namespace Sgip

/-- **C136 fails for SGIP.** No number is ever reported on. -/
theorem sgip_no_recipient_fails (d : ServerTraffic.Draw) (mt : Submit) : Spec.reports (ServerTraffic.sgipSubmit d mt) = [] := by
  unfold ServerTraffic.sgipSubmit
  split
  · rw [Spec.reports_respond]; split <;> rfl
  · split
    · rfl
    · rfl
    · simp only
      rw [Spec.reports_respond]; split <;> rfl

example : (ServerTraffic.sgipSubmit { account := some {} } { userNumber := [ascii "8613800138000", ascii "8613900139000"] }).length = 1 := by
  decide

end Sgip

end Gosms
