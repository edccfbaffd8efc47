import Verif.Spec.Terms
import Verif.Props.Options
import Verif.Props.SubmitContent
import Verif.Props.TextArrives
import Verif.Props.Shipped

/-!
# C138: the gateway reads the terms on which a text is sent

Options and account (C51) through encoder and decoder (C27, C28, C34, C38): what the receiving side reads in each packet of a text.
-/

namespace Gosms
open Spec (Opt Terms Billing asked askedBilling)

/-- A text arrives in a field exactly if it fits. -/
theorem slot_eq_iff (n : Nat) (s : Bytes) : Spec.slot n s = s ↔ Spec.Fits n s := by
  refine ⟨fun h => ⟨?_, ?_⟩, Spec.slot_fits⟩
  · have h1 : (Spec.slot n s).length ≤ n := by
      unfold Spec.slot
      exact Nat.le_trans (List.takeWhile_sublist _).length_le (by simp; omega)
    rwa [h] at h1
  · intro hz
    rw [← h] at hz
    unfold Spec.slot at hz
    have := List.all_takeWhile (p := fun x : UInt8 => decide (x ≠ 0)) (l := s.take n)
    rw [List.all_eq_true] at this
    simpa using this 0 hz

namespace Cmpp

/-- The terms the gateway reads in a submit. -/
def termsOf (r : Submit) : Terms :=
  { shown := r.srcId, service := r.serviceId, report := r.registeredDel, priority := r.msgLevel, validUntil := r.validTime, sendAt := r.atTime }

/-- The billing the gateway reads in a submit. -/
def billingOf (r : Submit) : Billing := { payer := r.feeTerminalId, feeType := r.feeType, feeCode := r.feeCode }

theorem received (ac : AuthConf) (phones : List Bytes) (content : Bytes) (seq : UInt32) (opts : List OptionFunc) (g : UInt8) (expiry : Clock)
    (seqs : Nat → UInt32) (hp : phones.length ≤ if Spec.major ac.version = 3 then 255 else 12) (msgs : List Submit)
    (h : newSubmit ac phones content seq opts g expiry seqs = some msgs) (m : Submit) (hm : m ∈ msgs) :
    m.version = ac.version ∧ m.msgSrc = ac.smsDisplayNo ∧ ∃ frame, m.encode = some frame ∧
      ∀ spare, (Spec.Torn m.msgContent ∧ recv (Submit.decode ac.version) frame spare = none) ∨
        ∃ c, recv (Submit.decode ac.version) frame spare = some { Spec.Cmpp.submitReceived m with msgContent := c } := by
  have hp' : phones.length ≤ 255 := by split at hp <;> omega
  obtain ⟨msgs', slices, h1, _, hl, h4⟩ := cmpp_newSubmit ac phones content seq opts g expiry seqs hp'
  obtain rfl := Option.some.inj (h1.symm.trans h)
  obtain ⟨i, hi, rfl⟩ := List.getElem_of_mem hm
  obtain ⟨hok, hv, _, _, _, hn, _, _, _, _, _, hsrc, _⟩ := h4 i hi (hl ▸ hi)
  refine ⟨hv, hsrc, ?_⟩
  have hw : Spec.major msgs'[i].version = 3 ∨ msgs'[i].destUsrTl.toNat ≤ 12 := by
    rw [hv, hn]
    by_cases h3 : Spec.major ac.version = 3
    · exact .inl h3
    · rw [if_neg h3] at hp; exact .inr hp
  obtain ⟨frame, he, _⟩ := cmpp_submit_content_exactly msgs'[i] [] hok hw
  refine ⟨frame, he, fun spare => ?_⟩
  obtain ⟨frame', he', h1, h2, h3⟩ := cmpp_submit_content_exactly msgs'[i] spare hok hw
  obtain rfl := Option.some.inj (he'.symm.trans he)
  rw [hv] at h1 h2 h3
  rcases (content_cases msgs'[i].msgContent).1 with hc | hc | hc
  · exact .inr ⟨_, h1 hc⟩
  · exact .inr ⟨_, h2 hc⟩
  · exact .inl ⟨hc, h3 hc⟩

/-- **C138, CMPP: what the gateway reads in each packet of a text.** Every term and the billing are what was asked for, each as far as it fits into its field.
As the sender's company the gateway reads the first six characters of the display number. (A packet with a torn content ends the
server: C44, C132.) -/
theorem cmpp_terms_read (ac : AuthConf) (phones : List Bytes) (content : Bytes) (seq : UInt32) (l : List Opt) (g : UInt8) (expiry : Clock)
    (seqs : Nat → UInt32) (hp : phones.length ≤ if Spec.major ac.version = 3 then 255 else 12) (msgs : List Submit)
    (h : newSubmit ac phones content seq (l.map Opt.call) g expiry seqs = some msgs) (m : Submit) (hm : m ∈ msgs) :
    ∃ frame, m.encode = some frame ∧
      ∀ spare, (Spec.Torn m.msgContent ∧ recv (Submit.decode ac.version) frame spare = none) ∨
        ∃ r, recv (Submit.decode ac.version) frame spare = some r ∧
          termsOf r = { asked ac l expiry with
            shown := Spec.slot 21 (asked ac l expiry).shown
            service := Spec.slot 10 (asked ac l expiry).service
            validUntil := Spec.slot 17 (asked ac l expiry).validUntil
            sendAt := Spec.slot 17 (asked ac l expiry).sendAt } ∧
          billingOf r = {
            payer := Spec.slot (Spec.Cmpp.numberWidth ac.version) (askedBilling ac l).payer
            feeType := Spec.slot 2 (askedBilling ac l).feeType
            feeCode := Spec.slot 6 (askedBilling ac l).feeCode } ∧
          r.msgSrc = Spec.slot 6 ac.smsDisplayNo := by
  obtain ⟨hv, hsrc, frame, he, hr⟩ := received ac phones content seq _ g expiry seqs hp msgs h m hm
  refine ⟨frame, he, fun spare => (hr spare).imp id fun ⟨c, hc⟩ => ⟨_, hc, ?_⟩⟩
  obtain ⟨o1, o2, _, _, o5, o6, o7, o8, _, o10, o11, o12⟩ := cmpp_options ac phones content seq l g expiry seqs msgs h m hm
  simp only [termsOf, billingOf, Spec.Cmpp.submitReceived, asked, askedBilling, o1, o2, o5, o6, o7, o8, o10, o11, o12, hv, hsrc, and_self]

/-- **C138, CMPP, exactly:** the gateway reads the terms that were asked for if and only if they fit into their fields, and so for the billing; it
reads the account's client id as the sender's company if and only if that is the beginning of the display number. -/
theorem cmpp_terms_exactly (ac : AuthConf) (phones : List Bytes) (content : Bytes) (seq : UInt32) (l : List Opt) (g : UInt8) (expiry : Clock)
    (seqs : Nat → UInt32) (hp : phones.length ≤ if Spec.major ac.version = 3 then 255 else 12) (msgs : List Submit)
    (h : newSubmit ac phones content seq (l.map Opt.call) g expiry seqs = some msgs) (m : Submit) (hm : m ∈ msgs)
    (frame spare : Bytes) (he : m.encode = some frame) (r : Submit) (hr : recv (Submit.decode ac.version) frame spare = some r) :
    (termsOf r = asked ac l expiry ↔ (asked ac l expiry).Fit 17) ∧
    (billingOf r = askedBilling ac l ↔ (askedBilling ac l).Fit (Spec.Cmpp.numberWidth ac.version)) ∧
    (r.msgSrc = ac.clientId ↔ Spec.slot 6 ac.smsDisplayNo = ac.clientId) := by
  obtain ⟨frame', he', hc⟩ := cmpp_terms_read ac phones content seq l g expiry seqs hp msgs h m hm
  obtain rfl := Option.some.inj (he'.symm.trans he)
  rcases hc spare with ⟨_, hn⟩ | ⟨r', hr', ht, hb, hs⟩
  · rw [hn] at hr; exact absurd hr (by simp)
  · obtain rfl := Option.some.inj (hr'.symm.trans hr)
    rw [ht, hb, hs]
    refine ⟨?_, ?_, Iff.rfl⟩
    · rw [Terms.ext_iff]
      simp only [slot_eq_iff, Terms.Fit, true_and]
    · rw [Billing.ext_iff]
      simp only [slot_eq_iff, Billing.Fit]

/-- **C138 fails for the sender's company in CMPP.** Whatever is sent, and with whatever options: unless the client id is the beginning of the display
number, no packet that arrives names the client as its source. -/
theorem cmpp_source_fails (ac : AuthConf) (hne : Spec.slot 6 ac.smsDisplayNo ≠ ac.clientId) (phones : List Bytes) (content : Bytes) (seq : UInt32)
    (opts : List OptionFunc) (g : UInt8) (expiry : Clock) (seqs : Nat → UInt32)
    (hp : phones.length ≤ if Spec.major ac.version = 3 then 255 else 12) (msgs : List Submit)
    (h : newSubmit ac phones content seq opts g expiry seqs = some msgs) (m : Submit) (hm : m ∈ msgs)
    (frame spare : Bytes) (he : m.encode = some frame) (r : Submit) (hr : recv (Submit.decode ac.version) frame spare = some r) :
    r.msgSrc ≠ ac.clientId := by
  obtain ⟨_, hsrc, frame', he', hc⟩ := received ac phones content seq opts g expiry seqs hp msgs h m hm
  obtain rfl := Option.some.inj (he'.symm.trans he)
  rcases hc spare with ⟨_, hn⟩ | ⟨c, hc⟩
  · rw [hn] at hr; exact absurd hr (by simp)
  · obtain rfl := Option.some.inj (hc.symm.trans hr)
    simpa [Spec.Cmpp.submitReceived, hsrc] using hne

/-- With the account in the repository and a caller who wants no report and adds 01 to the number, the terms and the billing fit, and the source is not
the client. -/
example : (asked (Shipped.account .cmpp) [.needReport 0, .spSubNo (ascii "01")] ⟨24, 3, 9, 13, 30, 5⟩).Fit 17 ∧
    (askedBilling (Shipped.account .cmpp) [.needReport 0, .spSubNo (ascii "01")]).Fit
      (Spec.Cmpp.numberWidth (Shipped.account .cmpp).version) ∧
    Spec.slot 6 (Shipped.account .cmpp).smsDisplayNo ≠ (Shipped.account .cmpp).clientId ∧
    asked (Shipped.account .cmpp) [.needReport 0, .spSubNo (ascii "01")] ⟨24, 3, 9, 13, 30, 5⟩ =
      ⟨ascii "9556601", ascii "myService", 0, 9, ascii "240309133005032+", []⟩ := by decide +kernel

/-- A service of twelve characters does not fit. -/
example : ¬ (asked (Shipped.account .cmpp) [.serviceId (ascii "notMyService")] ⟨24, 3, 9, 13, 30, 5⟩).Fit 17 := by decide +kernel

/-- A text that is sent, and arrives. -/
example : ((newSubmit (Shipped.account .cmpp) [ascii "13800138000"] (ascii "hi") 7
      ([Opt.needReport 0].map Opt.call) 1 ⟨24, 3, 9, 13, 30, 5⟩ (fun i => UInt32.ofNat i)).bind fun msgs =>
    msgs.head?.bind fun m => m.encode.bind fun frame => (recv (Submit.decode 48) frame []).map fun r => (termsOf r).report) = some 0 := by
  decide +kernel

end Cmpp

namespace Smgp

/-- The terms the gateway reads in a submit. -/
def termsOf (r : Submit) : Terms :=
  { shown := r.srcTermID, service := r.serviceID, report := r.needReport, priority := r.priority, validUntil := r.validTime, sendAt := r.atTime }

/-- The billing the gateway reads in a submit. -/
def billingOf (r : Submit) : Billing := { payer := r.chargeTermID, feeType := r.feeType, feeCode := r.feeCode }

theorem received (gbEnc gbDec : Bytes → Option Bytes) (ac : AuthConf) (phones : List Bytes) (content : Bytes) (seq : UInt32) (opts : List OptionFunc)
    (g : UInt8) (clock : Clock) (seqs : Nat → UInt32) (hp : phones.length ≤ 255) (msgs : List Submit)
    (h : newSubmit gbEnc ac phones content seq opts g clock seqs = some msgs) (m : Submit) (hm : m ∈ msgs) :
    ∃ frame, m.encode = some frame ∧
      ∀ spare, (Spec.Torn m.msgContent ∧ recv (Submit.decode gbDec ac.version) frame spare = none) ∨
        ∃ c t, recv (Submit.decode gbDec ac.version) frame spare = some { Spec.Smgp.submitReceived m c with tlvList := t } := by
  cases hgb : gbEnc content with
  | none =>
    simp only [newSubmit, hgb, Option.some.injEq] at h
    rw [← h] at hm; exact absurd hm (by simp)
  | some data =>
    obtain ⟨msgs', slices, h1, _, _, hl, h4⟩ := smgp_newSubmit gbEnc ac phones content data seq opts g clock seqs hp hgb
    obtain rfl := Option.some.inj (h1.symm.trans h)
    obtain ⟨i, hi, rfl⟩ := List.getElem_of_mem hm
    obtain ⟨hok, htl, hv, _⟩ := h4 i hi (hl ▸ hi)
    have key : ∃ tlvs, Spec.Smgp.SubmitOk msgs'[i] tlvs ∧
        ((msgs'[i].tlvList = none ∧ tlvs = []) ∨ msgs'[i].tlvList = some (tlvBuild tlvs)) ∧ ∀ tv ∈ tlvs, tv.2.length < 65536 := by
      by_cases h1 : slices.length = 1
      · refine ⟨[], ?_, .inl ⟨by rwa [if_pos h1] at htl, rfl⟩, by simp⟩
        simpa [partTlvs, h1] using hok
      · refine ⟨_, hok, .inr (by rwa [if_neg h1] at htl), ?_⟩
        simp [partTlvs, h1]
    obtain ⟨tlvs, hok, htl, hlt⟩ := key
    obtain ⟨frame, he, _⟩ := smgp_submit_content_exactly gbDec msgs'[i] tlvs [] hok htl hlt
    refine ⟨frame, he, fun spare => ?_⟩
    obtain ⟨frame', he', h1, h2, h3⟩ := smgp_submit_content_exactly gbDec msgs'[i] tlvs spare hok htl hlt
    obtain rfl := Option.some.inj (he'.symm.trans he)
    rw [hv] at h1 h2 h3
    rcases (content_cases msgs'[i].msgContent).1 with hc | hc | hc
    · exact .inr ⟨_, _, h1 hc⟩
    · exact .inr ⟨_, _, h2 hc⟩
    · exact .inl ⟨hc, h3 hc⟩

/-- **C138, SMGP: what the gateway reads in each packet of a text.** The number shown, the service and the send time are what was asked for as far as they
fit. Report and priority are those of the account only if the caller gave a 0, and 15 if they gave nothing. The validity is the time of sending. The
billing is the account's, whatever the caller says. -/
theorem smgp_terms_read_partial (gbEnc gbDec : Bytes → Option Bytes) (ac : AuthConf) (phones : List Bytes) (content : Bytes) (seq : UInt32)
    (l : List Opt) (g : UInt8) (clock expiry : Clock) (seqs : Nat → UInt32) (hp : phones.length ≤ 255) (msgs : List Submit)
    (h : newSubmit gbEnc ac phones content seq (l.map Opt.call) g clock seqs = some msgs) (m : Submit) (hm : m ∈ msgs) :
    ∃ frame, m.encode = some frame ∧
      ∀ spare, (Spec.Torn m.msgContent ∧ recv (Submit.decode gbDec ac.version) frame spare = none) ∨
        ∃ r, recv (Submit.decode gbDec ac.version) frame spare = some r ∧
          termsOf r = {
            shown := Spec.slot 21 (asked ac l expiry).shown
            service := Spec.slot 10 (asked ac l expiry).service
            sendAt := Spec.slot 17 (asked ac l expiry).sendAt
            report := match Opt.report l with | none => 15 | some v => if v = 0 then ac.needReport else v
            priority := match Opt.level l with | none => 15 | some v => if v = 0 then ac.defaultMsgLevel else v
            validUntil := Spec.slot 17 (formatTime clock) } ∧
          billingOf r = {
            payer := Spec.slot 21 ac.feeTerminalId, feeType := Spec.slot 2 ac.feeType, feeCode := Spec.slot 6 ac.feeCode } := by
  obtain ⟨frame, he, hr⟩ := received gbEnc gbDec ac phones content seq _ g clock seqs hp msgs h m hm
  refine ⟨frame, he, fun spare => (hr spare).imp id fun ⟨c, t, hc⟩ => ⟨_, hc, ?_⟩⟩
  obtain ⟨o1, o2, o3, o4, o5, o6, o7, o8, o9⟩ := smgp_options_exact gbEnc ac phones content seq l g clock seqs msgs h m hm
  simp only [termsOf, billingOf, Spec.Smgp.submitReceived, asked, o1, o2, o3, o4, o5, o6, o7, o8, o9, and_true]
  cases Opt.report l <;> cases Opt.level l <;> rfl

/-- **C138 fails for SMGP.** A text sent without asking for a report and a priority is never read with those of the account, unless these are 15 (which no
report wish and no priority is). The validity is never read as the one asked for, if that is another than the time of sending and fits. -/
theorem smgp_terms_fails (gbEnc gbDec : Bytes → Option Bytes) (ac : AuthConf) (phones : List Bytes) (content : Bytes) (seq : UInt32)
    (l : List Opt) (g : UInt8) (clock expiry : Clock) (seqs : Nat → UInt32) (hp : phones.length ≤ 255) (msgs : List Submit)
    (h : newSubmit gbEnc ac phones content seq (l.map Opt.call) g clock seqs = some msgs) (m : Submit) (hm : m ∈ msgs)
    (frame spare : Bytes) (he : m.encode = some frame) (r : Submit) (hr : recv (Submit.decode gbDec ac.version) frame spare = some r) :
    (Opt.report l = none → ac.needReport ≠ 15 → (termsOf r).report ≠ (asked ac l expiry).report) ∧
    (Opt.level l = none → ac.defaultMsgLevel ≠ 15 → (termsOf r).priority ≠ (asked ac l expiry).priority) ∧
    ((asked ac l expiry).validUntil ≠ Spec.slot 17 (formatTime clock) → (termsOf r).validUntil ≠ (asked ac l expiry).validUntil) := by
  obtain ⟨frame', he', hc⟩ := smgp_terms_read_partial gbEnc gbDec ac phones content seq l g clock expiry seqs hp msgs h m hm
  obtain rfl := Option.some.inj (he'.symm.trans he)
  rcases hc spare with ⟨_, hn⟩ | ⟨r', hr', ht, _⟩
  · rw [hn] at hr; exact absurd hr (by simp)
  · obtain rfl := Option.some.inj (hr'.symm.trans hr)
    rw [ht]
    refine ⟨fun h1 h2 => ?_, fun h1 h2 => ?_, fun h1 => ?_⟩
    · simpa [asked, h1] using fun e => h2 e.symm
    · simpa [asked, h1] using fun e => h2 e.symm
    · simpa using fun e => h1 e.symm

/-- With the account in the repository no report and no priority asked for arrive as 15 and 15, not as 1 and 3; the validity of two hours is not the
time of sending. -/
example : Opt.report [.serviceId (ascii "S")] = none ∧ (Shipped.account .smgp).needReport ≠ 15 ∧
    Opt.level [.serviceId (ascii "S")] = none ∧ (Shipped.account .smgp).defaultMsgLevel ≠ 15 ∧
    (asked (Shipped.account .smgp) [.serviceId (ascii "S")] ⟨24, 3, 9, 15, 30, 5⟩).validUntil ≠
      Spec.slot 17 (formatTime ⟨24, 3, 9, 13, 30, 5⟩) := by decide +kernel

/-- A text that is sent, and arrives. -/
example : ((newSubmit some (Shipped.account .smgp) [ascii "13800138000"] (ascii "hi") 7
      ([Opt.serviceId (ascii "S")].map Opt.call) 1 ⟨24, 3, 9, 13, 30, 5⟩ (fun i => UInt32.ofNat i)).bind fun msgs =>
    msgs.head?.bind fun m => m.encode.bind fun frame => (recv (Submit.decode some 48) frame []).map fun r => (termsOf r).report) = some 15 := by
  decide +kernel

end Smgp

namespace Sgip

/-- The terms the gateway reads in a submit. -/
def termsOf (r : Submit) : Terms :=
  { shown := r.spNumber, service := r.serviceType, report := r.reportFlag, priority := r.priority, validUntil := r.expireTime, sendAt := r.scheduleTime }

theorem sgip_unset (ac : AuthConf) (phones : List Bytes) (content : Bytes) (opts : List OptionFunc) (g : UInt8) (expiry : Clock)
    (seqs : Nat → Seq3) (msgs : List Submit) (h : newSubmit ac phones content opts g expiry seqs = some msgs) :
    ∀ m ∈ msgs, m.givenValue = [] ∧ m.reserve = [] := by
  unfold newSubmit at h
  simp only [Option.map_eq_some_iff] at h
  obtain ⟨slices, _, rfl⟩ := h
  intro m hm
  split at hm
  · simp only [List.mem_singleton] at hm
    subst hm
    exact ⟨rfl, rfl⟩
  · rw [List.mem_iff_getElem] at hm
    obtain ⟨i, hi, rfl⟩ := hm
    simp only [List.getElem_mapIdx]
    exact ⟨rfl, rfl⟩

/-- **C138, SGIP: the gateway reads the terms that were asked for, if all fit** (fields that do not fit run over into their neighbours: C40). As the
sender's company it reads the client id, without its first five characters if it has more than five. It reads no billing: C51 and the next
theorem. -/
theorem sgip_terms_read_partial (ac : AuthConf) (phones : List Bytes) (content : Bytes) (l : List Opt) (g : UInt8) (expiry : Clock)
    (seqs : Nat → Seq3) (hp : phones.length ≤ 255) (msgs : List Submit)
    (hfit : (asked ac l expiry).Fit 16) (hph : ∀ p ∈ phones, Spec.Fits 21 p)
    (hid : Spec.Fits 5 (if ac.clientId.length ≤ 5 then ac.clientId else ac.clientId.drop 5))
    (h : newSubmit ac phones content (l.map Opt.call) g expiry seqs = some msgs) (m : Submit) (hm : m ∈ msgs) :
    ∃ frame, m.encode = some frame ∧
      ∀ spare, (Spec.Torn m.messageContent ∧ recv Submit.decode frame spare = none) ∨
        ∃ r, recv Submit.decode frame spare = some r ∧ termsOf r = asked ac l expiry ∧
          r.corpId = (if ac.clientId.length ≤ 5 then ac.clientId else ac.clientId.drop 5) ∧ r.userNumber = phones ∧
          r.feeType = 0 ∧ r.feeValue = [] ∧ r.chargeNumber = [] := by
  obtain ⟨msgs', slices, h1, _, _, hl, h4⟩ := sgip_newSubmit ac phones content (l.map Opt.call) g expiry seqs hp
  obtain rfl := Option.some.inj (h1.symm.trans h)
  obtain ⟨o1, o2, o3, o4, o5, o6⟩ := sgip_options_partial ac phones content l g expiry seqs _ h m hm
  obtain ⟨f1, f2, f3⟩ := sgip_fee_options_fails ac phones content _ g expiry seqs _ h m hm
  have hg : m.givenValue = [] ∧ m.reserve = [] := sgip_unset ac phones content _ g expiry seqs _ h m hm
  obtain ⟨i, hi, rfl⟩ := List.getElem_of_mem hm
  obtain ⟨hok, _, _, hu, _, _, _, _, hcorp⟩ := h4 i hi (hl ▸ hi)
  have hf : Spec.Sgip.SubmitFits msgs'[i] := by
    obtain ⟨a1, a2, a3, a4⟩ := hfit
    refine ⟨by rw [o6]; exact a1, by rw [f3]; decide, by rw [hu]; exact hph, by rw [hcorp]; exact hid, by rw [o3]; exact a2, by rw [f2]; decide,
      by rw [hg.1]; decide, by rw [o4]; exact a3, by rw [o5]; exact a4, by rw [hg.2]; decide⟩
  obtain ⟨frame, he, _⟩ := sgip_submit_content_exactly msgs'[i] [] hok hf
  refine ⟨frame, he, fun spare => ?_⟩
  obtain ⟨frame', he', h1, h2, h3⟩ := sgip_submit_content_exactly msgs'[i] spare hok hf
  obtain rfl := Option.some.inj (he'.symm.trans he)
  rcases (content_cases msgs'[i].messageContent).1 with hc | hc | hc
  · exact .inr ⟨_, h1 hc, by simp only [termsOf, asked, o1, o2, o3, o4, o5, o6], hcorp, hu, f1, f2, f3⟩
  · exact .inr ⟨_, h2 hc, by simp only [termsOf, asked, o1, o2, o3, o4, o5, o6], hcorp, hu, f1, f2, f3⟩
  · exact .inl ⟨hc, h3 hc⟩

/-- **C138 fails for the sender's company and the billing in SGIP.** Whatever is sent, with whatever options that fit: a client id of more than five
characters is never read in a packet, and neither is any billing that was asked for or that the account has. -/
theorem sgip_source_fails (ac : AuthConf) (hlong : 5 < ac.clientId.length) (phones : List Bytes) (content : Bytes) (l : List Opt) (g : UInt8)
    (expiry : Clock) (seqs : Nat → Seq3) (hp : phones.length ≤ 255) (msgs : List Submit)
    (hfit : (asked ac l expiry).Fit 16) (hph : ∀ p ∈ phones, Spec.Fits 21 p) (hid : Spec.Fits 5 (ac.clientId.drop 5))
    (h : newSubmit ac phones content (l.map Opt.call) g expiry seqs = some msgs) (m : Submit) (hm : m ∈ msgs)
    (frame spare : Bytes) (he : m.encode = some frame) (r : Submit) (hr : recv Submit.decode frame spare = some r) :
    r.corpId ≠ ac.clientId ∧ ((askedBilling ac l).payer ≠ [] → r.chargeNumber ≠ (askedBilling ac l).payer) ∧
      ((askedBilling ac l).feeCode ≠ [] → r.feeValue ≠ (askedBilling ac l).feeCode) := by
  have hn : ¬ ac.clientId.length ≤ 5 := by omega
  obtain ⟨frame', he', hc⟩ := sgip_terms_read_partial ac phones content l g expiry seqs hp msgs hfit hph (by rwa [if_neg hn]) h m hm
  obtain rfl := Option.some.inj (he'.symm.trans he)
  rcases hc spare with ⟨_, hx⟩ | ⟨r', hr', _, h2, _, _, h5, h6⟩
  · rw [hx] at hr; exact absurd hr (by simp)
  · obtain rfl := Option.some.inj (hr'.symm.trans hr)
    rw [h2, h5, h6, if_neg hn]
    refine ⟨fun e => ?_, fun h => Ne.symm h, fun h => Ne.symm h⟩
    have := congrArg List.length e
    simp only [List.length_drop] at this
    omega

/-- The account in the repository: its id 3037196688 is read as 96688. -/
example : (asked (Shipped.account .sgip) [.needReport 0, .spSubNo (ascii "01")] ⟨24, 3, 9, 13, 30, 5⟩).Fit 16 ∧
    5 < (Shipped.account .sgip).clientId.length ∧ Spec.Fits 5 ((Shipped.account .sgip).clientId.drop 5) ∧
    (Shipped.account .sgip).clientId.drop 5 = ascii "96688" ∧ (askedBilling (Shipped.account .sgip) []).feeCode ≠ [] ∧
    Spec.Fits 21 (ascii "8613800138000") := by decide +kernel

/-- A text that is sent, and arrives. -/
example : ((newSubmit (Shipped.account .sgip) [ascii "13800138000"] (ascii "hi")
      ([Opt.needReport 0].map Opt.call) 1 ⟨24, 3, 9, 13, 30, 5⟩ (fun i => (1, 2, UInt32.ofNat i))).bind fun msgs =>
    msgs.head?.bind fun m => m.encode.bind fun frame => (recv Submit.decode frame []).map fun r => (termsOf r).report) = some 0 := by
  decide +kernel

end Sgip

end Gosms
