import Verif.Model.Times
import Verif.Spec.Times
import Verif.Props.Options
import Verif.Props.CmppDeliver
import Verif.Props.SmgpDeliver

/-!
# C134: the times in packets

What a receiver reads from the times in submits, reports and delivers (`Spec/Times.lean`), against the moments at which they were made.
-/

namespace Gosms.Times
open Gosms.Spec (Opt)

/-! ## The calendar -/

theorem monthDay_spec (feb yd y : Nat) (hf : feb = if y % 4 = 0 then 29 else 28) (h : yd < 337 + feb) :
    (monthDay feb yd).1 < 12 ∧ (monthDay feb yd).2 < Spec.Times.daysIn y ((monthDay feb yd).1 + 1) ∧
    Spec.Times.daysBefore y ((monthDay feb yd).1 + 1) + (monthDay feb yd).2 = yd := by
  unfold monthDay
  repeat' split
  all_goals
    simp only [Spec.Times.daysBefore, Spec.Times.daysIn, Nat.add_sub_cancel, List.getD_cons_zero, List.getD_cons_succ]
    refine ⟨by omega, ?_, ?_⟩
    all_goals
      split at hf <;> simp_all <;> omega

theorem civil_seconds (n : Nat) :
    Spec.Times.seconds (civil n).year (civil n).month (civil n).day (civil n).hour (civil n).minute (civil n).second = n := by
  have hr : n / 86400 % 1461 < 1461 := Nat.mod_lt _ (by decide)
  have hd : n / 86400 = 1461 * (n / 86400 / 1461) + n / 86400 % 1461 := (Nat.div_add_mod _ _).symm
  unfold civil
  simp only
  generalize hday : n / 86400 = day at *
  generalize hq : day / 1461 = q at *
  generalize hrr : day % 1461 = r at *
  generalize hy : (r - 1) / 365 = y at *
  have hy4 : y < 4 := by omega
  obtain ⟨-, -, h3⟩ := monthDay_spec (if y = 0 then 29 else 28) (r - (365 * y + if y = 0 then 0 else 1)) (4 * q + y)
    (by have : (4 * q + y) % 4 = 0 ↔ y = 0 := by omega
        simp only [this]) (by split <;> omega)
  unfold Spec.Times.seconds
  generalize Spec.Times.daysBefore _ _ = db at *
  generalize (monthDay _ _).2 = md at *
  have : 365 * (4 * q + y) + (4 * q + y + 3) / 4 + db + (md + 1 - 1) = day := by
    split at h3 <;> omega
  rw [this]
  omega

theorem daysIn_le (y m : Nat) : Spec.Times.daysIn y m ≤ 31 := by
  unfold Spec.Times.daysIn; repeat' split
  all_goals omega

/-- The clock shows dates of the calendar. -/
theorem civil_real (n : Nat) :
    Spec.Times.Real (civil n).year (civil n).month (civil n).day (civil n).hour (civil n).minute (civil n).second := by
  have hr : n / 86400 % 1461 < 1461 := Nat.mod_lt _ (by decide)
  unfold civil
  simp only
  generalize hq : n / 86400 / 1461 = q at *
  generalize hrr : n / 86400 % 1461 = r at *
  generalize hy : (r - 1) / 365 = y at *
  have hy4 : y < 4 := by omega
  obtain ⟨h1, h2, -⟩ := monthDay_spec (if y = 0 then 29 else 28) (r - (365 * y + if y = 0 then 0 else 1)) (4 * q + y)
    (by have : (4 * q + y) % 4 = 0 ↔ y = 0 := by omega
        simp only [this]) (by split <;> omega)
  exact ⟨⟨by omega, by omega⟩, ⟨by omega, by omega⟩, by omega, by omega, by omega⟩

theorem civil_valid {n : Nat} (h : n < 36525 * 86400) : (civil n).Valid := by
  have hr : n / 86400 % 1461 < 1461 := Nat.mod_lt _ (by decide)
  unfold civil
  simp only
  have hq : n / 86400 / 1461 < 25 := by omega
  generalize hrr : n / 86400 % 1461 = r at *
  generalize hy : (r - 1) / 365 = y at *
  have hy4 : y < 4 := by omega
  obtain ⟨h1, h2, -⟩ := monthDay_spec (if y = 0 then 29 else 28) (r - (365 * y + if y = 0 then 0 else 1)) y
    (by have : y % 4 = 0 ↔ y = 0 := by omega
        simp only [this]) (by split <;> omega)
  have h3 := daysIn_le y ((monthDay (if y = 0 then 29 else 28) (r - (365 * y + if y = 0 then 0 else 1))).1 + 1)
  exact ⟨by simp only; omega, by simp only; omega, by simp only; omega, by simp only; omega, by simp only; omega, by simp only; omega⟩

/-! ## Reading digits back -/

theorem two_digits {n : Nat} (h : n < 100) : Spec.Times.two (digit (n / 10 % 10)) (digit (n % 10)) = some n := by
  have hd : ∀ d, d < 10 → Spec.Times.digit? (digit d) = some d := by decide
  unfold Spec.Times.two
  rw [hd _ (by omega), hd _ (by omega)]
  simp only [Option.bind_some, Option.map_some, Option.some.injEq]
  omega

theorem twos_cons {n : Nat} (h : n < 100) (r : Bytes) :
    Spec.Times.twos (d2 n ++ r) = (Spec.Times.twos r).map fun ns => n :: ns := by
  show Spec.Times.twos (digit (n / 10 % 10) :: digit (n % 10) :: r) = _
  rw [Spec.Times.twos, two_digits h]
  rfl

theorem twos_last {n : Nat} (h : n < 100) : Spec.Times.twos (d2 n) = some [n] := by
  have := twos_cons h []
  rw [List.append_nil] at this
  rw [this]; rfl

theorem moment_formatTime (c : Clock) (h : c.Valid)
    (hr : Spec.Times.Real c.year c.month c.day c.hour c.minute c.second) :
    Spec.Times.moment (formatTime c) =
      some ((Spec.Times.seconds c.year c.month c.day c.hour c.minute c.second : Int) - 28800) := by
  obtain ⟨h0, h1, h2, h3, h4, h5⟩ := h
  have ht : (formatTime c).take 12 = d2 c.year ++ (d2 c.month ++ (d2 c.day ++ (d2 c.hour ++ (d2 c.minute ++ d2 c.second)))) := rfl
  have hd : (formatTime c).drop 12 = [0x30, 0x33, 0x32, 0x2B] := rfl
  unfold Spec.Times.moment
  rw [ht, hd, twos_cons (by omega), twos_cons (by omega), twos_cons (by omega), twos_cons (by omega), twos_cons (by omega),
    twos_last (by omega)]
  show (if ¬ Spec.Times.Real c.year c.month c.day c.hour c.minute c.second then none else _) = _
  rw [if_neg (by simpa using hr)]
  rfl

theorem minute_formatMinute (c : Clock) (h : c.Valid)
    (hr : Spec.Times.Real c.year c.month c.day c.hour c.minute c.second) :
    Spec.Times.minute (Smgp.formatMinute c) =
      some (Spec.Times.seconds c.year c.month c.day c.hour c.minute c.second / 60) := by
  obtain ⟨h0, h1, h2, h3, h4, h5⟩ := h
  have ht : Smgp.formatMinute c = d2 c.year ++ (d2 c.month ++ (d2 c.day ++ (d2 c.hour ++ d2 c.minute))) := rfl
  unfold Spec.Times.minute
  rw [ht, twos_cons (by omega), twos_cons (by omega), twos_cons (by omega), twos_cons (by omega), twos_last (by omega)]
  simp only [Option.map_some]
  rw [if_pos ⟨hr.1, hr.2.1, hr.2.2.1, hr.2.2.2.1, by omega⟩]
  simp only [Option.some.injEq]
  unfold Spec.Times.seconds
  omega

theorem second_formatSecond (c : Clock) (h : c.Valid)
    (hr : Spec.Times.Real c.year c.month c.day c.hour c.minute c.second) :
    Spec.Times.second (Smgp.formatSecond c) =
      some (Spec.Times.seconds c.year c.month c.day c.hour c.minute c.second) := by
  obtain ⟨h0, h1, h2, h3, h4, h5⟩ := h
  have ht : Smgp.formatSecond c =
      d2 20 ++ (d2 c.year ++ (d2 c.month ++ (d2 c.day ++ (d2 c.hour ++ (d2 c.minute ++ d2 c.second))))) := rfl
  unfold Spec.Times.second
  rw [ht, twos_cons (by omega), twos_cons (by omega), twos_cons (by omega), twos_cons (by omega), twos_cons (by omega),
    twos_cons (by omega), twos_last (by omega)]
  show (if 20 = 20 ∧ Spec.Times.Real c.year c.month c.day c.hour c.minute c.second then _ else _) = _
  rw [if_pos ⟨rfl, hr⟩]

/-- Moments a two-digit year can show on a clock in `zone`: 2000 to 2099. -/
def Shown (zone t : Int) : Prop := 0 ≤ t / 1000000000 + zone ∧ t / 1000000000 + zone < 36525 * 86400

instance (zone t : Int) : Decidable (Shown zone t) := by unfold Shown; infer_instance

theorem clockAt_valid {zone t : Int} (h : Shown zone t) : (clockAt zone t).Valid :=
  civil_valid (by have := h.1; have := h.2; omega)

/-- A moment written by `FormatTime` on a clock in `zone` is read as the moment shifted by the difference of the zone to UTC+8. -/
theorem read_formatTime {zone t : Int} (h : Shown zone t) :
    Spec.Times.moment (formatTime (clockAt zone t)) = some (t / 1000000000 + (zone - 28800)) := by
  rw [moment_formatTime _ (clockAt_valid h) (civil_real _)]
  unfold clockAt
  rw [civil_seconds]
  have := h.1
  congr 1
  omega

theorem read_formatMinute {zone t : Int} (h : Shown zone t) :
    (Spec.Times.minute (Smgp.formatMinute (clockAt zone t))).map Int.ofNat = some ((t / 1000000000 + zone) / 60) := by
  rw [minute_formatMinute _ (clockAt_valid h) (civil_real _)]
  unfold clockAt
  rw [civil_seconds, Option.map_some]
  have := h.1
  congr 1
  simp only [Int.ofNat_eq_natCast]
  omega

theorem read_formatSecond {zone t : Int} (h : Shown zone t) :
    (Spec.Times.second (Smgp.formatSecond (clockAt zone t))).map Int.ofNat = some (t / 1000000000 + zone) := by
  rw [second_formatSecond _ (clockAt_valid h) (civil_real _)]
  unfold clockAt
  rw [civil_seconds, Option.map_some]
  have := h.1
  congr 1
  simp only [Int.ofNat_eq_natCast]
  omega

/-! ## How long a submit is valid -/

/-- **C134, CMPP: a submit is valid for the account's duration**, counted from the call, to the second - if the process runs on UTC+8 time. On any
other time the carrier reads a moment that is off by the difference of the zones. (No validity is given by the caller, who would write it in full.) -/
theorem cmpp_validity_exactly (zone now : Int) (ac : AuthConf) (phones : List Bytes) (content : Bytes) (seq : UInt32) (l : List Opt)
    (hv : Opt.valid l = none) (g : UInt8) (seqs : Nat → UInt32) (msgs : List Cmpp.Submit) (hs : Shown zone (now + ac.mtValidDuration))
    (h : cmppSubmit zone now ac phones content seq (l.map Opt.call) g seqs = some msgs) :
    ∀ m ∈ msgs, Spec.Times.moment m.validTime = some ((now + ac.mtValidDuration) / 1000000000 + (zone - 28800)) ∧
      (Spec.Times.moment m.validTime = some ((now + ac.mtValidDuration) / 1000000000) ↔ zone = 28800) := by
  intro m hm
  obtain ⟨_, _, _, _, _, _, _, _, _, e, _⟩ := Cmpp.cmpp_options ac phones content seq l g _ seqs msgs h m hm
  rw [hv, Option.getD_none] at e
  rw [e, read_formatTime hs]
  exact ⟨rfl, by rw [Option.some.injEq]; omega⟩

/-- **C134, SGIP**: the same. -/
theorem sgip_validity_exactly (zone now : Int) (ac : AuthConf) (phones : List Bytes) (content : Bytes) (l : List Opt)
    (hv : Opt.valid l = none) (g : UInt8) (seqs : Nat → Sgip.Seq3) (msgs : List Sgip.Submit) (hs : Shown zone (now + ac.mtValidDuration))
    (h : sgipSubmit zone now ac phones content (l.map Opt.call) g seqs = some msgs) :
    ∀ m ∈ msgs, Spec.Times.moment m.expireTime = some ((now + ac.mtValidDuration) / 1000000000 + (zone - 28800)) ∧
      (Spec.Times.moment m.expireTime = some ((now + ac.mtValidDuration) / 1000000000) ↔ zone = 28800) := by
  intro m hm
  obtain ⟨_, _, _, e, _⟩ := Sgip.sgip_options_partial ac phones content l g _ seqs msgs h m hm
  rw [hv, Option.getD_none] at e
  rw [e, read_formatTime hs]
  exact ⟨rfl, by rw [Option.some.injEq]; omega⟩

/-- **C134 fails for SMGP**: whatever the caller and the account say, the validity is over at the moment of the call (on UTC+8 time), so it is right only
for a duration below a second. -/
theorem smgp_validity_fails (gbEnc : Bytes → Option Bytes) (zone now : Int) (ac : AuthConf) (phones : List Bytes) (content : Bytes) (seq : UInt32)
    (l : List Opt) (g : UInt8) (seqs : Nat → UInt32) (msgs : List Smgp.Submit) (hs : Shown zone now)
    (h : smgpSubmit gbEnc zone now ac phones content seq (l.map Opt.call) g seqs = some msgs) :
    ∀ m ∈ msgs, Spec.Times.moment m.validTime = some (now / 1000000000 + (zone - 28800)) ∧
      (zone = 28800 → 1000000000 ≤ ac.mtValidDuration →
        Spec.Times.moment m.validTime ≠ some ((now + ac.mtValidDuration) / 1000000000)) := by
  intro m hm
  obtain ⟨_, _, _, _, _, e, _⟩ := Smgp.smgp_options_exact gbEnc ac phones content seq l g _ seqs msgs h m hm
  rw [e, read_formatTime hs]
  exact ⟨rfl, fun hz hd => by rw [ne_eq, Option.some.injEq]; omega⟩

/-! ## When a submit is to be sent -/

/-- **C134: "send at" a moment** is read as that moment exactly if the moment was given in UTC+8 (`zone` is that of the value the caller gave, the last one
if there are several), in the packets of all protocols. -/
theorem send_at_exactly (zone t : Int) (hs : Shown zone t) (l1 l2 : List Opt) (hlast : Opt.sendAt l2 = none) (ac : AuthConf)
    (phones : List Bytes) (content : Bytes) (seq : UInt32) (g : UInt8) (gbEnc : Bytes → Option Bytes) (pzone now : Int) :
    let opts := (l1 ++ .atTime (clockAt zone t) :: l2).map Opt.call
    (∀ seqs msgs, cmppSubmit pzone now ac phones content seq opts g seqs = some msgs → ∀ m ∈ msgs,
      (Spec.Times.moment m.atTime = some (t / 1000000000) ↔ zone = 28800)) ∧
    (∀ seqs msgs, sgipSubmit pzone now ac phones content opts g seqs = some msgs → ∀ m ∈ msgs,
      (Spec.Times.moment m.scheduleTime = some (t / 1000000000) ↔ zone = 28800)) ∧
    (∀ seqs msgs, smgpSubmit gbEnc pzone now ac phones content seq opts g seqs = some msgs → ∀ m ∈ msgs,
      (Spec.Times.moment m.atTime = some (t / 1000000000) ↔ zone = 28800)) := by
  have hat : Opt.sendAt (l1 ++ .atTime (clockAt zone t) :: l2) = some (formatTime (clockAt zone t)) := by
    unfold Opt.sendAt Opt.last at hlast ⊢
    rw [List.filterMap_append, List.filterMap_cons]
    simp only
    rw [List.getLast?_eq_none_iff] at hlast
    rw [hlast]
    simp
  have key : Spec.Times.moment (formatTime (clockAt zone t)) = some (t / 1000000000) ↔ zone = 28800 := by
    rw [read_formatTime hs, Option.some.injEq]; omega
  refine ⟨fun seqs msgs h m hm => ?_, fun seqs msgs h m hm => ?_, fun seqs msgs h m hm => ?_⟩
  · obtain ⟨_, _, _, _, _, _, _, _, _, _, e, _⟩ := Cmpp.cmpp_options ac phones content seq _ g _ seqs msgs h m hm
    rw [e, hat, Option.getD_some]; exact key
  · obtain ⟨_, _, _, _, e, _⟩ := Sgip.sgip_options_partial ac phones content _ g _ seqs msgs h m hm
    rw [e, hat, Option.getD_some]; exact key
  · obtain ⟨_, _, _, e, _⟩ := Smgp.smgp_options_exact gbEnc ac phones content seq _ g _ seqs msgs h m hm
    rw [e, hat, Option.getD_some]; exact key

/-! ## What a report says about the time -/

theorem digits_nonzero (n : Nat) : 0 ∉ d2 n := by
  have hd : ∀ d, d < 10 → digit d ≠ 0 := by decide
  intro hm
  simp only [d2, List.mem_cons, List.not_mem_nil, or_false] at hm
  rcases hm with hm | hm
  · exact hd _ (by omega) hm.symm
  · exact hd _ (by omega) hm.symm

theorem slot_second (c : Clock) : Spec.slot 14 (Smgp.formatSecond c) = Smgp.formatSecond c := by
  apply Spec.slot_fits
  refine ⟨Nat.le_refl 14, ?_⟩
  intro hm
  unfold Smgp.formatSecond at hm
  simp only [List.mem_append] at hm
  rcases hm with ((((((h | h) | h) | h) | h) | h) | h)
  · exact absurd h (by decide)
  all_goals exact digits_nonzero _ h

theorem slot_minute (c : Clock) : Spec.slot 10 (Smgp.formatMinute c) = Smgp.formatMinute c := by
  apply Spec.slot_fits
  refine ⟨Nat.le_refl 10, ?_⟩
  intro hm
  unfold Smgp.formatMinute at hm
  simp only [List.mem_append] at hm
  rcases hm with ((((h | h) | h) | h) | h) <;> exact digits_nonzero _ h

/-- **C134, CMPP reports.** The client reads from a report, as times of the server's clock, the minute in which the report was made (not that of the submit),
and the minute ten seconds after that. So the time of submission is right exactly if the report is made in the same minute, and the time of
delivery is never before the making of the report. -/
theorem cmpp_report_times_exactly (zone t0 t1 t2 : Int) (h1 : Shown zone t1) (h2 : Shown zone (t2 + 10000000000)) (h12 : t1 ≤ t2)
    (s : Cmpp.Submit) (msgId : UInt64) (seq : UInt32) (id : UInt64) (smsc : UInt32) (g : UInt8) (spare : Bytes) :
    ∃ frame d rep, (cmppReport zone t1 t2 s msgId seq id smsc).encode g = some frame ∧
      recv (Cmpp.Delivery.decode s.version) frame spare = some d ∧ d.report = some rep ∧ rep.msgId = msgId ∧
      (Spec.Times.minute rep.submitTime).map Int.ofNat = some ((t1 / 1000000000 + zone) / 60) ∧
      (Spec.Times.minute rep.doneTime).map Int.ofNat = some (((t2 + 10000000000) / 1000000000 + zone) / 60) ∧
      ((Spec.Times.minute rep.submitTime).map Int.ofNat = some ((t0 / 1000000000 + zone) / 60) ↔
        (t0 / 1000000000 + zone) / 60 = (t1 / 1000000000 + zone) / 60) ∧
      (∀ m, (Spec.Times.minute rep.doneTime).map Int.ofNat = some m → (t1 / 1000000000 + zone) / 60 ≤ m) := by
  have hdl : (cmppReport zone t1 t2 s msgId seq id smsc).hdr.totalLength.toNat =
      12 + (if Spec.major (cmppReport zone t1 t2 s msgId seq id smsc).version = 3 then 97 else 73) + 60 := by
    show (if Cmpp.v3 s.version = true then (169 : UInt32) else 145).toNat =
      12 + (if Spec.major s.version = 3 then 97 else 73) + 60
    by_cases h : Cmpp.v3 s.version = true
    · simp [h, (Cmpp.v3_iff _).1 h]
    · have h' : ¬ Spec.major s.version = 3 := fun e => h ((Cmpp.v3_iff _).2 e)
      simp [h, h']
  obtain ⟨e1, e2⟩ := Cmpp.deliver_recv_report (cmppReport zone t1 t2 s msgId seq id smsc) g _ spare rfl rfl rfl hdl
  have r1 : (Spec.Times.minute (Spec.slot 10 (Smgp.formatMinute (clockAt zone t1)))).map Int.ofNat =
      some ((t1 / 1000000000 + zone) / 60) := by rw [slot_minute, read_formatMinute h1]
  have r2 : (Spec.Times.minute (Spec.slot 10 (Smgp.formatMinute (clockAt zone (t2 + 10000000000))))).map Int.ofNat =
      some (((t2 + 10000000000) / 1000000000 + zone) / 60) := by rw [slot_minute, read_formatMinute h2]
  refine ⟨_, _, _, e1, e2, rfl, rfl, r1, r2, ?_, ?_⟩
  · show (Spec.Times.minute (Spec.slot 10 (Smgp.formatMinute (clockAt zone t1)))).map Int.ofNat = _ ↔ _
    rw [r1, Option.some.injEq]; exact eq_comm
  · intro m hm
    have hm' := Option.some.inj (r2.symm.trans hm)
    omega

/-- **C134, SMGP reports.** The same, with a minute in place of ten seconds: a report always gives as the time of delivery a minute later than the one in which the
report was begun. The receive time is that of the making of the packet, to the second. -/
theorem smgp_report_times_exactly (gbDec : Bytes → Option Bytes) (zone t0 t1 t2 t3 t4 : Int) (h1 : Shown zone t1)
    (h2 : Shown zone (t2 + 60000000000)) (h4 : Shown zone t4) (h12 : t1 ≤ t2)
    (ac : AuthConf) (mt : Smgp.Submit) (hne : mt.destTermID ≠ []) (seq : UInt32) (msgId nextId : Bytes)
    (hid : msgId.length = 10) (hnext : nextId.length = 10) (spare : Bytes) :
    ∃ p frame d rep, smgpReport zone t1 t2 t3 t4 ac mt seq msgId nextId = some p ∧ p.encode = some frame ∧
      recv (Smgp.Delivery.decode gbDec ac.version) frame spare = some (some d) ∧ d.report = some rep ∧ rep.id = msgId ∧
      (Spec.Times.second d.recvTime).map Int.ofNat = some (t4 / 1000000000 + zone) ∧
      (Spec.Times.minute rep.submitDate).map Int.ofNat = some ((t1 / 1000000000 + zone) / 60) ∧
      (Spec.Times.minute rep.doneDate).map Int.ofNat = some ((t2 / 1000000000 + zone) / 60 + 1) ∧
      ((Spec.Times.minute rep.submitDate).map Int.ofNat = some ((t0 / 1000000000 + zone) / 60) ↔
        (t0 / 1000000000 + zone) / 60 = (t1 / 1000000000 + zone) / 60) ∧
      (∀ m, (Spec.Times.minute rep.doneDate).map Int.ofNat = some m → (t1 / 1000000000 + zone) / 60 < m) := by
  obtain ⟨src, rest, hmt⟩ := List.exists_cons_of_ne_nil hne
  generalize hu : (t3 / 1000000000 + 946684800).toNat = unix
  have hf := Smgp.newReport_fits msgId (clockAt zone t1) (clockAt zone (t2 + 60000000000)) unix hid
  obtain ⟨p, hd⟩ : ∃ p, smgpReport zone t1 t2 t3 t4 ac mt seq msgId nextId = some p := by
    unfold smgpReport Smgp.newDeliveryReport; rw [hmt]; exact ⟨_, rfl⟩
  have hd' := hd
  unfold smgpReport Smgp.newDeliveryReport at hd'
  rw [hmt, List.head?_cons, Option.map_some, Option.some.injEq, hu] at hd'
  have e1 : p.isReport = 1 := by rw [← hd']
  have e2 : p.report = some (Smgp.newReport msgId (clockAt zone t1) (clockAt zone (t2 + 60000000000)) unix) := by rw [← hd']
  have e3 : p.msgId.length = 10 := by rw [← hd']; exact hnext
  have e4 : p.hdr.totalLength.toNat = 211 := by rw [← hd']; rfl
  have e5 : p.version = ac.version := by rw [← hd']
  have e6 : p.recvTime = Smgp.formatSecond (clockAt zone t4) := by rw [← hd']
  have hlen : (Spec.Smgp.deliverBody p (Spec.Smgp.reportBody
      (Smgp.newReport msgId (clockAt zone t1) (clockAt zone (t2 + 60000000000)) unix))).length = 199 := by
    rw [Smgp.length_deliverBody, Smgp.length_reportBody hf]
  have hrecv := Smgp.deliver_reads_report gbDec p _ p.hdr.sequenceId spare e1 e3 hf
  rw [e5] at hrecv
  have r1 : (Spec.Times.minute (Smgp.formatMinute (clockAt zone t1))).map Int.ofNat = _ := read_formatMinute h1
  have r2 : (Spec.Times.minute (Smgp.formatMinute (clockAt zone (t2 + 60000000000)))).map Int.ofNat =
      some ((t2 / 1000000000 + zone) / 60 + 1) := by
    rw [read_formatMinute h2, Option.some.injEq]; omega
  refine ⟨p, _, _, _, hd, Smgp.deliver_encode_report p _ e1 e2 hf e4, (by rw [recv_header12, hlen]; exact hrecv), rfl, rfl, ?_, r1, r2,
    ?_, ?_⟩
  · show (Spec.Times.second (Spec.slot 14 p.recvTime)).map Int.ofNat = _
    rw [e6, slot_second, read_formatSecond h4]
  · show (Spec.Times.minute (Smgp.formatMinute (clockAt zone t1))).map Int.ofNat = _ ↔ _
    rw [r1, Option.some.injEq]; exact eq_comm
  · intro m hm
    have hm' := Option.some.inj (r2.symm.trans hm)
    omega

/-- **C134, SMGP texts**: the receive time of a simulated text is the moment at which it was made, on the server's clock. -/
theorem smgp_text_time (gbEnc gbDec : Bytes → Option Bytes) (hgb : ∀ x b, gbEnc x = some b → gbDec b = some x) (zone now : Int)
    (hs : Shown zone now) (ac : AuthConf) (phone destNo txt data : Bytes) (seq : UInt32) (msgId spare : Bytes) (hid : msgId.length = 10)
    (hshort : (runes txt).length ≤ 70) (he : gbEnc txt = some data) (hlen : data.length ≤ 255) :
    ∃ frame d, (smgpDeliver gbEnc zone now ac phone destNo txt seq msgId).encode = some frame ∧
      recv (Smgp.Delivery.decode gbDec ac.version) frame spare = some (some d) ∧ d.msgContent = txt ∧
      (Spec.Times.second d.recvTime).map Int.ofNat = some (now / 1000000000 + zone) := by
  obtain ⟨d, hd⟩ : ∃ d, smgpDeliver gbEnc zone now ac phone destNo txt seq msgId = d := ⟨_, rfl⟩
  rw [hd]
  unfold smgpDeliver Smgp.newDeliver at hd
  simp only [if_neg (Nat.not_lt.2 hshort), he, Option.getD_some] at hd
  have hu : (UInt8.ofNat data.length).toNat = data.length := u8_ofNat_toNat (by omega)
  have e1 : d.isReport = 0 := by rw [← hd]
  have e2 : d.msgBytes = data := by rw [← hd]
  have e3 : d.msgLength = UInt8.ofNat data.length := by rw [← hd]
  have e4 : d.hdr.totalLength = 89 + d.msgLength.toUInt32 := by rw [← hd]
  have e5 : d.version = ac.version := by rw [← hd]
  have e6 : d.msgId = msgId := by rw [← hd]
  have e7 : d.recvTime = Smgp.formatSecond (clockAt zone now) := by rw [← hd]
  have ht : d.hdr.totalLength.toNat = 89 + d.msgLength.toNat := by
    have hu : d.msgLength.toUInt32.toNat = d.msgLength.toNat := by simp
    have en : (89 : UInt32).toNat = 89 := rfl
    have := d.msgLength.toNat_lt
    rw [e4, UInt32.toNat_add, hu, en]
    omega
  obtain ⟨frame, h1, _, h3⟩ := Smgp.deliver_recv_text gbDec d spare txt (by rw [e1]; decide) (by rw [e6, hid])
    (by rw [e2, e3, hu]) ht (by rw [e2]; exact hgb _ _ he)
  rw [e5] at h3
  refine ⟨frame, _, h1, h3, rfl, ?_⟩
  show (Spec.Times.second (Spec.slot 14 d.recvTime)).map Int.ofNat = _
  rw [e7, slot_second, read_formatSecond hs]

/-! ## Cases that meet the hypotheses -/

/-- 16 November 2026, 10:30:59 UTC. -/
def aMoment : Int := 848140259 * 1000000000

example : Shown 28800 aMoment ∧ Shown 0 (aMoment + 7200000000000) ∧ clockAt 28800 aMoment = ⟨26, 11, 16, 18, 30, 59⟩ ∧
    clockAt (-18000) (aMoment + 60000000000) = ⟨26, 11, 16, 5, 31, 59⟩ := by decide +kernel

/-- A submit at that moment, valid for two hours: 20:30:59 on UTC+8 time. Outside of UTC+8 the same call writes another moment. -/
example : ((cmppSubmit 28800 aMoment { mtValidDuration := 7200000000000 } [ascii "13800138000"] (ascii "hi") 1 [] 0 (fun _ => 0)).map
      (·.map (·.validTime))) = some [ascii "261116203059032+"] ∧
    ((cmppSubmit 0 aMoment { mtValidDuration := 7200000000000 } [ascii "13800138000"] (ascii "hi") 1 [] 0 (fun _ => 0)).map
      (·.map (·.validTime))) = some [ascii "261116123059032+"] := by decide +kernel

example : Opt.valid [.atTime (clockAt 28800 aMoment), .msgLevel 3] = none ∧ Opt.sendAt [.msgLevel 3] = none := by decide

/-- A report made 59 seconds past a minute for a submit of 4 seconds before says the minute of the submit, and as the time of delivery the minute after it;
one second later it says the wrong minute of the submit. -/
example : (aMoment - 4000000000) / 1000000000 / 60 = aMoment / 1000000000 / 60 ∧
    (aMoment - 4000000000) / 1000000000 / 60 ≠ (aMoment + 1000000000) / 1000000000 / 60 := by decide

end Gosms.Times
