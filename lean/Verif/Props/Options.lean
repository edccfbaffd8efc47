import Verif.Spec.Options
import Verif.Model.Cmpp
import Verif.Model.Smgp
import Verif.Model.Sgip

/-!
# C50, C51: message options
-/

namespace Gosms
open Spec (Opt)

/-- Induction on the list from the back: what the last option does. -/
theorem last_concat {α : Type} (sel : Opt → Option α) (l : List Opt) (o : Opt) :
    Opt.last sel (l ++ [o]) = (sel o).or (Opt.last sel l) := by
  unfold Opt.last
  cases h : sel o <;> simp [List.filterMap_append, h]

theorem load_concat (l : List Opt) (o : Opt) :
    loadMtOptions ((l ++ [o]).map Opt.call) = o.call (loadMtOptions (l.map Opt.call)) := by
  simp [loadMtOptions]

/-- The field `f` of the options is the last value given, passed through `g`, if every option either sets
it to `g` of its value or leaves it alone. -/
theorem load_field {α β : Type} (f : MtOptions → β) (sel : Opt → Option α) (g : α → β)
    (hset : ∀ op o a, sel op = some a → f (op.call o) = g a)
    (hkeep : ∀ op o, sel op = none → f (op.call o) = f o) (l : List Opt) :
    f (loadMtOptions (l.map Opt.call)) = ((Opt.last sel l).map g).getD (f mtDefaults) := by
  have key : ∀ r : List Opt, f (loadMtOptions (r.reverse.map Opt.call)) =
      ((Opt.last sel r.reverse).map g).getD (f mtDefaults) := by
    intro r
    induction r with
    | nil => rfl
    | cons op r ih =>
      rw [List.reverse_cons, load_concat, last_concat]
      cases h : sel op with
      | none => rw [hkeep op _ h, ih]; rfl
      | some a => rw [hset op _ a h]; rfl
  have := key l.reverse
  rwa [List.reverse_reverse] at this

/-- The not-given marker of the numeric options. -/
def notGiven : UInt8 := 0xf

/-- C50. `LoadMtOptions` applied to any list of options: every attribute has the last value given for it;
a value the attribute cannot have, and an attribute not mentioned, leave the not-given marker (15 for
numbers, the empty string for texts). Partial: an option made by `WithMtOptions` counts as nothing (see
`withMtOptions_fails`). -/
theorem loadMtOptions_partial (l : List Opt) :
    let o := loadMtOptions (l.map Opt.call)
    o.needReport = (Opt.report l).getD notGiven ∧
    o.msgLevel = (Opt.level l).getD notGiven ∧
    o.feeUsertype = (Opt.userType l).getD notGiven ∧
    o.feeTerminalType = (Opt.terminalType l).getD notGiven ∧
    o.serviceId = (Opt.service l).getD [] ∧
    o.feeTerminalId = (Opt.terminal l).getD [] ∧
    o.feeType = (Opt.fee l).getD [] ∧
    o.feeCode = (Opt.code l).getD [] ∧
    o.validTime = (Opt.valid l).getD [] ∧
    o.atTime = (Opt.sendAt l).getD [] ∧
    o.spSubNo = (Opt.subNo l).getD [] ∧
    o.linkID = (Opt.link l).getD [] := by
  have ftext : ∀ x : Option Bytes, (x.map id).getD [] = (x.filter fun s => s ≠ []).getD [] := by
    intro x
    cases x with
    | none => rfl
    | some s => by_cases h : s = [] <;> simp [h, Option.filter]
  refine ⟨?_, ?_, ?_, ?_, ?_, ?_, ?_, ?_, ?_, ?_, ?_, ?_⟩
  · refine (load_field MtOptions.needReport (fun | .needReport v => some v | _ => none)
      (fun v => if v ≠ 0 ∧ v ≠ 1 then 0xf else v) ?_ ?_ l).trans ?_
    · intro op o a h; cases op <;> cases h; rfl
    · intro op o h; cases op <;> first | rfl | cases h
    · unfold Opt.report
      generalize Opt.last _ l = x
      cases x with
      | none => rfl
      | some v =>
        by_cases h0 : v = 0 <;> by_cases h1 : v = 1 <;> simp [h0, h1, Option.filter, notGiven]
  · refine (load_field MtOptions.msgLevel (fun | .msgLevel v => some v | _ => none)
      (fun v => if v > 9 then 0xf else v) ?_ ?_ l).trans ?_
    · intro op o a h; cases op <;> cases h; rfl
    · intro op o h; cases op <;> first | rfl | cases h
    · unfold Opt.level
      generalize Opt.last _ l = x
      cases x with
      | none => rfl
      | some v =>
        by_cases h : v ≤ 9
        · have h' : ¬ v > 9 := UInt8.not_lt.2 h
          simp [h, h', Option.filter]
        · have h' : v > 9 := UInt8.not_le.1 h
          simp [h, h', Option.filter, notGiven]
  · refine (load_field MtOptions.feeUsertype (fun | .feeUsertype v => some v | _ => none)
      (fun v => if v ≠ 0 ∧ v ≠ 1 ∧ v ≠ 2 ∧ v ≠ 3 then 0xf else v) ?_ ?_ l).trans ?_
    · intro op o a h; cases op <;> cases h; rfl
    · intro op o h; cases op <;> first | rfl | cases h
    · unfold Opt.userType
      generalize Opt.last _ l = x
      cases x with
      | none => rfl
      | some v =>
        have hv : v ≤ 3 ↔ (v = 0 ∨ v = 1 ∨ v = 2 ∨ v = 3) := by
          rw [UInt8.le_iff_toNat_le]
          simp only [← UInt8.toNat_inj]
          have e : (3 : UInt8).toNat = 3 := rfl
          have e0 : (0 : UInt8).toNat = 0 := rfl
          have e1 : (1 : UInt8).toNat = 1 := rfl
          have e2 : (2 : UInt8).toNat = 2 := rfl
          omega
        simp only [Option.map_some, Option.getD_some, Option.filter, decide_eq_true_eq, hv]
        by_cases h0 : v = 0
        · simp [h0]
        · by_cases h1 : v = 1
          · simp [h1]
          · by_cases h2 : v = 2
            · simp [h2]
            · by_cases h3 : v = 3
              · simp [h3]
              · simp [h0, h1, h2, h3, notGiven]
  · refine (load_field MtOptions.feeTerminalType (fun | .feeTerminalType v => some v | _ => none)
      (fun v => if v ≠ 0 ∧ v ≠ 1 then 0xf else v) ?_ ?_ l).trans ?_
    · intro op o a h; cases op <;> cases h; rfl
    · intro op o h; cases op <;> first | rfl | cases h
    · unfold Opt.terminalType
      generalize Opt.last _ l = x
      cases x with
      | none => rfl
      | some v =>
        by_cases h0 : v = 0 <;> by_cases h1 : v = 1 <;> simp [h0, h1, Option.filter, notGiven]
  · refine (load_field MtOptions.serviceId (fun | .serviceId s => some s | _ => none) id ?_ ?_ l).trans
      (ftext _)
    · intro op o a h; cases op <;> cases h; rfl
    · intro op o h; cases op <;> first | rfl | cases h
  · refine (load_field MtOptions.feeTerminalId (fun | .feeTerminalId s => some s | _ => none) id ?_ ?_ l).trans
      (ftext _)
    · intro op o a h; cases op <;> cases h; rfl
    · intro op o h; cases op <;> first | rfl | cases h
  · refine (load_field MtOptions.feeType (fun | .feeType s => some s | _ => none)
      (fun s => if s ≠ ascii "01" ∧ s ≠ ascii "02" ∧ s ≠ ascii "03" ∧ s ≠ ascii "04" ∧ s ≠ ascii "05"
        then [] else s) ?_ ?_ l).trans ?_
    · intro op o a h; cases op <;> cases h; rfl
    · intro op o h; cases op <;> first | rfl | cases h
    · unfold Opt.fee
      generalize Opt.last _ l = x
      cases x with
      | none => rfl
      | some s =>
        simp only [Option.map_some, Option.getD_some, Option.filter, decide_eq_true_eq, List.mem_cons,
          List.not_mem_nil, or_false]
        by_cases h1 : s = ascii "01"
        · simp [h1]
        · by_cases h2 : s = ascii "02"
          · simp [h2]
          · by_cases h3 : s = ascii "03"
            · simp [h3]
            · by_cases h4 : s = ascii "04"
              · simp [h4]
              · by_cases h5 : s = ascii "05"
                · simp [h5]
                · simp [h1, h2, h3, h4, h5]
  · refine (load_field MtOptions.feeCode (fun | .feeCode s => some s | _ => none) id ?_ ?_ l).trans
      (ftext _)
    · intro op o a h; cases op <;> cases h; rfl
    · intro op o h; cases op <;> first | rfl | cases h
  · refine (load_field MtOptions.validTime (fun | .validTime s => some s | _ => none) id ?_ ?_ l).trans
      (ftext _)
    · intro op o a h; cases op <;> cases h; rfl
    · intro op o h; cases op <;> first | rfl | cases h
  · refine (load_field MtOptions.atTime
      (fun | .atTime t => some (formatTime t) | .atTimeStr s => some (s.take 12 ++ ascii "032+") | _ => none)
      id ?_ ?_ l).trans ?_
    · intro op o a h
      cases op <;> cases h
      · rfl
      · rename_i s
        show (if s.length > 12 then s.take 12 else s) ++ ascii "032+" = s.take 12 ++ ascii "032+"
        split
        · rfl
        · rw [List.take_of_length_le (by omega)]
    · intro op o h; cases op <;> first | rfl | cases h
    · unfold Opt.sendAt
      rw [Option.map_id]; rfl
  · refine (load_field MtOptions.spSubNo (fun | .spSubNo s => some s | _ => none) id ?_ ?_ l).trans
      (ftext _)
    · intro op o a h; cases op <;> cases h; rfl
    · intro op o h; cases op <;> first | rfl | cases h
  · refine (load_field MtOptions.linkID (fun | .linkID s => some s | _ => none) id ?_ ?_ l).trans
      (ftext _)
    · intro op o a h; cases op <;> cases h; rfl
    · intro op o h; cases op <;> first | rfl | cases h

/-- A list with repeated, out-of-range and unmentioned attributes. -/
example : Opt.report [.needReport 1, .msgLevel 12, .needReport 0] = some 0 ∧
    Opt.level [.needReport 1, .msgLevel 12, .needReport 0] = none ∧
    Opt.service [.serviceId (ascii "A"), .serviceId (ascii "B")] = some (ascii "B") ∧
    Opt.fee [.feeType (ascii "06")] = none := by
  refine ⟨?_, ?_, ?_, ?_⟩ <;> decide

/-- The last clause of C50 fails, always: `WithMtOptions(o)` has no effect at all, wherever it stands in
the list and whatever `o` is. -/
theorem withMtOptions_fails (o : MtOptions) (l1 l2 : List OptionFunc) :
    loadMtOptions (l1 ++ [withMtOptions o] ++ l2) = loadMtOptions (l1 ++ l2) := by
  simp [loadMtOptions, withMtOptions]

/-- In particular the message does not use `o`. -/
example : loadMtOptions [withMtOptions { needReport := 1, serviceId := ascii "SVC" }] ≠
    { needReport := 1, serviceId := ascii "SVC" } := by decide

/-! ## C51 -/

theorem ite_getD_num (x : Option UInt8) (d : UInt8) (h : ∀ v, x = some v → v ≠ 0xf) :
    (if x.getD notGiven ≠ 0xf then x.getD notGiven else d) = x.getD d := by
  cases x with
  | none => simp [notGiven]
  | some v => simp [h v rfl]

theorem ite_getD_text (x : Option Bytes) (d : Bytes) (h : ∀ v, x = some v → v ≠ []) :
    (if x.getD [] ≠ [] then x.getD [] else d) = x.getD d := by
  cases x with
  | none => simp
  | some v => simp [h v rfl]

theorem filter_some {α : Type} {p : α → Bool} {x : Option α} {v : α} (h : x.filter p = some v) : p v = true := by
  cases x with
  | none => cases h
  | some a =>
    simp only [Option.filter] at h
    split at h
    · cases h; assumption
    · cases h

theorem report_ne (l : List Opt) (v : UInt8) (h : Opt.report l = some v) : v ≠ 0xf := by
  have := filter_some h
  rintro rfl
  exact absurd this (by decide)

theorem level_ne (l : List Opt) (v : UInt8) (h : Opt.level l = some v) : v ≠ 0xf := by
  have := filter_some h
  rintro rfl
  exact absurd this (by decide)

theorem userType_ne (l : List Opt) (v : UInt8) (h : Opt.userType l = some v) : v ≠ 0xf := by
  have := filter_some h
  rintro rfl
  exact absurd this (by decide)

theorem terminalType_ne (l : List Opt) (v : UInt8) (h : Opt.terminalType l = some v) : v ≠ 0xf := by
  have := filter_some h
  rintro rfl
  exact absurd this (by decide)

theorem text_ne (sel : Opt → Option Bytes) (l : List Opt) (v : Bytes) (h : Opt.text sel l = some v) : v ≠ [] := by
  have := filter_some h
  simpa using this

theorem fee_ne (l : List Opt) (v : Bytes) (h : Opt.fee l = some v) : v ≠ [] := by
  have := filter_some h
  rintro rfl
  exact absurd this (by decide)

theorem sendAt_ne (l : List Opt) (v : Bytes) (h : Opt.sendAt l = some v) : v ≠ [] := by
  unfold Opt.sendAt Opt.last at h
  have hm := List.mem_of_getLast? h
  rw [List.mem_filterMap] at hm
  obtain ⟨op, _, ho⟩ := hm
  have h032 : ascii "032+" ≠ [] := by decide
  cases op <;> cases ho
  · unfold formatTime
    intro e
    exact h032 (List.append_eq_nil_iff.1 e).2
  · intro e
    exact h032 (List.append_eq_nil_iff.1 e).2

theorem ite_subNo (x : Option Bytes) (d : Bytes) (h : ∀ v, x = some v → v ≠ []) :
    (if x.getD [] ≠ [] then d ++ x.getD [] else d) = d ++ x.getD [] := by
  cases x with
  | none => simp
  | some v => simp [h v rfl]

namespace Cmpp

/-- CMPP: every packet of `NewSubmit` carries, for each attribute, the caller's value if there is one and
the account's default otherwise; the validity defaults to the clock reading `expiry` (now plus the
account's duration), the send time to none, and the sub-number is appended to the display number. -/
theorem cmpp_options (ac : AuthConf) (phones : List Bytes) (content : Bytes) (seq : UInt32)
    (l : List Opt) (g : UInt8) (expiry : Clock) (seqs : Nat → UInt32) (msgs : List Submit)
    (h : newSubmit ac phones content seq (l.map Opt.call) g expiry seqs = some msgs) :
    ∀ m ∈ msgs,
      m.registeredDel = (Opt.report l).getD ac.needReport ∧
      m.msgLevel = (Opt.level l).getD ac.defaultMsgLevel ∧
      m.feeUsertype = (Opt.userType l).getD ac.feeUserType ∧
      m.feeTerminalType = (Opt.terminalType l).getD ac.feeTerminalType ∧
      m.feeType = (Opt.fee l).getD ac.feeType ∧
      m.feeCode = (Opt.code l).getD ac.feeCode ∧
      m.feeTerminalId = (Opt.terminal l).getD ac.feeTerminalId ∧
      m.serviceId = (Opt.service l).getD ac.serviceId ∧
      m.linkID = (Opt.link l).getD ac.linkId ∧
      m.validTime = (Opt.valid l).getD (formatTime expiry) ∧
      m.atTime = (Opt.sendAt l).getD [] ∧
      m.srcId = ac.smsDisplayNo ++ (Opt.subNo l).getD [] := by
  have base : ∀ sub : Submit, sub.atTime = [] →
      let m := setOptions ac sub (loadMtOptions (l.map Opt.call)) expiry
      m.registeredDel = (Opt.report l).getD ac.needReport ∧
      m.msgLevel = (Opt.level l).getD ac.defaultMsgLevel ∧
      m.feeUsertype = (Opt.userType l).getD ac.feeUserType ∧
      m.feeTerminalType = (Opt.terminalType l).getD ac.feeTerminalType ∧
      m.feeType = (Opt.fee l).getD ac.feeType ∧
      m.feeCode = (Opt.code l).getD ac.feeCode ∧
      m.feeTerminalId = (Opt.terminal l).getD ac.feeTerminalId ∧
      m.serviceId = (Opt.service l).getD ac.serviceId ∧
      m.linkID = (Opt.link l).getD ac.linkId ∧
      m.validTime = (Opt.valid l).getD (formatTime expiry) ∧
      m.atTime = (Opt.sendAt l).getD [] ∧
      m.srcId = ac.smsDisplayNo ++ (Opt.subNo l).getD [] := by
    intro sub hat
    obtain ⟨o1, o2, o3, o4, o5, o6, o7, o8, o9, o10, o11, o12⟩ := loadMtOptions_partial l
    simp only [setOptions, o1, o2, o3, o4, o5, o6, o7, o8, o9, o10, o11, o12, hat]
    exact ⟨ite_getD_num _ _ (report_ne l), ite_getD_num _ _ (level_ne l),
      ite_getD_num _ _ (userType_ne l), ite_getD_num _ _ (terminalType_ne l),
      ite_getD_text _ _ (fee_ne l), ite_getD_text _ _ (text_ne _ l), ite_getD_text _ _ (text_ne _ l),
      ite_getD_text _ _ (text_ne _ l), ite_getD_text _ _ (text_ne _ l), ite_getD_text _ _ (text_ne _ l),
      ite_getD_text _ _ (sendAt_ne l), ite_subNo _ _ (text_ne _ l)⟩
  unfold newSubmit at h
  simp only [Option.bind_eq_some_iff, Option.map_eq_some_iff] at h
  obtain ⟨ids, _, slices, _, rfl⟩ := h
  have hb := base
    { hdr := ⟨UInt32.ofNat (if v3 ac.version then 163 else 138), SUBMIT, seq⟩, version := ac.version } rfl
  intro m hm
  split at hm
  · simp only [List.mem_singleton] at hm
    subst hm
    exact hb
  · rw [List.mem_iff_getElem] at hm
    obtain ⟨i, hi, rfl⟩ := hm
    simp only [List.getElem_mapIdx]
    exact hb

end Cmpp

namespace Sgip

/-- SGIP: the same for the attributes an SGIP submit takes from the options. Partial: the fee options are
ignored (see `sgip_fee_options_fails`). -/
theorem sgip_options_partial (ac : AuthConf) (phones : List Bytes) (content : Bytes)
    (l : List Opt) (g : UInt8) (expiry : Clock) (seqs : Nat → Seq3) (msgs : List Submit)
    (h : newSubmit ac phones content (l.map Opt.call) g expiry seqs = some msgs) :
    ∀ m ∈ msgs,
      m.reportFlag = (Opt.report l).getD ac.needReport ∧
      m.priority = (Opt.level l).getD ac.defaultMsgLevel ∧
      m.serviceType = (Opt.service l).getD ac.serviceId ∧
      m.expireTime = (Opt.valid l).getD (formatTime expiry) ∧
      m.scheduleTime = (Opt.sendAt l).getD [] ∧
      m.spNumber = ac.smsDisplayNo ++ (Opt.subNo l).getD [] := by
  have base : ∀ sub : Submit, sub.scheduleTime = [] →
      let m := setOptions ac sub (loadMtOptions (l.map Opt.call)) expiry
      m.reportFlag = (Opt.report l).getD ac.needReport ∧
      m.priority = (Opt.level l).getD ac.defaultMsgLevel ∧
      m.serviceType = (Opt.service l).getD ac.serviceId ∧
      m.expireTime = (Opt.valid l).getD (formatTime expiry) ∧
      m.scheduleTime = (Opt.sendAt l).getD [] ∧
      m.spNumber = ac.smsDisplayNo ++ (Opt.subNo l).getD [] := by
    intro sub hat
    obtain ⟨o1, o2, o3, o4, o5, o6, o7, o8, o9, o10, o11, o12⟩ := loadMtOptions_partial l
    simp only [setOptions, o1, o2, o5, o9, o10, o11, hat]
    exact ⟨ite_getD_num _ _ (report_ne l), ite_getD_num _ _ (level_ne l),
      ite_getD_text _ _ (text_ne _ l), ite_getD_text _ _ (text_ne _ l),
      ite_getD_text _ _ (sendAt_ne l), ite_subNo _ _ (text_ne _ l)⟩
  unfold newSubmit at h
  simp only [Option.map_eq_some_iff] at h
  obtain ⟨slices, _, rfl⟩ := h
  have hb := base { hdr := ⟨143, SUBMIT, (seqs 0).1, (seqs 0).2.1, (seqs 0).2.2⟩ } rfl
  intro m hm
  split at hm
  · simp only [List.mem_singleton] at hm
    subst hm
    exact hb
  · rw [List.mem_iff_getElem] at hm
    obtain ⟨i, hi, rfl⟩ := hm
    simp only [List.getElem_mapIdx]
    exact hb

/-- The fee type, fee code and paying number of an SGIP submit are always zero or empty, whatever the
options and the account say. -/
theorem sgip_fee_options_fails (ac : AuthConf) (phones : List Bytes) (content : Bytes)
    (opts : List OptionFunc) (g : UInt8) (expiry : Clock) (seqs : Nat → Seq3) (msgs : List Submit)
    (h : newSubmit ac phones content opts g expiry seqs = some msgs) :
    ∀ m ∈ msgs, m.feeType = 0 ∧ m.feeValue = [] ∧ m.chargeNumber = [] := by
  unfold newSubmit at h
  simp only [Option.map_eq_some_iff] at h
  obtain ⟨slices, _, rfl⟩ := h
  intro m hm
  split at hm
  · simp only [List.mem_singleton] at hm
    subst hm
    exact ⟨rfl, rfl, rfl⟩
  · rw [List.mem_iff_getElem] at hm
    obtain ⟨i, hi, rfl⟩ := hm
    simp only [List.getElem_mapIdx]
    exact ⟨rfl, rfl, rfl⟩

end Sgip

namespace Smgp

/-- What every packet of an SMGP `NewSubmit` takes from options and account, exactly. -/
theorem smgp_options_exact (gbEnc : Bytes → Option Bytes) (ac : AuthConf) (phones : List Bytes)
    (content : Bytes) (seq : UInt32) (l : List Opt) (g : UInt8) (clock : Clock) (seqs : Nat → UInt32)
    (msgs : List Submit)
    (h : newSubmit gbEnc ac phones content seq (l.map Opt.call) g clock seqs = some msgs) :
    ∀ m ∈ msgs,
      m.needReport = (match Opt.report l with
        | none => 0xf | some v => if v = 0 then ac.needReport else v) ∧
      m.priority = (match Opt.level l with
        | none => 0xf | some v => if v = 0 then ac.defaultMsgLevel else v) ∧
      m.serviceID = (Opt.service l).getD ac.serviceId ∧
      m.atTime = (Opt.sendAt l).getD [] ∧
      m.srcTermID = ac.smsDisplayNo ++ (Opt.subNo l).getD [] ∧
      m.validTime = formatTime clock ∧
      m.feeType = ac.feeType ∧ m.feeCode = ac.feeCode ∧ m.chargeTermID = ac.feeTerminalId := by
  have hnum : ∀ (x : Option UInt8) (d : UInt8),
      (if x.getD notGiven ≠ 0 then x.getD notGiven else d) =
        (match x with | none => 0xf | some v => if v = 0 then d else v) := by
    intro x d
    cases x with
    | none => simp [notGiven]
    | some v => by_cases h : v = 0 <;> simp [h]
  have base : ∀ sub : Submit, sub.atTime = [] →
      let m := setOptions ac sub (loadMtOptions (l.map Opt.call)) clock
      m.needReport = (match Opt.report l with
        | none => 0xf | some v => if v = 0 then ac.needReport else v) ∧
      m.priority = (match Opt.level l with
        | none => 0xf | some v => if v = 0 then ac.defaultMsgLevel else v) ∧
      m.serviceID = (Opt.service l).getD ac.serviceId ∧
      m.atTime = (Opt.sendAt l).getD [] ∧
      m.srcTermID = ac.smsDisplayNo ++ (Opt.subNo l).getD [] ∧
      m.validTime = formatTime clock := by
    intro sub hat
    obtain ⟨o1, o2, o3, o4, o5, o6, o7, o8, o9, o10, o11, o12⟩ := loadMtOptions_partial l
    simp only [setOptions, o1, o2, o5, o10, o11, hat]
    exact ⟨hnum _ _, hnum _ _,
      ite_getD_text _ _ (text_ne _ l), ite_getD_text _ _ (sendAt_ne l), ite_subNo _ _ (text_ne _ l), trivial⟩
  obtain ⟨b1, b2, b3, b4, b5, b6⟩ := base { hdr := ⟨126, SUBMIT, seq⟩, version := ac.version } rfl
  unfold newSubmit at h
  simp only at h
  split at h
  · cases h
    intro m hm
    cases hm
  · simp only [Option.map_eq_some_iff] at h
    obtain ⟨slices, _, rfl⟩ := h
    intro m hm
    split at hm
    · simp only [List.mem_singleton] at hm
      subst hm
      exact ⟨b1, b2, b3, b4, b5, b6, rfl, rfl, rfl⟩
    · rw [List.mem_iff_getElem] at hm
      obtain ⟨i, hi, rfl⟩ := hm
      simp only [List.getElem_mapIdx]
      exact ⟨b1, b2, b3, b4, b5, b6, trivial, trivial, trivial⟩

/-- C51 for SMGP, the part that holds: service id, send time and sub-number follow options and account;
report flag and priority do when the caller gives a value other than 0. -/
theorem smgp_options_partial (gbEnc : Bytes → Option Bytes) (ac : AuthConf) (phones : List Bytes)
    (content : Bytes) (seq : UInt32) (l : List Opt) (g : UInt8) (clock : Clock) (seqs : Nat → UInt32)
    (msgs : List Submit)
    (h : newSubmit gbEnc ac phones content seq (l.map Opt.call) g clock seqs = some msgs) :
    ∀ m ∈ msgs,
      (∀ v, v ≠ 0 → Opt.report l = some v → m.needReport = v) ∧
      (∀ v, v ≠ 0 → Opt.level l = some v → m.priority = v) ∧
      m.serviceID = (Opt.service l).getD ac.serviceId ∧
      m.atTime = (Opt.sendAt l).getD [] ∧
      m.srcTermID = ac.smsDisplayNo ++ (Opt.subNo l).getD [] := by
  intro m hm
  obtain ⟨h1, h2, h3, h4, h5, _⟩ := smgp_options_exact gbEnc ac phones content seq l g clock seqs msgs h m hm
  refine ⟨fun v hv e => ?_, fun v hv e => ?_, h3, h4, h5⟩
  · rw [h1, e]; simp [hv]
  · rw [h2, e]; simp [hv]

/-- The rest of C51 fails for SMGP, always: without the options, report flag and priority are 15, not the
account's defaults; the option value 0 is replaced by the account's default; the validity is the moment of
sending whatever option and account say; the fee options are ignored. -/
theorem smgp_options_fails (gbEnc : Bytes → Option Bytes) (ac : AuthConf) (phones : List Bytes)
    (content : Bytes) (seq : UInt32) (l : List Opt) (g : UInt8) (clock : Clock) (seqs : Nat → UInt32)
    (msgs : List Submit)
    (h : newSubmit gbEnc ac phones content seq (l.map Opt.call) g clock seqs = some msgs) :
    ∀ m ∈ msgs,
      (Opt.report l = none → m.needReport = 15) ∧ (Opt.level l = none → m.priority = 15) ∧
      (Opt.report l = some 0 → m.needReport = ac.needReport) ∧
      (Opt.level l = some 0 → m.priority = ac.defaultMsgLevel) ∧
      m.validTime = formatTime clock ∧
      m.feeType = ac.feeType ∧ m.feeCode = ac.feeCode ∧ m.chargeTermID = ac.feeTerminalId := by
  intro m hm
  obtain ⟨h1, h2, _, _, _, h6, h7⟩ :=
    smgp_options_exact gbEnc ac phones content seq l g clock seqs msgs h m hm
  refine ⟨fun e => ?_, fun e => ?_, fun e => ?_, fun e => ?_, h6, h7⟩
  · rw [h1, e]
  · rw [h2, e]
  · rw [h1, e]; rfl
  · rw [h2, e]; rfl

/-- With no options at all and an account that wants no report, the packet asks for "report 15". -/
example : Opt.report [] = none ∧ Opt.level [.serviceId (ascii "S")] = none ∧
    Opt.report [.needReport 0] = some 0 := by
  refine ⟨?_, ?_, ?_⟩ <;> decide

end Smgp
end Gosms
