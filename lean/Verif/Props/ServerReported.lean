import Verif.Props.ServerClosing
import Verif.Props.CmppLengths

/-! # C77: accepted submits are reported, unless the configured rate denies it -/

namespace Gosms
open Rd

/-- Whatever `r` returns, started at index `i` of the body `b`, satisfies `Φ`. -/
def PostAt {α : Type} (b : Bytes) (i : Nat) (r : Rd α) (Φ : α → Prop) : Prop := ∀ v j, r (Buf.exact b) i = some (v, j) → Φ v

theorem postAt_byte {β : Type} {b : Bytes} {i : Nat} {k : UInt8 → Rd β} {Φ : β → Prop} (h : PostAt b (i + 1) (k (b.getD i 0)) Φ) :
    PostAt b i (Rd.byte >>= k) Φ := by
  intro v j hv
  simp only [bind_def, Rd.bind, Rd.byte, Buf.exact] at hv
  by_cases hi : i < b.length
  · rw [if_pos hi] at hv
    have e : b[i]? = some (b.getD i 0) := by
      rw [List.getD_eq_getElem?_getD, List.getElem?_eq_getElem hi]; rfl
    rw [e] at hv
    exact h v j hv
  · rw [if_neg hi] at hv; cases hv

theorem postAt_str {β : Type} {b : Bytes} {i n : Nat} {k : Bytes → Rd β} {Φ : β → Prop} (h : ∀ s, PostAt b (i + n) (k s) Φ) :
    PostAt b i (Rd.str n >>= k) Φ := by
  intro v j hv
  simp only [Rd.str, bind_def, Rd.bind, pure_def, Rd.pure, Rd.slice, Buf.exact] at hv
  by_cases hi : i + n ≤ b.length
  · rw [if_pos hi] at hv
    exact h _ v j hv
  · rw [if_neg hi] at hv; cases hv

theorem postAt_length {β : Type} {b : Bytes} {i : Nat} {k : Nat → Rd β} {Φ : β → Prop} (h : ∀ n, PostAt b i (k n) Φ) :
    PostAt b i (Rd.length >>= k) Φ := by
  intro v j hv
  simp only [bind_def, Rd.bind, Rd.length, Buf.exact] at hv
  exact h _ v j hv

theorem post_times {α : Type} (r : Rd α) (n : Nat) : Rd.Post (Rd.times r n) fun l => l.length = n := by
  induction n with
  | zero => exact Rd.post_pure rfl
  | succ n ih =>
    refine Rd.post_bind' fun a => Rd.post_bind ih fun l hl => Rd.post_pure ?_
    simp [hl]

/-- The recipients of a decoded submit are as many as its count byte says. -/
theorem Smgp.submit_recipients {g : Bytes → Option Bytes} {v : UInt8} {seq : UInt32} {body : Bytes} {mt : Smgp.Submit}
    (h : Smgp.Submit.decode g v seq (Buf.exact body) = some mt) : mt.destTermID.length = (body.getD 104 0).toNat := by
  unfold Smgp.Submit.decode Rd.run at h
  obtain ⟨⟨m, j⟩, h1, rfl⟩ := Option.map_eq_some_iff.1 h
  revert h1
  generalize hr : (Rd.length >>= _ : Rd Smgp.Submit) = r
  intro h1
  have : PostAt body 0 r fun (m : Smgp.Submit) => m.destTermID.length = (body.getD 104 0).toNat := by
    rw [← hr]
    refine postAt_length fun _ => ?_
    refine postAt_byte (postAt_byte (postAt_byte ?_))
    refine postAt_str fun _ => postAt_str fun _ => postAt_str fun _ => postAt_str fun _ => ?_
    refine postAt_byte ?_
    refine postAt_str fun _ => postAt_str fun _ => postAt_str fun _ => postAt_str fun _ => ?_
    refine postAt_byte ?_
    intro v j hv
    refine Rd.post_bind (Φ := fun (m : Smgp.Submit) => m.destTermID.length = (body.getD 104 0).toNat) (post_times (Rd.str 21) _) (fun l hl => ?_) _ _ v j hv
    repeat (refine Rd.post_bind' fun _ => ?_)
    exact Rd.post_pure hl
  exact this m j h1

end Gosms

namespace Gosms.ServerTraffic
open Handlers Spec.ServerTraffic

/-- What a report needs besides an accepted submit: in SMGP the account (for the version), an id of 10 bytes and a recipient; SGIP has
none. -/
def Reportable (e : Env) (body : Bytes) (d : Draw) : Prop :=
  match e.proto with
  | .cmpp => True
  | .smgp => d.conf ≠ none ∧ d.bcd.length = 10 ∧ body.getD 104 0 ≠ 0
  | .sgip => False

theorem cmpp_reported {gb : Bytes → Option Bytes} {md5 : Bytes → Bytes} {ver : UInt8} {cmd seq : UInt32} {body : Bytes}
    {d : Draw} (hd : decodes gb ver seq body .cmpp .submit = true) (ha : Able d) (hv : verdict d = .accepted) (hn : d.noReport = false) :
    ∃ f, (f, After.rpt) ∈ sends (workOf ⟨.cmpp, gb, md5⟩ ⟨ver, .submit, cmd, seq, body, d⟩) := by
  simp only [decodes] at hd
  obtain ⟨mt, hm⟩ := Option.isSome_iff_exists.1 hd
  have h1 : d.allow = true := by cases h : d.allow <;> simp [verdict, h] at hv ⊢
  have h2 : d.fail = false := by cases h : d.fail <;> simp [verdict, h, h1] at hv ⊢
  obtain ⟨c, hc⟩ := Option.ne_none_iff_exists'.1 ha.1
  obtain ⟨pt, hp⟩ := processTime_some (r := d.random) ha.2
  have rs := cmpp_submit_rsp hm .accepted d.id body d.bcd
  have h8 : code .cmpp .accepted = 0 := rfl
  rw [h8] at rs
  obtain ⟨f, hf, _⟩ := Cmpp.cmpp_report_length mt (mt.toResponse 0 d.id).msgId d.rptId d.rptSeq d.smsc d.subTime d.doneTime d.g
  refine ⟨f, ?_⟩
  simp only [workOf, work, hm, Option.map_some, Option.getD_some, cmppSubmit, cmppCheck, h1, h2, hc, hp, Bool.true_eq_false, if_false,
    Bool.false_eq_true, respond, if_true, rs, write, cmppReport, hn, hf]
  simp [sends]

theorem smgp_reported {gb : Bytes → Option Bytes} {md5 : Bytes → Bytes} {ver : UInt8} {cmd seq : UInt32} {body : Bytes}
    {d : Draw} (hd : decodes gb ver seq body .smgp .submit = true) (ha : Able d) (hv : verdict d = .accepted) (hn : d.noReport = false)
    (hr : Reportable ⟨.smgp, gb, md5⟩ body d) :
    ∃ f, (f, After.rpt) ∈ sends (workOf ⟨.smgp, gb, md5⟩ ⟨ver, .submit, cmd, seq, body, d⟩) := by
  obtain ⟨r1, r2, r3⟩ := hr
  simp only [decodes] at hd
  obtain ⟨mt, hm⟩ := Option.isSome_iff_exists.1 hd
  have h1 : d.allow = true := by cases h : d.allow <;> simp [verdict, h] at hv ⊢
  have h2 : d.fail = false := by cases h : d.fail <;> simp [verdict, h, h1] at hv ⊢
  obtain ⟨c, hc⟩ := Option.ne_none_iff_exists'.1 ha.1
  obtain ⟨ac, hac⟩ := Option.ne_none_iff_exists'.1 r1
  obtain ⟨pt, hp⟩ := processTime_some (r := d.random) ha.2
  have rs := smgp_submit_rsp hm .accepted d.id body d.bcd
  have h8 : code .smgp .accepted = 0 := rfl
  rw [h8] at rs
  have hne : mt.destTermID ≠ [] := by
    intro h
    have := Smgp.submit_recipients hm
    rw [h] at this
    exact r3 (UInt8.toNat_inj.1 this.symm)
  obtain ⟨src, rest, hmt⟩ := List.exists_cons_of_ne_nil hne
  obtain ⟨dd, hdd⟩ : ∃ dd, Smgp.newDeliveryReport ac mt d.rptSeq (mt.toResponse 0 d.bcd).msgId d.rptBcd d.clock d.subClock d.doneClock d.unix = some dd := by
    unfold Smgp.newDeliveryReport; rw [hmt]; exact ⟨_, rfl⟩
  obtain ⟨f, hf⟩ : ∃ f, dd.encode = some f := by
    unfold Smgp.newDeliveryReport at hdd
    obtain ⟨_, _, hdd⟩ := Option.map_eq_some_iff.1 hdd
    subst hdd
    exact ⟨_, Smgp.deliver_encode_report _ _ rfl rfl (Smgp.newReport_fits d.bcd d.subClock d.doneClock d.unix r2) rfl⟩
  refine ⟨f, ?_⟩
  simp only [workOf, work, hm, Option.map_some, Option.getD_some, smgpSubmit, smgpCheck, h1, h2, hc, hp, Bool.true_eq_false, if_false,
    Bool.false_eq_true, respond, if_true, rs, write, smgpReport, hn, hac, hdd, Option.bind_some, hf]
  simp [sends]

theorem write_rpt {f : Option Bytes} {a : After} {rest : List Act} (ha : a ≠ .rpt) {x : Bytes × After} (h : x ∈ sends (write f a rest)) :
    x.2 = .rpt → x ∈ sends rest := by
  intro hx
  unfold write at h
  split at h
  · rename_i b
    have : x ∈ (b, a) :: sends rest := h
    rcases List.mem_cons.1 this with h | h
    · subst h; exact absurd hx ha
    · exact h
  · cases h

theorem ite_mt (c : Prop) [Decidable c] : (if c then After.mt else .none) ≠ .rpt := by split <;> simp

theorem ite_nil {α : Type} (c : Prop) [Decidable c] {l : List α} (h : l = []) : (if c then l else []) = [] := by
  split
  · exact h
  · rfl

/-- If the draw denies the report, none is sent. -/
theorem denied {e : Env} (h16 : ∀ x, (e.md5 x).length = 16) {r : Req} (hg : Good e r) (hn : r.draw.noReport = true) {x : Bytes × After}
    (hx : x ∈ sends (workOf e r)) : x.2 ≠ .rpt := by
  intro hrpt
  have hk := (chain_submit hg.1).2 (entry_report (entry_of_mem h16 hg hx) hrpt).2.1
  obtain ⟨p, gb, md5⟩ := e
  obtain ⟨ver, k, cmd, seq, body, d⟩ := r
  simp only at hk hn
  subst hk
  cases p with
  | cmpp =>
    simp only [workOf, work] at hx
    cases hm : Cmpp.Submit.decode ver seq (Buf.exact body) with
    | none => rw [hm] at hx; cases hx
    | some mt =>
      rw [hm] at hx
      simp only [Option.map_some, Option.getD_some, cmppSubmit, respond] at hx
      split at hx
      · have := write_rpt (ite_mt _) hx hrpt; cases this
      · split at hx
        · cases hx
        · cases hx
        · have h := write_rpt (ite_mt _) hx hrpt
          rw [ite_nil _ (by simp [cmppReport, hn])] at h
          cases h
  | smgp =>
    simp only [workOf, work] at hx
    cases hm : Smgp.Submit.decode gb ver seq (Buf.exact body) with
    | none => rw [hm] at hx; cases hx
    | some mt =>
      rw [hm] at hx
      simp only [Option.map_some, Option.getD_some, smgpSubmit, respond] at hx
      split at hx
      · have := write_rpt (ite_mt _) hx hrpt; cases this
      · split at hx
        · cases hx
        · cases hx
        · have h := write_rpt (ite_mt _) hx hrpt
          rw [ite_nil _ (by simp [smgpReport, hn])] at h
          cases h
  | sgip =>
    exact absurd rfl (entry_report (entry_of_mem h16 hg hx) hrpt).2.2.2.1

/-- C77: there are at most as many reports as accepted submits for which the draw did not deny one. -/
theorem reports_only_when_drawn (e : Env) (h16 : ∀ x, (e.md5 x).length = 16) (steps : List Step) :
    ((frames (run e steps)).filter fun f => command f = be32 (deliverCmd e.proto)).length ≤
      (steps.filter (onPackets fun c _ _ d => c = submitCmd e.proto ∧ verdict d = .accepted ∧ d.noReport = false ∧ e.proto ≠ .sgip)).length := by
  rw [frames, List.filter_map, List.length_map]
  refine count_le_packets steps (fun x => decide (command x.1 = be32 (deliverCmd e.proto))) _ ?_
  intro r hg
  rcases sends_shape h16 hg with h | ⟨x, rest, h, hx, hxr, hlen, hrest⟩
  · rw [h]; simp
  · rw [h, List.filter_cons]
    have hx' : ¬ command x.1 = be32 (deliverCmd e.proto) := fun hh => hxr ((entry_command hg hx).2 hh)
    rw [if_neg (by simpa using hx')]
    refine Nat.le_trans (List.length_filter_le _ _) ?_
    cases rest with
    | nil => simp
    | cons y rest =>
      obtain ⟨hy, hy2, _⟩ := hrest y List.mem_cons_self
      obtain ⟨_, q2, q3, q4, _⟩ := entry_report hy hy2
      have hn : r.draw.noReport = false := by
        cases hn : r.draw.noReport with
        | false => rfl
        | true => exact absurd hy2 (denied h16 hg hn (by rw [h]; simp))
      simp only [q2, q3, hn, ne_eq, q4, not_false_eq_true, and_self, decide_true, if_true]
      exact hlen

/-- C77: a server at rest has reported every accepted submit for which the draw did not deny it (with windows of at least one slot and no
second login; SMGP: if the account is known and the submit has a recipient). -/
theorem accepted_submit_reported_partial (e : Env) (h16 : ∀ x, (e.md5 x).length = 16) (a b : List Step) (seq : UInt32) (body : Bytes) (d : Draw)
    (hacc : d.account ≠ none ∧ d.minMs < d.maxMs) (hv : verdict d = .accepted) (hn : d.noReport = false) (hrep : Reportable e body d)
    (hwin : Accounts (fun ac => 1 ≤ ac.mtWindowSize) (a ++ .packet (submitCmd e.proto) seq body d :: b))
    (hone : ((a ++ .packet (submitCmd e.proto) seq body d :: b).filter (onPackets fun c _ _ _ => c = loginCmd e.proto)).length ≤ 1)
    (hc : (run e (a ++ .packet (submitCmd e.proto) seq body d :: b)).crashed = false)
    (ho : (run e (a ++ .packet (submitCmd e.proto) seq body d :: b)).isOpen = true)
    (hs : Settled e (run e (a ++ .packet (submitCmd e.proto) seq body d :: b))) :
    ∃ f ∈ frames (run e (a ++ .packet (submitCmd e.proto) seq body d :: b)), command f = be32 (deliverCmd e.proto) ∧
      reportId (Cmpp.v3 (run e a).ver) e.proto f = messageId e.proto d.id d.bcd := by
  have hk : (submitCmd e.proto, Kind.submit) ∈ chain e.proto := by cases e.proto <;> decide
  have hr := received hk hc ho
  have hgen := one_window h16 hone
  obtain ⟨ht, hq⟩ := rest_no_tasks h16 hwin hc ho hs
  generalize a ++ .packet (submitCmd e.proto) seq body d :: b = steps at *
  have hinv := inv_run_all e steps
  have hg := hinv.good _ (List.mem_of_getElem? hr)
  have how := (hinv.owes _ _ hr).2 hgen
  rw [owed, ht, hq] at how
  simp only [forReq, pend, List.filter_nil, List.map_nil, List.flatMap_nil, List.append_nil] at how
  obtain ⟨f, hf⟩ : ∃ f, (f, After.rpt) ∈ sends (workOf e ⟨(run e a).ver, .submit, submitCmd e.proto, seq, body, d⟩) := by
    obtain ⟨p, gb, md5⟩ := e
    cases p with
    | cmpp => exact cmpp_reported hg.2 hacc hv hn
    | smgp => exact smgp_reported hg.2 hacc hv hn hrep
    | sgip => exact absurd hrep (by simp [Reportable])
  have hE := entry_report (entry_of_mem h16 hg hf) rfl
  rw [← how] at hf
  obtain ⟨y, hy, hyx⟩ := List.mem_map.1 hf
  refine ⟨f, frame_iff.2 ⟨y, (List.mem_filter.1 hy).1, by rw [hyx]⟩, hE.1, hE.2.2.2.2.2 ?_⟩
  intro hp
  unfold Reportable at hrep
  rw [hp] at hrep
  exact hrep.2.1

/-- The submit of the session `demoSteps`: its report carries message id 77. -/
example : ∃ f ∈ frames (run demoEnv demoSteps), command f = be32 5 ∧ reportId false .cmpp f = be64 77 := by
  have h := accepted_submit_reported_partial demoEnv (by simp [demoEnv]) (demoSteps.take 4) (demoSteps.drop 5) 2
    (Handlers.exampleSubmitBody [97]) { account := some {}, id := 77, rptId := 78, rptSeq := 9 } (by decide) (by decide) rfl trivial
    demo_accounts (by show (demoSteps.filter _).length ≤ 1; decide) demo_run.2.2.1 demo_run.2.2.2.1 demo_settled
  have hv : (run demoEnv (demoSteps.take 4)).ver = 0x20 := by decide
  rw [hv] at h
  exact h

end Gosms.ServerTraffic

namespace Gosms.ServerTicks
open ServerTraffic (Env After Draw answer verdict Accounts onPackets Reportable)
open Handlers Spec.ServerTraffic

/-- C77, with the server's own frames. -/
theorem accepted_submit_reported_partial (gb : Bytes → Option Bytes) (e : Env) (h16 : ∀ x, (e.md5 x).length = 16) (t0 : Int)
    (a b : List Step) (cmd seq : UInt32) (body : Bytes) (d : Draw) (now : Int) (hcmd : cmd = submitCmd e.proto)
    (hacc : d.account ≠ none ∧ d.minMs < d.maxMs) (hv : verdict d = .accepted) (hn : d.noReport = false) (hrep : Reportable e body d)
    (hwin : AccountsAll (fun ac => 1 ≤ ac.mtWindowSize) (a ++ .base (.packet cmd seq body d) now :: b))
    (hone : ((a ++ .base (.packet cmd seq body d) now :: b).filter (onPacketSteps fun c _ _ _ => c = loginCmd e.proto)).length ≤ 1)
    (hc : (run gb e t0 (a ++ .base (.packet cmd seq body d) now :: b)).base.crashed = false)
    (ho : (run gb e t0 (a ++ .base (.packet cmd seq body d) now :: b)).base.isOpen = true)
    (hs : Settled gb e (run gb e t0 (a ++ .base (.packet cmd seq body d) now :: b))) :
    ∃ f ∈ frames (run gb e t0 (a ++ .base (.packet cmd seq body d) now :: b)), command f = be32 (deliverCmd e.proto) ∧
      reportId (Cmpp.v3 (run gb e t0 a).base.ver) e.proto f = messageId e.proto d.id d.bcd := by
  subst hcmd
  obtain ⟨b', hb'⟩ := project_split gb e t0 a b (submitCmd e.proto) seq body d now
  have hver := (sim_run gb e t0 a).2
  generalize hst : a ++ .base (.packet (submitCmd e.proto) seq body d) now :: b = steps at *
  obtain ⟨s1, s2⟩ := sim_run gb e t0 steps
  have hset := settled_base s1 hs
  have hone' := project_packets gb e (fun c _ _ _ => c = loginCmd e.proto) steps { lastUse := t0 }
  have hacs : Accounts _ (answering gb e t0 steps) := accounts_base hwin
  unfold answering at *
  rw [s2] at hc ho hset
  rw [hb'] at hc ho hset hacs hone'
  obtain ⟨f, hf, h⟩ := ServerTraffic.accepted_submit_reported_partial e h16 _ b' seq body d hacc hv hn hrep hacs (by rw [hone']; exact hone) hc ho hset
  refine ⟨f, base_frames ?_, ?_⟩
  · rw [s2, hb']; exact hf
  · rw [hver]; exact h

end Gosms.ServerTicks
