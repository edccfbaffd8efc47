import Verif.Props.ServerAnswers

/-! # Reports, logins and counters of a connection (C77-C80) -/

namespace Gosms.ServerTraffic
open Handlers Spec.ServerTraffic

/-! ## C77: reports -/

/-- C77: a report follows its response. Whatever the packets and the schedule: a delivery on the connection comes after the accepting
response to a submit that arrived in a logged-in session, and it carries the message id of that response. (SMGP ids are 10 bytes; SGIP
has no reports.) -/
theorem report_after_response (e : Env) (h16 : ∀ x, (e.md5 x).length = 16) (steps : List Step) (pre post : List Bytes) (f : Bytes)
    (hw : frames (run e steps) = pre ++ f :: post) (hc : command f = be32 (deliverCmd e.proto)) :
    ∃ a seq body d b, steps = a ++ .packet (submitCmd e.proto) seq body d :: b ∧ (run e a).stat = .login ∧
      d.account ≠ none ∧ d.minMs < d.maxMs ∧ verdict d = .accepted ∧
      submitResponse (Cmpp.v3 (run e a).ver) e.proto seq body .accepted d.id d.bcd ∈ pre ∧
      ((e.proto = .smgp → d.bcd.length = 10) → reportId (Cmpp.v3 (run e a).ver) e.proto f = messageId e.proto d.id d.bcd) := by
  unfold frames at hw
  obtain ⟨wp, wr, hwire, hwp, hwr⟩ := List.map_eq_append_iff.1 hw
  obtain ⟨x, wq, rfl, hxf, _⟩ := List.map_eq_cons_iff.1 hwr
  obtain ⟨r, hr, hg, hp⟩ := wire_split (inv_run_all e steps) hwire
  have hE := entry_of_mem h16 hg (hp.subset (List.mem_append_right _ (List.mem_singleton.2 rfl)))
  have hrpt : x.2.2 = .rpt := (entry_command hg hE).2 (by rw [hxf]; exact hc)
  obtain ⟨_, q2, q3, _, q5, q6⟩ := entry_report hE hrpt
  obtain ⟨a, b, hab, _, hv, _, _, hl⟩ := req_origin e steps _ _ hr
  have hlog : (run e a).stat = .login := by
    rcases hl with hl | hl
    · have := (chain_submit hg.1).2 q2
      rw [hl] at this; cases this
    · exact hl
  refine ⟨a, r.seq, r.body, r.draw, b, ?_, hlog, q5.1, q5.2, q3, ?_, ?_⟩
  · rw [hab, ← q2]; rfl
  · -- the answer comes first in the frames of the request
    rcases sends_shape h16 hg with h | ⟨y, rest, h, hy, hyr, _, hrest⟩
    · rw [h] at hp
      have := hp.length_le
      simp at this
    · rw [h] at hp
      have hmem : x.2 ∈ y :: rest := hp.subset (List.mem_append_right _ (List.mem_singleton.2 rfl))
      have hy2 : y = (submitAnswer e r, .mt) := by
        rcases List.mem_cons.1 hmem with h' | h'
        · rw [← h'] at hyr; exact absurd hrpt hyr
        · exact (hrest _ h').2.2
      cases hpre : forReq x.1 wp with
      | nil =>
        rw [hpre] at hp
        obtain ⟨t, ht⟩ := hp
        simp only [List.nil_append, List.cons_append, List.cons.injEq] at ht
        rw [← ht.1] at hyr
        exact absurd hrpt hyr
      | cons z zs =>
        rw [hpre] at hp
        obtain ⟨t, ht⟩ := hp
        simp only [List.cons_append, List.cons.injEq] at ht
        have hz : z ∈ forReq x.1 wp := by rw [hpre]; exact List.mem_cons_self
        obtain ⟨w, hw', hwz⟩ := List.mem_map.1 hz
        rw [← hwp]
        refine List.mem_map.2 ⟨w, (List.mem_filter.1 hw').1, ?_⟩
        rw [hwz, ht.1, hy2]
        simp only [submitAnswer, q3, hv]
  · rw [← hv, ← hxf]; exact q6

/-- C77: at most one report per accepted submit. -/
theorem reports_at_most_once (e : Env) (h16 : ∀ x, (e.md5 x).length = 16) (steps : List Step) :
    ((frames (run e steps)).filter fun f => command f = be32 (deliverCmd e.proto)).length ≤
      (steps.filter (onPackets fun c _ _ d => c = submitCmd e.proto ∧ verdict d = .accepted ∧ e.proto ≠ .sgip)).length := by
  rw [frames, List.filter_map, List.length_map]
  refine count_le_packets steps (fun x => decide (command x.1 = be32 (deliverCmd e.proto))) _ ?_
  intro r hg
  rcases sends_shape h16 hg with h | ⟨x, rest, h, hx, hxr, hlen, hrest⟩
  · rw [h]; simp
  · rw [h, List.filter_cons]
    have hx' : ¬ command x.1 = be32 (deliverCmd e.proto) := fun hh => hxr ((entry_command hg hx).2 hh)
    rw [if_neg (by simpa using hx')]
    refine Nat.le_trans (List.length_filter_le _ _) ?_
    cases rest with
    | nil => simp
    | cons y rest =>
      obtain ⟨hy, hy2, _⟩ := hrest y List.mem_cons_self
      obtain ⟨_, q2, q3, q4, _⟩ := entry_report hy hy2
      simp only [q2, q3, ne_eq, q4, not_false_eq_true, and_self, decide_true, if_true]
      exact hlen

/-- SGIP submits are never reported. -/
theorem sgip_no_reports (e : Env) (h16 : ∀ x, (e.md5 x).length = 16) (hp : e.proto = .sgip) (steps : List Step) :
    ∀ f ∈ frames (run e steps), command f ≠ be32 (deliverCmd e.proto) := by
  intro f hf hc
  obtain ⟨x, hx, rfl⟩ := frame_iff.1 hf
  obtain ⟨r, hr, hg, hE⟩ := wire_entry h16 (inv_run_all e steps) hx
  exact (entry_report hE ((entry_command hg hE).2 hc)).2.2.2.1 hp

/-- The session above: its third frame is the report for the submit answered by the second. -/
example : (frames (run demoEnv demoSteps)).map command = [be32 0x80000001, be32 0x80000004] ++ be32 5 :: [be32 0x80000008] := by
  have := congrArg (List.map Prod.fst) demo_run.2.2.2.2
  simp only [List.map_map, frames] at this ⊢
  exact this

/-! ## C79: logins -/

/-- C79: nothing but a login is answered before a login was accepted. Every frame that is not a login response is preceded by the
accepting response to a login packet whose account, version, credentials and session count were all right. -/
theorem login_before_service (e : Env) (h16 : ∀ x, (e.md5 x).length = 16) (steps : List Step) :
    ((run e steps).stat = .login → ∃ ac seq body d, Step.packet (loginCmd e.proto) seq body d ∈ steps ∧
      loginVerdict e.md5 e.proto body d.find d.sessions = .ok ac ∧
      loginResponse e.md5 e.proto seq body (.ok ac) ∈ frames (run e steps)) := by
  induction steps using snoc_induction with
  | nil => intro h; cases h
  | snoc l x ih =>
    intro h
    have mono : (∃ ac seq body d, Step.packet (loginCmd e.proto) seq body d ∈ l ∧
        loginVerdict e.md5 e.proto body d.find d.sessions = .ok ac ∧
        loginResponse e.md5 e.proto seq body (.ok ac) ∈ frames (run e l)) →
        ∃ ac seq body d, Step.packet (loginCmd e.proto) seq body d ∈ l ++ [x] ∧
        loginVerdict e.md5 e.proto body d.find d.sessions = .ok ac ∧
        loginResponse e.md5 e.proto seq body (.ok ac) ∈ frames (run e (l ++ [x])) := by
      rintro ⟨ac, seq, body, d, h1, h2, h3⟩
      refine ⟨ac, seq, body, d, List.mem_append_left _ h1, h2, ?_⟩
      rw [run_snoc]
      exact ((step_wire e (run e l) x).map _).subset h3
    by_cases hl : (run e l).stat = .login
    · exact mono (ih hl)
    · rw [run_snoc] at h
      by_cases hdead : (run e l).crashed ∨ (run e l).isOpen = false
      · unfold step at h; rw [if_pos hdead] at h; exact absurd h hl
      · have hinv := inv_run_all e l
        have hstep := run_snoc e l x
        unfold step at hstep h
        rw [if_neg hdead] at hstep h
        cases x with
        | packet cmd seq body d =>
          simp only [onPacket] at h
          split at h <;> exact absurd h hl
        | run i =>
          have go : ∀ t, (onGo (run e l) i t).stat = (run e l).stat := by
            intro t; unfold onGo
            split
            · rfl
            · rename_i a _ _; cases a <;> rfl
          simp only [onRun] at h
          split at h
          · exact absurd h hl
          · rename_i t _
            split at h
            · split at h <;> exact absurd h hl
            · rw [go t] at h; exact absurd h hl
            · rw [go t] at h; exact absurd h hl
        | drop i =>
          simp only [onDrop] at h
          split at h
          · split at h <;> exact absurd h hl
          · exact absurd h hl
        | loop =>
          simp only [onLoop] at h hstep
          cases hq : (run e l).queue with
          | nil => rw [hq] at h; exact absurd h hl
          | cons y q =>
            obtain ⟨k, f, a⟩ := y
            simp only [hq] at h hstep
            cases a with
            | login ac =>
              obtain ⟨r, hr, hg, hE⟩ := queue_entry h16 hinv (x := (k, f, .login ac)) (by rw [hq]; exact List.mem_cons_self)
              obtain ⟨_, h2, h3, h4⟩ := entry_login hE rfl
              obtain ⟨a, b, hab, _⟩ := req_origin e l _ _ hr
              refine ⟨ac, r.seq, r.body, r.draw, ?_, h3, ?_⟩
              · rw [hab, ← h2]; exact List.mem_append_left _ (List.mem_append_right _ List.mem_cons_self)
              · rw [hstep, frames, (onAfter_reqs _ _).2.1, List.map_append]
                refine List.mem_append_right _ ?_
                simp only at h4
                rw [h4]; exact List.mem_cons_self
            | none => exact absurd h hl
            | mt => exact absurd h hl
            | rpt => exact absurd h hl
            | close => exact absurd h hl
            | refuse => simp only [onAfter] at h; cases h
        | close => exact absurd h hl

/-- C79: the frames before any other frame contain an accepting login response. -/
theorem service_after_login (e : Env) (h16 : ∀ x, (e.md5 x).length = 16) (steps : List Step) (pre post : List Bytes) (f : Bytes)
    (hw : frames (run e steps) = pre ++ f :: post) (hc : command f ≠ be32 (Spec.responseOf (loginCmd e.proto))) :
    ∃ ac seq body d, Step.packet (loginCmd e.proto) seq body d ∈ steps ∧
      loginVerdict e.md5 e.proto body d.find d.sessions = .ok ac ∧
      loginResponse e.md5 e.proto seq body (.ok ac) ∈ pre := by
  unfold frames at hw
  obtain ⟨wp, wr, hwire, hwp, hwr⟩ := List.map_eq_append_iff.1 hw
  obtain ⟨x, wq, rfl, hxf, _⟩ := List.map_eq_cons_iff.1 hwr
  have hinv := inv_run_all e steps
  obtain ⟨r, hr, hg, hE⟩ := wire_entry h16 hinv (x := x) (by rw [hwire]; simp)
  obtain ⟨a, b, hab, hk, hv, _, _, hl⟩ := req_origin e steps _ _ hr
  have hlog : (run e a).stat = .login := by
    rcases hl with hl | hl
    · exfalso
      have hcmd := (chain_login hg.1).1 hl
      have hne : x.2.2 ≠ .rpt := by
        intro h
        have := (chain_submit hg.1).2 (entry_report hE h).2.1
        rw [hl] at this; cases this
      have := (entry_answer hg hE hne).1
      rw [hxf, hcmd] at this
      exact hc this
    · exact hl
  obtain ⟨ac, seq, body, d, h1, h2, h3⟩ := login_before_service e h16 a hlog
  refine ⟨ac, seq, body, d, by rw [hab]; exact List.mem_append_left _ h1, h2, ?_⟩
  -- what was written before the packet arrived precedes the frame
  have hpre : (run e a).wire <+: wp := by
    have hp : (run e a).wire <+: (run e steps).wire := by
      rw [hab, run_append]; exact wire_prefix e _ _
    rw [hwire] at hp
    rcases Nat.lt_or_ge wp.length (run e a).wire.length with hlt | hge
    · exfalso
      obtain ⟨t, ht⟩ := hp
      have hx : x ∈ (run e a).wire := by
        have h1 := congrArg (fun l => l[wp.length]?) ht
        rw [List.getElem?_append_left hlt, List.getElem?_append_right (Nat.le_refl _)] at h1
        simp only [Nat.sub_self, List.getElem?_cons_zero] at h1
        exact List.mem_of_getElem? h1
      have := (inv_run_all e a).wlt x hx
      omega
    · exact List.prefix_of_prefix_length_le hp (List.prefix_append _ _) hge
  rw [← hwp]
  exact (hpre.map _).subset h3

/-- The account logs in and sends a heartbeat. -/
def beatSteps : List Step :=
  [.packet 1 1 demoLogin demoDraw, .run 0, .run 0, .loop, .packet 8 3 [] {}, .run 0, .run 0, .loop, .run 0]

example : frames (run demoEnv beatSteps) =
    [loginResponse demoEnv.md5 .cmpp 1 demoLogin (.ok demoAccount)] ++ response 8 3 [0] :: [] ∧
    command (response 8 3 [0]) ≠ be32 (Spec.responseOf (loginCmd .cmpp)) := by decide

theorem be32_zero_iff (c : UInt32) : be32 c = [0, 0, 0, 0] ↔ c = 0 :=
  ⟨fun h => be32_inj (h.trans (by decide : be32 0 = [0, 0, 0, 0]).symm), fun h => by rw [h]; decide⟩

/-- What a login response says. -/
theorem refusal_iff {md5 : Bytes → Bytes} (h16 : ∀ x, (md5 x).length = 16) (p : Proto) (seq : UInt32) (body : Bytes) (l : Login)
    (h8 : p = .sgip → 8 ≤ body.length) :
    refusal p (loginResponse md5 p seq body l) = false ↔ ∃ a, l = .ok a := by
  have h12 : ∀ b : Bytes, (response (loginCmd p) seq b).drop 12 = b := fun b => by
    rw [response, List.drop_left' (by simp)]
  have hl : ∀ b : Bytes, (response (loginCmd p) seq b).length = 12 + b.length := fun b => by simp [response]
  have hd := length_digest h16
  cases p with
  | cmpp =>
    unfold refusal loginResponse
    simp only [h12, hl]
    by_cases hv : Spec.major (loginVersion .cmpp body) = 3
    · rw [if_pos (by simp [hv, hd])]
      simp only [hv, if_true, List.append_assoc]
      rw [List.take_left' (by simp)]
      cases l <;> simp [Login.code, be32_zero_iff]
    · rw [if_neg (by simp [hv, hd])]
      simp only [hv, if_false, List.cons_append, List.nil_append, List.take_succ_cons, List.take_zero]
      cases l <;> simp [Login.code]
  | smgp =>
    unfold refusal loginResponse
    simp only [h12, List.append_assoc]
    rw [List.take_left' (by simp)]
    cases l <;> simp [Login.code, be32_zero_iff]
  | sgip =>
    unfold refusal loginResponse
    have h20 : (response (loginCmd .sgip) seq (body.take 8 ++ [(l.code .sgip).toUInt8])).drop 20 = [(l.code .sgip).toUInt8] := by
      have : (response (loginCmd .sgip) seq (body.take 8 ++ [(l.code .sgip).toUInt8])).drop 20 =
          ((response (loginCmd .sgip) seq (body.take 8 ++ [(l.code .sgip).toUInt8])).drop 12).drop 8 := by rw [List.drop_drop]
      rw [this, h12, List.drop_left' (by have := h8 rfl; simp; omega)]
    simp only [h20, List.take_succ_cons, List.take_zero]
    cases l <;> simp [Login.code]

/-- Whatever closes the connection once written has asked for it. -/
theorem closing_inv (e : Env) (steps : List Step) :
    ∀ x ∈ (run e steps).wire, x.2.2 = .refuse ∨ x.2.2 = .close → (run e steps).closing = true := by
  induction steps using snoc_induction with
  | nil => intro x hx; cases hx
  | snoc l x ih =>
    rw [run_snoc]
    generalize run e l = s at *
    unfold step
    split
    · exact ih
    · cases x with
      | packet cmd seq body d => simp only [onPacket]; split <;> exact ih
      | run i =>
        have go : ∀ t, (onGo s i t).wire = s.wire ∧ (s.closing = true → (onGo s i t).closing = true) := by
          intro t; unfold onGo
          split
          · exact ⟨rfl, id⟩
          · rename_i a _ _; cases a
            · exact ⟨rfl, id⟩
            · exact ⟨rfl, fun _ => rfl⟩
        simp only [onRun]
        split
        · exact ih
        · rename_i t _
          split
          · split <;> exact ih
          · rw [(go t).1]; exact fun x hx h => (go t).2 (ih x hx h)
          · rw [(go t).1]; exact fun x hx h => (go t).2 (ih x hx h)
      | drop i =>
        simp only [onDrop]
        split
        · split <;> exact ih
        · exact ih
      | loop =>
        simp only [onLoop]
        split
        · exact ih
        · rename_i k f a q hq
          intro x hx h
          rw [(onAfter_reqs _ _).2.1] at hx
          have hold : s.closing = true → (onAfter { s with queue := q, wire := s.wire ++ [(k, f, a)] } a).closing = true := by
            intro hc
            cases a <;> simp only [onAfter, hc]
            split <;> rfl
          rcases List.mem_append.1 hx with hx | hx
          · exact hold (ih x hx h)
          · simp only [List.mem_singleton] at hx
            subst hx
            rcases h with h | h <;> simp only at h <;> subst h <;> rfl
      | close => exact ih

/-- C79: a login response that refuses is the answer to a login with a reason to be refused, with the code for that reason, and
the connection is then closed by the server. One that accepts answers a login with nothing wrong. -/
theorem login_response_honest (e : Env) (h16 : ∀ x, (e.md5 x).length = 16) (steps : List Step) (f : Bytes)
    (hf : f ∈ frames (run e steps)) (hc : command f = be32 (Spec.responseOf (loginCmd e.proto))) :
    ∃ seq body d, Step.packet (loginCmd e.proto) seq body d ∈ steps ∧
      f = loginResponse e.md5 e.proto seq body (loginVerdict e.md5 e.proto body d.find d.sessions) ∧
      (refusal e.proto f = false ↔ ∃ ac, loginVerdict e.md5 e.proto body d.find d.sessions = .ok ac) ∧
      (refusal e.proto f = true → (run e steps).closing = true) := by
  obtain ⟨x, hx, rfl⟩ := frame_iff.1 hf
  obtain ⟨r, hr, hg, hE⟩ := wire_entry h16 (inv_run_all e steps) hx
  obtain ⟨a, b, hab, _⟩ := req_origin e steps _ _ hr
  have hne : x.2.2 ≠ .rpt := by
    intro h
    have := (entry_report hE h).1
    rw [hc] at this
    exact deliver_ne e.proto (cmds_lt e.proto).2.1 this.symm
  obtain ⟨q1, q2, q3⟩ := entry_answer hg hE hne
  rw [hc] at q1
  have hcmd := responseOf_inj (cmds_lt e.proto).2.1 q3 (be32_inj q1)
  have hk := (chain_login hg.1).2 hcmd.symm
  have hx2 : x.2 = (loginResponse e.md5 e.proto r.seq r.body (decision e r), afterLogin (decision e r)) := by
    generalize x.2 = y at hE
    cases hE with
    | submit h => rw [hk] at h; cases h
    | report _ h => rw [hk] at h; cases h
    | login h => rfl
    | active _ h => rw [hk] at h; cases h
    | terminate h => rw [hk] at h; cases h
  have href := refusal_iff h16 e.proto r.seq r.body (decision e r) (good_sgip hg)
  refine ⟨r.seq, r.body, r.draw, ?_, by rw [hx2]; rfl, by rw [hx2]; exact href, ?_⟩
  · rw [hab, hcmd]; exact List.mem_append_right _ List.mem_cons_self
  · intro ht
    rw [hx2] at ht
    refine closing_inv e steps x hx (.inl ?_)
    rw [hx2]
    simp only
    cases hd : decision e r with
    | ok ac => rw [href.2 ⟨ac, hd⟩] at ht; cases ht
    | unknown => rfl
    | version => rfl
    | secret => rfl
    | full => rfl

/-- A refused login: the account has no room for a session. -/
example : frames (run demoEnv [.packet 1 1 demoLogin { demoDraw with sessions := 1 }, .run 0, .loop]) =
      [loginResponse demoEnv.md5 .cmpp 1 demoLogin .full] ∧
    refusal .cmpp (loginResponse demoEnv.md5 .cmpp 1 demoLogin .full) = true ∧
    (run demoEnv [.packet 1 1 demoLogin { demoDraw with sessions := 1 }, .run 0, .loop]).closing = true := by decide

/-- C79: a termination is confirmed and then the server closes the connection. -/
theorem termination_closes (e : Env) (h16 : ∀ x, (e.md5 x).length = 16) (steps : List Step) (f : Bytes)
    (hf : f ∈ frames (run e steps)) (hc : command f = be32 (Spec.responseOf (terminateCmd e.proto))) :
    (run e steps).closing = true := by
  obtain ⟨x, hx, rfl⟩ := frame_iff.1 hf
  obtain ⟨r, hr, hg, hE⟩ := wire_entry h16 (inv_run_all e steps) hx
  have hne : x.2.2 ≠ .rpt := by
    intro h
    have := (entry_report hE h).1
    rw [hc] at this
    exact deliver_ne e.proto (cmds_lt e.proto).2.2.1 this.symm
  obtain ⟨q1, q2, q3⟩ := entry_answer hg hE hne
  rw [hc] at q1
  have hk := (chain_terminate hg.1).2 (responseOf_inj (cmds_lt e.proto).2.2.1 q3 (be32_inj q1)).symm
  refine closing_inv e steps x hx (.inr ?_)
  generalize x.2 = y at hE
  cases hE with
  | submit h => rw [hk] at h; cases h
  | report _ h => rw [hk] at h; cases h
  | login h => rw [hk] at h; cases h
  | active _ h => rw [hk] at h; cases h
  | terminate h => rfl

example : response 2 5 [] ∈ frames (run demoEnv (beatSteps ++ [.packet 2 5 [] {}, .run 0, .run 0, .loop])) ∧
    command (response 2 5 []) = be32 (Spec.responseOf (terminateCmd .cmpp)) := by decide

/-! ## C80: counters -/

/-- What a submit response says. -/
theorem acceptance_iff (v3 : Bool) (p : Proto) (seq : UInt32) (body : Bytes) (v : Verdict) (id : UInt64) (bcd : Bytes)
    (h8 : p = .sgip → 8 ≤ body.length) : acceptance p (submitResponse v3 p seq body v id bcd) = true ↔ v = .accepted := by
  have h12 : ∀ (n : Nat) (b : Bytes), (response (submitCmd p) seq b).drop (12 + n) = b.drop n := fun n b => by
    rw [response, ← List.drop_drop, List.drop_left' (by simp)]
  cases p with
  | cmpp =>
    unfold acceptance submitResponse
    simp only [h12 8]
    rw [List.drop_left' (by simp)]
    cases v3 <;> cases v <;> decide
  | smgp =>
    unfold acceptance submitResponse
    simp only [h12 10]
    rw [List.drop_left' (by simp; omega)]
    cases v <;> decide
  | sgip =>
    unfold acceptance submitResponse
    simp only [h12 8, List.append_assoc]
    rw [List.drop_left' (by have := h8 rfl; simp; omega)]
    cases v <;> simp [code]

theorem entry_mt {e : Env} {r : Req} (hg : Good e r) {x : Bytes × After} (hx : Entry e r x) :
    x.2 = .mt ↔ command x.1 = be32 (Spec.responseOf (submitCmd e.proto)) ∧ acceptance e.proto x.1 = true := by
  by_cases hr : x.2 = .rpt
  · refine ⟨fun h => (by rw [h] at hr; cases hr), fun h => ?_⟩
    have := (entry_report hx hr).1
    rw [h.1] at this
    exact absurd this.symm (deliver_ne e.proto (cmds_lt e.proto).1)
  obtain ⟨q1, _, q3⟩ := entry_answer hg hx hr
  have hcs : command x.1 = be32 (Spec.responseOf (submitCmd e.proto)) ↔ r.kind = .submit := by
    rw [q1, chain_submit hg.1]
    exact ⟨fun h => responseOf_inj q3 (cmds_lt e.proto).1 (be32_inj h), fun h => by rw [h]⟩
  rw [hcs]
  cases hx with
  | submit h1 h2 h3 =>
    simp only [submitAnswer]
    rw [acceptance_iff _ _ _ _ _ _ _ (good_sgip hg)]
    by_cases hv : verdict r.draw = .accepted
    · simp [hv, h1]
    · simp [hv]
  | report => exact absurd rfl hr
  | login h1 => simp only [h1, reduceCtorEq, false_and, iff_false]; cases decision e r <;> simp [afterLogin]
  | active f h1 => simp [h1]
  | terminate h1 => simp [h1]

/-- C80: the counters of a connection count what was written on it: accepted submits and reports. -/
theorem counters_exact (e : Env) (h16 : ∀ x, (e.md5 x).length = 16) (steps : List Step) :
    (run e steps).mt = UInt64.ofNat ((frames (run e steps)).filter fun f =>
      command f = be32 (Spec.responseOf (submitCmd e.proto)) ∧ acceptance e.proto f = true).length ∧
    (run e steps).rpt = UInt64.ofNat ((frames (run e steps)).filter fun f => command f = be32 (deliverCmd e.proto)).length := by
  have hinv := inv_run_all e steps
  constructor
  · rw [hinv.mt, frames, List.filter_map, List.length_map]
    congr 2
    apply List.filter_congr
    intro x hx
    obtain ⟨r, _, hg, hE⟩ := wire_entry h16 hinv hx
    simp only [Function.comp_def, decide_eq_decide]
    exact entry_mt hg hE
  · rw [hinv.rpt, frames, List.filter_map, List.length_map]
    congr 2
    apply List.filter_congr
    intro x hx
    obtain ⟨r, _, hg, hE⟩ := wire_entry h16 hinv hx
    simp only [Function.comp_def, decide_eq_decide]
    exact entry_command hg hE

set_option maxRecDepth 20000 in
example : (run demoEnv demoSteps).mt = 1 ∧ (run demoEnv demoSteps).rpt = 1 := by decide

/-! ## C78: the account's rules -/

/-- C78 fails: the rules are looked at but not enforced. Whatever the account, a submit that breaks its rules and is neither over the
rate limit nor hit by the simulated failures is accepted: once the server is at rest, its accepting response is on the connection. -/
theorem account_rules_fails (e : Env) (h16 : ∀ x, (e.md5 x).length = 16) (a b : List Step) (seq : UInt32) (body : Bytes)
    (d : Draw) (c : Auth.Client) (hacc : d.account = some c) (htime : d.minMs < d.maxMs)
    (_hbad : ¬ KeepsRules (Cmpp.v3 (run e a).ver) e.proto body c.smsDisplayNo)
    (hallow : d.allow = true) (hfail : d.fail = false)
    (hwin : Accounts (fun ac => 1 ≤ ac.mtWindowSize) (a ++ .packet (submitCmd e.proto) seq body d :: b))
    (hone : ((a ++ .packet (submitCmd e.proto) seq body d :: b).filter (onPackets fun c _ _ _ => c = loginCmd e.proto)).length ≤ 1)
    (hc : (run e (a ++ .packet (submitCmd e.proto) seq body d :: b)).crashed = false)
    (ho : (run e (a ++ .packet (submitCmd e.proto) seq body d :: b)).isOpen = true)
    (hs : Settled e (run e (a ++ .packet (submitCmd e.proto) seq body d :: b))) :
    submitResponse (Cmpp.v3 (run e a).ver) e.proto seq body .accepted d.id d.bcd ∈
      frames (run e (a ++ .packet (submitCmd e.proto) seq body d :: b)) := by
  refine packet_answered_partial e h16 a b (submitCmd e.proto) seq body d _ ?_ (fun _ _ => ⟨by rw [hacc]; simp, htime⟩) hwin hone hc ho hs
  rw [answer, if_pos rfl]
  simp [verdict, hallow, hfail]

/-- The submit of the session above has no source number; an account with number 1 forbids that. -/
example : ¬ KeepsRules false .cmpp (Handlers.exampleSubmitBody [97]) [49] := by decide

end Gosms.ServerTraffic
