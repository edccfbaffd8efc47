import Verif.Props.ServerReports
import Verif.Props.ServerRest

/-! # C79: when the server closes a connection -/

namespace Gosms.ServerTraffic
open Handlers Spec.ServerTraffic

theorem write_shut {f : Option Bytes} {a : After} {rest : List Act} (h : Act.shut ∈ write f a rest) : Act.shut ∈ rest := by
  unfold write at h
  split at h
  · simpa using h
  · cases h

theorem cmppReport_shut (d : Draw) (mt : Cmpp.Submit) (id : UInt64) : Act.shut ∉ cmppReport d mt id := by
  intro h; unfold cmppReport at h
  split at h
  · cases h
  · have := write_shut h; cases this

theorem smgpReport_shut (d : Draw) (mt : Smgp.Submit) (id : Bytes) : Act.shut ∉ smgpReport d mt id := by
  intro h; unfold smgpReport at h
  split at h
  · cases h
  · split at h
    · cases h
    · have := write_shut h; cases this

theorem ite_shut (c : Prop) [Decidable c] {l : List Act} (h : Act.shut ∉ l) : Act.shut ∉ if c then l else [] := by
  split
  · exact h
  · simp

theorem cmppSubmit_shut (d : Draw) (mt : Cmpp.Submit) : Act.shut ∉ cmppSubmit d mt := by
  intro h
  unfold cmppSubmit respond at h
  split at h
  · have := write_shut h; cases this
  · split at h
    · cases h
    · cases h
    · have h := write_shut h
      exact ite_shut _ (cmppReport_shut _ _ _) h

theorem smgpSubmit_shut (d : Draw) (mt : Smgp.Submit) : Act.shut ∉ smgpSubmit d mt := by
  intro h
  unfold smgpSubmit respond at h
  split at h
  · have := write_shut h; cases this
  · split at h
    · cases h
    · cases h
    · have h := write_shut h
      exact ite_shut _ (smgpReport_shut _ _ _) h

theorem sgipSubmit_shut (d : Draw) (mt : Sgip.Submit) : Act.shut ∉ sgipSubmit d mt := by
  intro h
  unfold sgipSubmit respond at h
  split at h
  · have := write_shut h; cases this
  · split at h
    · cases h
    · cases h
    · have := write_shut h; cases this

theorem getD_shut {α : Type} {o : Option α} {f : α → List Act} (hf : ∀ a, Act.shut ∉ f a) : Act.shut ∉ (o.map f).getD [] := by
  cases o with
  | none => simp
  | some a => exact hf a

theorem write_nil_shut (f : Option Bytes) (a : After) : Act.shut ∉ write f a [] := fun h => by
  have := write_shut h; cases this

theorem cmppConnect_shut (md5 : Bytes → Bytes) (d : Draw) (l : Cmpp.Connect) : Act.shut ∉ cmppConnect md5 d l := by
  unfold cmppConnect loginReply; exact write_nil_shut _ _

theorem smgpLogin_shut (md5 : Bytes → Bytes) (d : Draw) (l : Smgp.Login) : Act.shut ∉ smgpLogin md5 d l := by
  unfold smgpLogin loginReply; exact write_nil_shut _ _

theorem sgipBind_shut (d : Draw) (l : Sgip.Bind) : Act.shut ∉ sgipBind d l := by
  unfold sgipBind loginReply; exact write_nil_shut _ _

/-- Only a received termination response makes a task close the connection itself. -/
theorem shut_iff (e : Env) (r : Req) : Act.shut ∈ workOf e r ↔ r.kind = .terminateResp := by
  obtain ⟨p, gb, md5⟩ := e
  obtain ⟨ver, k, cmd, seq, body, d⟩ := r
  cases p <;> cases k <;> simp only [workOf, work]
  case cmpp.submit => exact ⟨fun h => absurd h (getD_shut (cmppSubmit_shut _)), fun h => by cases h⟩
  case smgp.submit => exact ⟨fun h => absurd h (getD_shut (smgpSubmit_shut _)), fun h => by cases h⟩
  case sgip.submit => exact ⟨fun h => absurd h (getD_shut (sgipSubmit_shut _)), fun h => by cases h⟩
  case cmpp.login => exact ⟨fun h => absurd h (getD_shut (cmppConnect_shut _ _)), fun h => by cases h⟩
  case smgp.login => exact ⟨fun h => absurd h (getD_shut (smgpLogin_shut _ _)), fun h => by cases h⟩
  case sgip.login => exact ⟨fun h => absurd h (getD_shut (sgipBind_shut _)), fun h => by cases h⟩
  case cmpp.active => exact ⟨fun h => absurd h (getD_shut fun _ => write_nil_shut _ _), fun h => by cases h⟩
  case smgp.active => exact ⟨fun h => absurd h (getD_shut fun _ => write_nil_shut _ _), fun h => by cases h⟩
  case cmpp.terminate => exact ⟨fun h => absurd h (getD_shut fun _ => write_nil_shut _ _), fun h => by cases h⟩
  case smgp.terminate => exact ⟨fun h => absurd h (getD_shut fun _ => write_nil_shut _ _), fun h => by cases h⟩
  case sgip.terminate => exact ⟨fun h => absurd h (getD_shut fun _ => write_nil_shut _ _), fun h => by cases h⟩
  all_goals simp

/-- The connection closes for a reason, and a task that has to close it does. -/
structure Shut (e : Env) (s : State) : Prop where
  acts : ∀ t ∈ s.tasks, Act.shut ∈ t.acts → ∃ r, s.reqs[t.req]? = some r ∧ r.kind = .terminateResp
  why : s.closing = true → (∃ x ∈ s.wire, x.2.2 = .refuse ∨ x.2.2 = .close) ∨ ∃ r ∈ s.reqs, r.kind = .terminateResp
  todo : s.gen ≤ 1 → ∀ k r, s.reqs[k]? = some r → r.kind = .terminateResp →
    s.closing = true ∨ ∃ t ∈ s.tasks, t.req = k ∧ Act.shut ∈ t.acts

theorem shut_go {e : Env} {s : State} (h : Shut e s) {i : Nat} {t : Task} (ht : s.tasks[i]? = some t) : Shut e (onGo s i t) := by
  have htm := List.mem_of_getElem? ht
  unfold onGo
  split
  · rename_i hnil
    refine ⟨fun t' ht' => h.acts t' (List.mem_of_mem_eraseIdx ht'), h.why, fun hg k r hr hk => ?_⟩
    rcases h.todo hg k r hr hk with hc | ⟨t', ht', e1, e2⟩
    · exact .inl hc
    · refine .inr ⟨t', ?_, e1, e2⟩
      obtain ⟨a, b, hab, hi⟩ := split_at ht
      have : s.tasks.eraseIdx i = a ++ b := by rw [hab, ← hi]; simp [List.eraseIdx_append_of_length_le]
      show t' ∈ s.tasks.eraseIdx i
      rw [this]
      rw [hab] at ht'
      rcases List.mem_append.1 ht' with m | m
      · exact List.mem_append_left _ m
      · rcases List.mem_cons.1 m with m | m
        · subst m; rw [hnil] at e2; cases e2
        · exact List.mem_append_right _ m
  · rename_i a rest hacts
    have hset : ∀ x ∈ s.tasks.set i { t with acts := rest }, x ∈ s.tasks ∨ x = { t with acts := rest } := by
      intro x hx; exact List.mem_or_eq_of_mem_set hx
    have hA : ∀ t' ∈ s.tasks.set i { t with acts := rest }, Act.shut ∈ t'.acts →
        ∃ r, s.reqs[t'.req]? = some r ∧ r.kind = .terminateResp := by
      intro t' ht' hs
      rcases hset t' ht' with m | m
      · exact h.acts t' m hs
      · subst m
        exact h.acts t htm (by rw [hacts]; exact List.mem_cons_of_mem _ hs)
    cases a with
    | shut =>
      refine ⟨hA, fun _ => ?_, fun _ _ _ _ _ => .inl rfl⟩
      obtain ⟨r, hr, hk⟩ := h.acts t htm (by rw [hacts]; exact List.mem_cons_self)
      exact .inr ⟨r, List.mem_of_getElem? hr, hk⟩
    | send f x =>
      refine ⟨hA, h.why, fun hg k r hr hk => ?_⟩
      rcases h.todo hg k r hr hk with hc | ⟨t', ht', e1, e2⟩
      · exact .inl hc
      · refine .inr ?_
        obtain ⟨a, b, hab, hi⟩ := split_at ht
        have hs' : s.tasks.set i { t with acts := rest } = a ++ { t with acts := rest } :: b := by rw [hab, ← hi]; simp
        show ∃ t'' ∈ s.tasks.set i { t with acts := rest }, _
        rw [hs']
        rw [hab] at ht'
        rcases List.mem_append.1 ht' with m | m
        · exact ⟨t', List.mem_append_left _ m, e1, e2⟩
        · rcases List.mem_cons.1 m with m | m
          · subst m
            rw [hacts] at e2
            exact ⟨_, List.mem_append_right _ List.mem_cons_self, e1, by simpa using e2⟩
          · exact ⟨t', List.mem_append_right _ (List.mem_cons_of_mem _ m), e1, e2⟩

theorem shut_run (e : Env) (steps : List Step) : Shut e (run e steps) := by
  induction steps using snoc_induction with
  | nil => exact ⟨by simp [run], by simp [run], by simp [run]⟩
  | snoc l x ih =>
    have hinv := inv_run_all e l
    rw [run_snoc]
    generalize run e l = s at *
    unfold step
    split
    · exact ih
    · cases x with
      | packet cmd seq body d =>
        simp only [onPacket]
        split
        · exact ⟨ih.acts, ih.why, ih.todo⟩
        · exact ⟨ih.acts, ih.why, ih.todo⟩
        · exact ih
        · rename_i k hk
          refine ⟨?_, ?_, ?_⟩
          · intro t ht hs
            rcases List.mem_append.1 ht with m | m
            · obtain ⟨r, hr, hk⟩ := ih.acts t m hs
              exact ⟨r, by rw [List.getElem?_append_left (hinv.lt t m)]; exact hr, hk⟩
            · rw [List.mem_singleton.1 m] at hs ⊢
              exact ⟨⟨s.ver, k, cmd, seq, body, d⟩, by simp, (shut_iff e ⟨s.ver, k, cmd, seq, body, d⟩).1 hs⟩
          · intro hc
            rcases ih.why hc with h | ⟨r, hr, hk⟩
            · exact .inl h
            · exact .inr ⟨r, List.mem_append_left _ hr, hk⟩
          · intro hg j r hr hkk
            by_cases hlt : j < s.reqs.length
            · rw [List.getElem?_append_left hlt] at hr
              rcases ih.todo hg j r hr hkk with hc | ⟨t, ht, e1, e2⟩
              · exact .inl hc
              · exact .inr ⟨t, List.mem_append_left _ ht, e1, e2⟩
            · have hj : j = s.reqs.length := by
                have := (List.getElem?_eq_some_iff.1 hr).1
                simp at this; omega
              rw [hj, List.getElem?_append_right (Nat.le_refl _)] at hr
              simp at hr
              refine .inr ⟨_, List.mem_append_right _ (List.mem_singleton.2 rfl), hj.symm, ?_⟩
              rw [← hr] at hkk
              exact (shut_iff e ⟨s.ver, k, cmd, seq, body, d⟩).2 hkk
      | run i =>
        simp only [onRun]
        split
        · exact ih
        · rename_i t ht
          split
          · rename_i g hph
            split
            · obtain ⟨a, b, hab, hi⟩ := split_at ht
              have hs' : s.tasks.set i { t with phase := .inside s.gen } = a ++ { t with phase := .inside s.gen } :: b := by
                rw [hab, ← hi]; simp
              refine ⟨?_, ih.why, ?_⟩
              · intro t' ht' hs
                rcases List.mem_or_eq_of_mem_set ht' with m | m
                · exact ih.acts t' m hs
                · subst m; exact ih.acts t (List.mem_of_getElem? ht) hs
              · intro hg k r hr hk
                rcases ih.todo hg k r hr hk with hc | ⟨t', ht', e1, e2⟩
                · exact .inl hc
                · refine .inr ?_
                  show ∃ t'' ∈ s.tasks.set i { t with phase := .inside s.gen }, _
                  rw [hs']
                  rw [hab] at ht'
                  rcases List.mem_append.1 ht' with m | m
                  · exact ⟨t', List.mem_append_left _ m, e1, e2⟩
                  · rcases List.mem_cons.1 m with m | m
                    · subst m
                      exact ⟨_, List.mem_append_right _ List.mem_cons_self, e1, e2⟩
                    · exact ⟨t', List.mem_append_right _ (List.mem_cons_of_mem _ m), e1, e2⟩
            · exact ih
          · exact shut_go ih ht
          · exact shut_go ih ht
      | drop i =>
        simp only [onDrop]
        split
        · rename_i q g ac ht
          split
          · rename_i hlt
            refine ⟨fun t' ht' => ih.acts t' (List.mem_of_mem_eraseIdx ht'), ih.why, fun hg => ?_⟩
            have := hinv.wait _ (List.mem_of_getElem? ht) g rfl
            simp only at hg
            omega
          · exact ih
        · exact ih
      | loop =>
        simp only [onLoop]
        split
        · exact ih
        · rename_i k f a q hq
          cases a with
          | login ac =>
            simp only [onAfter]
            split
            · refine ⟨ih.acts, fun hc => ?_, ih.todo⟩
              rcases ih.why hc with ⟨x, hx, h⟩ | h
              · exact .inl ⟨x, List.mem_append_left _ hx, h⟩
              · exact .inr h
            · refine ⟨ih.acts, fun hc => ?_, fun hg => ih.todo ?_⟩
              · rcases ih.why hc with ⟨x, hx, h⟩ | h
                · exact .inl ⟨x, List.mem_append_left _ hx, h⟩
                · exact .inr h
              · simp only at hg; omega
          | close =>
            refine ⟨ih.acts, fun _ => .inl ⟨_, List.mem_append_right _ (List.mem_singleton.2 rfl), .inr rfl⟩, fun _ _ _ _ _ => .inl rfl⟩
          | refuse =>
            refine ⟨ih.acts, fun _ => .inl ⟨_, List.mem_append_right _ (List.mem_singleton.2 rfl), .inl rfl⟩, fun _ _ _ _ _ => .inl rfl⟩
          | none =>
            refine ⟨ih.acts, fun hc => ?_, ih.todo⟩
            rcases ih.why hc with ⟨x, hx, h⟩ | h
            · exact .inl ⟨x, List.mem_append_left _ hx, h⟩
            · exact .inr h
          | mt =>
            refine ⟨ih.acts, fun hc => ?_, ih.todo⟩
            rcases ih.why hc with ⟨x, hx, h⟩ | h
            · exact .inl ⟨x, List.mem_append_left _ hx, h⟩
            · exact .inr h
          | rpt =>
            refine ⟨ih.acts, fun hc => ?_, ih.todo⟩
            rcases ih.why hc with ⟨x, hx, h⟩ | h
            · exact .inl ⟨x, List.mem_append_left _ hx, h⟩
            · exact .inr h
      | close => exact ⟨ih.acts, ih.why, ih.todo⟩

theorem chain_terminateResp {p : Proto} {cmd : UInt32} {k : Kind} (h : (cmd, k) ∈ chain p) :
    k = .terminateResp ↔ cmd = Spec.responseOf (terminateCmd p) := by
  have : ∀ p, ∀ x ∈ chain p, (x.2 = .terminateResp ↔ x.1 = Spec.responseOf (terminateCmd p)) := by intro p; cases p <;> decide
  exact this p _ h

/-- What closes the connection once written: a refusing login response or the response to a termination. -/
theorem entry_closes {e : Env} (h16 : ∀ x, (e.md5 x).length = 16) {r : Req} (hg : Good e r) {x : Bytes × After} (hx : Entry e r x) :
    (x.2 = .refuse → command x.1 = be32 (Spec.responseOf (loginCmd e.proto)) ∧ refusal e.proto x.1 = true) ∧
    (x.2 = .close → command x.1 = be32 (Spec.responseOf (terminateCmd e.proto))) := by
  cases hx with
  | submit h => dsimp only; constructor <;> intro h' <;> split at h' <;> cases h'
  | report _ h => constructor <;> intro h' <;> cases h'
  | login h hc =>
    constructor
    · intro h'
      refine ⟨command_response _ _ _, ?_⟩
      have hnot : refusal e.proto (loginResponse e.md5 e.proto r.seq r.body (decision e r)) ≠ false := by
        intro hr
        obtain ⟨ac, hac⟩ := (refusal_iff h16 e.proto r.seq r.body (decision e r) (good_sgip hg)).1 hr
        simp only [hac, afterLogin] at h'
        cases h'
      simpa using hnot
    · intro h'
      simp only [afterLogin] at h'
      split at h' <;> cases h'
  | active _ h => constructor <;> intro h' <;> cases h'
  | terminate h => exact ⟨(fun h' => by cases h'), fun _ => command_response _ _ _⟩

/-- C79: the server closes a connection only after refusing its login, after confirming a termination, or when a logged-in session
confirms one. -/
theorem closing_reason (e : Env) (h16 : ∀ x, (e.md5 x).length = 16) (steps : List Step) (hc : (run e steps).closing = true) :
    (∃ f ∈ frames (run e steps), command f = be32 (Spec.responseOf (loginCmd e.proto)) ∧ refusal e.proto f = true) ∨
    (∃ f ∈ frames (run e steps), command f = be32 (Spec.responseOf (terminateCmd e.proto))) ∨
    ∃ a seq body d b, steps = a ++ .packet (Spec.responseOf (terminateCmd e.proto)) seq body d :: b ∧ (run e a).stat = .login := by
  have hinv := inv_run_all e steps
  rcases (shut_run e steps).why hc with ⟨x, hx, h⟩ | ⟨r, hr, hk⟩
  · obtain ⟨r, hr, hg, hE⟩ := wire_entry h16 hinv hx
    rcases h with h | h
    · exact .inl ⟨_, frame_iff.2 ⟨x, hx, rfl⟩, (entry_closes h16 hg hE).1 h⟩
    · exact .inr (.inl ⟨_, frame_iff.2 ⟨x, hx, rfl⟩, (entry_closes h16 hg hE).2 h⟩)
  · obtain ⟨i, hi⟩ := List.getElem?_of_mem hr
    obtain ⟨a, b, hab, _, _, _, _, hs⟩ := req_origin e steps i r hi
    have hcmd := (chain_terminateResp (hinv.good r hr).1).1 hk
    refine .inr (.inr ⟨a, r.seq, r.body, r.draw, b, ?_, ?_⟩)
    · rw [hab]; simp only [ofReq, hcmd]
    · rcases hs with hs | hs
      · rw [hk] at hs; cases hs
      · exact hs

/-- A packet with a handler, received in a run whose process and connection survive, became a request (and, unless it is a login, the
session was logged in). -/
theorem received {e : Env} {a b : List Step} {cmd seq : UInt32} {body : Bytes} {d : Draw} {k : Kind} (hk : (cmd, k) ∈ chain e.proto)
    (hc : (run e (a ++ .packet cmd seq body d :: b)).crashed = false) (ho : (run e (a ++ .packet cmd seq body d :: b)).isOpen = true) :
    (run e (a ++ .packet cmd seq body d :: b)).reqs[(run e a).reqs.length]? = some ⟨(run e a).ver, k, cmd, seq, body, d⟩ := by
  have hrun : run e (a ++ .packet cmd seq body d :: b) = b.foldl (step e) (step e (run e a) (.packet cmd seq body d)) := by
    rw [run_append]; rfl
  have hal := alive_foldl b (s := step e (run e a) (.packet cmd seq body d)) (by rw [← hrun]; exact ⟨hc, ho⟩)
  have hal0 := crashed_mono _ hal
  have hserve : serve e.gbDec e.proto (run e a).stat (run e a).ver cmd seq body = .task k := by
    rw [serve_handled _ _ _ _ _ _ _ _ hk]
    have hstep : step e (run e a) (.packet cmd seq body d) = onPacket e (run e a) cmd seq body d := by
      unfold step; rw [if_neg (by simp [hal0.1, hal0.2])]
    rw [hstep] at hal
    unfold onPacket at hal
    rw [serve_handled _ _ _ _ _ _ _ _ hk] at hal
    unfold handle at hal ⊢
    split
    · rename_i h; simp [if_pos h] at hal
    · rename_i h
      split
      · rfl
      · rename_i h'; simp [if_neg h, if_neg h'] at hal
  have hreqs : (step e (run e a) (.packet cmd seq body d)).reqs = (run e a).reqs ++ [⟨(run e a).ver, k, cmd, seq, body, d⟩] := by
    unfold step
    rw [if_neg (by simp [hal0.1, hal0.2])]
    simp only [onPacket, hserve]
  have hp := reqs_prefix e b (step e (run e a) (.packet cmd seq body d))
  rw [← hrun, hreqs] at hp
  obtain ⟨t, ht⟩ := hp
  rw [← ht, List.append_assoc, List.getElem?_append_right (Nat.le_refl _)]
  simp

/-- No second login: at most one window. -/
theorem one_window {e : Env} (h16 : ∀ x, (e.md5 x).length = 16) {steps : List Step}
    (hone : (steps.filter (onPackets fun c _ _ _ => c = loginCmd e.proto)).length ≤ 1) : (run e steps).gen ≤ 1 := by
  refine Nat.le_trans (gen_inv e steps).1 (Nat.le_trans ?_ hone)
  refine count_le_packets steps (fun x => isLogin x.2) (fun c _ _ _ => decide (c = loginCmd e.proto)) ?_
  intro r hgr
  rcases sends_shape h16 hgr with h | ⟨y, rest, h, hy, hyr, _, hrest⟩
  · rw [h]; simp
  · have hnone : rest.filter (fun x => isLogin x.2) = [] := by
      rw [List.filter_eq_nil_iff]
      intro z hz
      rw [(hrest z hz).2.1]; simp [isLogin]
    rw [h, List.filter_cons, hnone]
    cases hyl : isLogin y.2 with
    | false => simp
    | true =>
      cases hy2 : y.2 with
      | login ac =>
        have := (entry_login hy hy2).2.1
        simp [this]
      | none => rw [hy2] at hyl; cases hyl
      | mt => rw [hy2] at hyl; cases hyl
      | rpt => rw [hy2] at hyl; cases hyl
      | close => rw [hy2] at hyl; cases hyl
      | refuse => rw [hy2] at hyl; cases hyl

/-- At rest, with windows of at least one slot, no task is left. -/
theorem rest_no_tasks {e : Env} (h16 : ∀ x, (e.md5 x).length = 16) {steps : List Step}
    (hwin : Accounts (fun ac => 1 ≤ ac.mtWindowSize) steps) (hc : (run e steps).crashed = false) (ho : (run e steps).isOpen = true)
    (hs : Settled e (run e steps)) : (run e steps).tasks = [] ∧ (run e steps).queue = [] := by
  have hinv := inv_run_all e steps
  refine settled_empty hc ho hs (slots_le e steps) ?_
  rcases win_inv h16 _ steps hwin with ⟨h0, _⟩ | ⟨ac, h1, h2, h3⟩
  · right
    intro t ht g hg'
    have h1 := hinv.wait t ht g hg'
    have h2 := (gen_inv e steps).2 t ht g hg'
    omega
  · left; omega

/-- C79: when the other side confirms a termination the server closes the connection (with windows of at least one slot and no second
login). -/
theorem termination_response_closes_partial (e : Env) (h16 : ∀ x, (e.md5 x).length = 16) (a b : List Step) (seq : UInt32) (body : Bytes) (d : Draw)
    (hwin : Accounts (fun ac => 1 ≤ ac.mtWindowSize) (a ++ .packet (Spec.responseOf (terminateCmd e.proto)) seq body d :: b))
    (hone : ((a ++ .packet (Spec.responseOf (terminateCmd e.proto)) seq body d :: b).filter
      (onPackets fun c _ _ _ => c = loginCmd e.proto)).length ≤ 1)
    (hc : (run e (a ++ .packet (Spec.responseOf (terminateCmd e.proto)) seq body d :: b)).crashed = false)
    (ho : (run e (a ++ .packet (Spec.responseOf (terminateCmd e.proto)) seq body d :: b)).isOpen = true)
    (hs : Settled e (run e (a ++ .packet (Spec.responseOf (terminateCmd e.proto)) seq body d :: b))) :
    (run e (a ++ .packet (Spec.responseOf (terminateCmd e.proto)) seq body d :: b)).closing = true := by
  have hk : (Spec.responseOf (terminateCmd e.proto), Kind.terminateResp) ∈ chain e.proto := by cases e.proto <;> decide
  have hr := received hk hc ho
  have ht := (rest_no_tasks h16 hwin hc ho hs).1
  rcases (shut_run e _).todo (one_window h16 hone) _ _ hr rfl with h | ⟨t, hm, _⟩
  · exact h
  · rw [ht] at hm; cases hm

/-- A session that logs in and confirms a termination: everything but `Settled` by evaluation. -/
example : (run demoEnv (beatSteps ++ [.packet 0x80000002 6 [] {}, .run 0, .run 0, .run 0])).closing = true ∧
    (run demoEnv beatSteps).closing = false ∧
    (run demoEnv (beatSteps ++ [.packet 0x80000002 6 [] {}, .run 0, .run 0, .run 0])).tasks = [] ∧
    (run demoEnv (beatSteps ++ [.packet 0x80000002 6 [] {}, .run 0, .run 0, .run 0])).queue = [] ∧
    (run demoEnv (beatSteps ++ [.packet 0x80000002 6 [] {}, .run 0, .run 0, .run 0])).crashed = false ∧
    (run demoEnv (beatSteps ++ [.packet 0x80000002 6 [] {}, .run 0, .run 0, .run 0])).isOpen = true ∧
    Spec.responseOf (terminateCmd demoEnv.proto) = 0x80000002 := by decide

end Gosms.ServerTraffic

namespace Gosms.ServerTicks
open ServerTraffic (Env After Draw answer verdict Accounts onPackets)
open Handlers Spec.ServerTraffic

/-- The server has asked for the connection to be closed. -/
def asked (s : State) : Bool := s.closing || s.base.closing

theorem own_closing (gb : Bytes → Option Bytes) (e : Env) (t0 : Int) (steps : List Step) :
    (run gb e t0 steps).closing = true → ∃ f, Item.own f .close ∈ (run gb e t0 steps).wire := by
  induction steps using snoc_induction with
  | nil => intro h; simp [run] at h
  | snoc l x ih =>
    rw [run_snoc]
    have hw : ∀ f, Item.own f .close ∈ (run gb e t0 l).wire → Item.own f .close ∈ (step gb e (run gb e t0 l) x).wire :=
      fun f h => (wire_prefix gb e [x] (run gb e t0 l)).subset h
    intro h
    by_cases hc : (run gb e t0 l).closing = true
    · obtain ⟨f, hf⟩ := ih hc; exact ⟨f, hw f hf⟩
    generalize run gb e t0 l = s at *
    unfold step at h ⊢
    split at h
    · exact absurd h hc
    · rename_i hd
      rw [if_neg hd]
      cases x with
      | base z now =>
        cases z with
        | loop =>
          simp only [onLoop] at h ⊢
          cases hq : s.queue with
          | nil => rw [hq] at h; exact absurd h hc
          | cons it q =>
            rw [hq] at h
            cases it with
            | reply x => exact absurd h hc
            | own f a =>
              cases a with
              | close => exact ⟨f, by simp⟩
              | beat => exact absurd h hc
              | dly => exact absurd h hc
        | run i =>
          have : (onRun s i now).closing = s.closing := by unfold onRun; split <;> rfl
          simp only [onBase, this] at h
          exact absurd h hc
        | packet c q b d => exact absurd h hc
        | drop i => exact absurd h hc
        | close => exact absurd h hc
      | tick d =>
        have : (onTick s d).closing = s.closing := by unfold onTick; repeat' split
                                                      all_goals rfl
        simp only [this] at h
        exact absurd h hc
      | task i d =>
        have := (onTask_same gb e s i d).2.2.2.2.2.2
        simp only [this] at h
        exact absurd h hc

/-- C79, C90: the server closes a connection only after refusing its login, after sending or confirming a termination, or when a
logged-in session confirms one. -/
theorem closing_reason (gb : Bytes → Option Bytes) (e : Env) (h16 : ∀ x, (e.md5 x).length = 16) (t0 : Int) (steps : List Step)
    (hc : asked (run gb e t0 steps) = true) :
    (∃ f ∈ frames (run gb e t0 steps), command f = be32 (Spec.responseOf (loginCmd e.proto)) ∧ refusal e.proto f = true) ∨
    (∃ f ∈ frames (run gb e t0 steps), command f = be32 (Spec.responseOf (terminateCmd e.proto)) ∨ command f = be32 (terminateCmd e.proto)) ∨
    ∃ a seq body d now b, steps = a ++ .base (.packet (Spec.responseOf (terminateCmd e.proto)) seq body d) now :: b ∧
      (run gb e t0 a).base.stat = .login := by
  unfold asked at hc
  rw [Bool.or_eq_true] at hc
  rcases hc with hc | hc
  · obtain ⟨f, hf⟩ := own_closing gb e t0 steps hc
    obtain ⟨lu, t, o, h⟩ := own_on_wire gb e t0 steps hf
    exact .inr (.inl ⟨f, List.mem_map.2 ⟨_, hf, rfl⟩, .inr ((own_command h).2.2.2.1 rfl)⟩)
  · have hs := (sim_run gb e t0 steps).2
    rw [hs] at hc
    rcases ServerTraffic.closing_reason e h16 _ hc with ⟨f, hf, h⟩ | ⟨f, hf, h⟩ | ⟨a', seq, body, d, b', hab, hst⟩
    · exact .inl ⟨f, base_frames (by rw [hs]; exact hf), h⟩
    · exact .inr (.inl ⟨f, base_frames (by rw [hs]; exact hf), .inl h⟩)
    · obtain ⟨a, now, b, h1, h2⟩ := project_packet gb e steps _ a' b' _ seq body d hab
      refine .inr (.inr ⟨a, seq, body, d, now, b, h1, ?_⟩)
      rw [(sim_run gb e t0 a).2]
      unfold answering
      rw [h2]; exact hst

/-- C79, with the server's own frames: a confirmed termination closes the connection. -/
theorem termination_response_closes_partial (gb : Bytes → Option Bytes) (e : Env) (h16 : ∀ x, (e.md5 x).length = 16) (t0 : Int)
    (a b : List Step) (cmd seq : UInt32) (body : Bytes) (d : Draw) (now : Int) (hcmd : cmd = Spec.responseOf (terminateCmd e.proto))
    (hwin : AccountsAll (fun ac => 1 ≤ ac.mtWindowSize) (a ++ .base (.packet cmd seq body d) now :: b))
    (hone : ((a ++ .base (.packet cmd seq body d) now :: b).filter (onPacketSteps fun c _ _ _ => c = loginCmd e.proto)).length ≤ 1)
    (hc : (run gb e t0 (a ++ .base (.packet cmd seq body d) now :: b)).base.crashed = false)
    (ho : (run gb e t0 (a ++ .base (.packet cmd seq body d) now :: b)).base.isOpen = true)
    (hs : Settled gb e (run gb e t0 (a ++ .base (.packet cmd seq body d) now :: b))) :
    asked (run gb e t0 (a ++ .base (.packet cmd seq body d) now :: b)) = true := by
  subst hcmd
  obtain ⟨b', hb'⟩ := project_split gb e t0 a b (Spec.responseOf (terminateCmd e.proto)) seq body d now
  generalize hst : a ++ .base (.packet (Spec.responseOf (terminateCmd e.proto)) seq body d) now :: b = steps at *
  obtain ⟨s1, s2⟩ := sim_run gb e t0 steps
  have hset := settled_base s1 hs
  have hone' := project_packets gb e (fun c _ _ _ => c = loginCmd e.proto) steps { lastUse := t0 }
  have hacs : Accounts _ (answering gb e t0 steps) := accounts_base hwin
  unfold asked
  rw [Bool.or_eq_true]
  right
  unfold answering at *
  rw [s2] at hc ho hset ⊢
  rw [hb'] at hc ho hset hacs hone' ⊢
  exact ServerTraffic.termination_response_closes_partial e h16 _ b' seq body d hacs (by rw [hone']; exact hone) hc ho hset

/-- A termination sent by the server. -/
example : (run some ServerTraffic.demoEnv 0 (ownSteps ++ .tick lastTick :: endSteps)).closing = true ∧
    asked (run some ServerTraffic.demoEnv 0 ownSteps) = false := by
  refine ⟨?_, ?_⟩ <;> decide +kernel

end Gosms.ServerTicks
