import Verif.Props.ServerFrames
import Verif.Props.Heartbeat

/-! # Heartbeats, inactivity and terminations against the history of a connection (C49, C68, C90) -/

namespace Gosms.ServerTicks
open ServerTraffic (Env After Draw answer verdict Accounts onPackets)
open Handlers Spec.ServerTraffic
open Spec.ServerTicks (heartbeat termination entry activity)
open Heartbeat (Ev)
open Spec (unanswered lastActivity)

/-- What a written frame means for the history: a heartbeat, an answer that counts as use, or nothing. -/
def written (p : Proto) (now : Int) : Item → List Ev
  | .own _ .beat => [.beat now]
  | .own .. => []
  | .reply x => if activity p x.2.1 then [.use now] else []

/-- What the end of the handling of a packet means for the history, by the command of the packet: the answer to a heartbeat, the answer to
a delivery (which counts as use), or nothing. -/
def handled (p : Proto) (now : Int) (cmd : UInt32) : List Ev :=
  if (activeCmd p).map Spec.responseOf = some cmd then [.answer now]
  else if cmd = Spec.responseOf (deliverCmd p) then [.use now] else []

/-- The packet whose handling by task `i` is over in the later of two states: there is one task less. -/
def finished (s s' : State) (i : Nat) : Option ServerTraffic.Req :=
  if s'.base.tasks.length < s.base.tasks.length then (s.base.tasks[i]?).bind fun t => s.base.reqs[t.req]? else none

/-- The events of one step. -/
def events (gb : Bytes → Option Bytes) (e : Env) (s : State) : Step → List Ev
  | .base .loop now => if s.base.crashed ∨ s.base.isOpen = false then [] else (s.queue.head?.map (written e.proto now)).getD []
  | .base (.run i) now => ((finished s (step gb e s (.base (.run i) now)) i).map fun r => handled e.proto now r.cmd).getD []
  | _ => []

/-- The history of a connection: heartbeats written, answers to them handled, and other use of the session. -/
def history (gb : Bytes → Option Bytes) (e : Env) : State → List Step → List Ev
  | _, [] => []
  | s, x :: xs => events gb e s x ++ history gb e (step gb e s x) xs

/-- The history from the start. -/
def log (gb : Bytes → Option Bytes) (e : Env) (t0 : Int) (steps : List Step) : List Ev := history gb e { lastUse := t0 } steps

theorem history_append (gb : Bytes → Option Bytes) (e : Env) (a b : List Step) : ∀ s : State,
    history gb e s (a ++ b) = history gb e s a ++ history gb e (a.foldl (step gb e) s) b := by
  induction a with
  | nil => intro s; rfl
  | cons x a ih => intro s; simp [history, ih]

theorem log_snoc (gb : Bytes → Option Bytes) (e : Env) (t0 : Int) (l : List Step) (x : Step) :
    log gb e t0 (l ++ [x]) = log gb e t0 l ++ events gb e (run gb e t0 l) x := by
  unfold log
  rw [history_append]
  simp [history, run]

theorem any_active {p : Proto} {f : Bytes} (h : (activeCmd p).any (fun c => decide (command f = be32 (Spec.responseOf c))) = true) :
    ∃ c, activeCmd p = some c ∧ command f = be32 (Spec.responseOf c) := by
  cases hc : activeCmd p with
  | none => rw [hc] at h; cases h
  | some c => rw [hc] at h; exact ⟨c, rfl, by simpa using h⟩

theorem entry_activity {e : Env} (h16 : ∀ x, (e.md5 x).length = 16) {r : ServerTraffic.Req} (hg : ServerTraffic.Good e r)
    {y : Bytes × After} (hE : ServerTraffic.Entry e r y) :
    (match y.2 with
      | .mt => true
      | .rpt => true
      | .login _ => true
      | _ => decide (some r.kind = some Kind.active)) = activity e.proto y.1 := by
  have n1 : ∀ {c c' : UInt32}, c < 0x80000000 → c' < 0x80000000 → c ≠ c' → be32 (Spec.responseOf c) ≠ be32 (Spec.responseOf c') :=
    fun h h' hne hh => hne (ServerTraffic.responseOf_inj h h' (be32_inj hh))
  obtain ⟨c1, c2, c3, c4⟩ := ServerTraffic.cmds_lt e.proto
  have hmt := ServerTraffic.entry_mt hg hE
  have hrpt := ServerTraffic.entry_command hg hE
  have hne : ∀ p, submitCmd p ≠ loginCmd p ∧ activeCmd p ≠ some (submitCmd p) ∧ activeCmd p ≠ some (loginCmd p) ∧
      terminateCmd p ≠ submitCmd p ∧ terminateCmd p ≠ loginCmd p ∧ activeCmd p ≠ some (terminateCmd p) := by
    intro p; cases p <;> decide
  obtain ⟨n2, n3, n4, n5, n6, n7⟩ := hne e.proto
  rw [Bool.eq_iff_iff]
  simp only [activity, decide_eq_true_eq]
  rw [← hmt, ← hrpt]
  by_cases hR : y.2 = .rpt
  · rw [hR]; simp
  have hcmd := (ServerTraffic.entry_answer hg hE hR).1
  have h8 := ServerTraffic.good_sgip hg
  cases hE with
  | submit h1 h2 h3 =>
    have z1 : ¬ (command (ServerTraffic.submitAnswer e r) = be32 (Spec.responseOf (loginCmd e.proto)) ∧
        refusal e.proto (ServerTraffic.submitAnswer e r) = false) := by
      rintro ⟨h, _⟩; rw [hcmd, h2] at h; exact n1 c1 c2 n2 h
    have z2 : ¬ ((activeCmd e.proto).any (fun c => decide (command (ServerTraffic.submitAnswer e r) = be32 (Spec.responseOf c))) = true) := by
      intro h
      obtain ⟨c, hc, hh⟩ := any_active h
      rw [hcmd, h2] at hh
      exact n1 c1 (c4 c hc) (fun h => n3 (by rw [h]; exact hc)) hh
    simp only [z1, z2, or_false, h1]
    by_cases hv : verdict r.draw = .accepted
    · simp [hv]
    · simp [hv]
  | report => exact absurd rfl hR
  | login h1 h2 =>
    dsimp only at hcmd hR ⊢
    have z1 : (command (loginResponse e.md5 e.proto r.seq r.body (ServerTraffic.decision e r)) = be32 (Spec.responseOf (loginCmd e.proto)) ∧
        refusal e.proto (loginResponse e.md5 e.proto r.seq r.body (ServerTraffic.decision e r)) = false) ↔
        ∃ a, ServerTraffic.decision e r = .ok a := by
      rw [ServerTraffic.refusal_iff h16 _ _ _ _ h8]
      exact ⟨fun h => h.2, fun h => ⟨by rw [hcmd, h2], h⟩⟩
    have z2 : ¬ ((activeCmd e.proto).any (fun c => decide (command
        (loginResponse e.md5 e.proto r.seq r.body (ServerTraffic.decision e r)) = be32 (Spec.responseOf c))) = true) := by
      intro h
      obtain ⟨c, hc, hh⟩ := any_active h
      rw [hcmd, h2] at hh
      exact n1 c2 (c4 c hc) (fun h => n4 (by rw [h]; exact hc)) hh
    simp only [z1, z2, hR, or_false, false_or, h1]
    cases ServerTraffic.decision e r <;> simp [ServerTraffic.afterLogin]
  | active f' h1 h2 h3 =>
    have z : (activeCmd e.proto).any (fun c => decide (command f' = be32 (Spec.responseOf c))) = true := by
      rw [h2]; simpa using hcmd
    simp only [z, or_true, iff_true]
    simp [h1]
  | terminate h1 h2 =>
    dsimp only at hcmd hR ⊢
    have z1 : ¬ (command (terminateResponse e.proto r.seq r.body) = be32 (Spec.responseOf (loginCmd e.proto)) ∧
        refusal e.proto (terminateResponse e.proto r.seq r.body) = false) := by
      rintro ⟨h, _⟩; rw [hcmd, h2] at h; exact n1 c3 c2 n6 h
    have z2 : ¬ ((activeCmd e.proto).any (fun c => decide (command (terminateResponse e.proto r.seq r.body) = be32 (Spec.responseOf c))) = true) := by
      intro h
      obtain ⟨c, hc, hh⟩ := any_active h
      rw [hcmd, h2] at hh
      exact n1 c3 (c4 c hc) (fun h => n7 (by rw [h]; exact hc)) hh
    simp only [z1, z2, or_false, h1]
    simp

/-- The callback of an answer renews the session exactly if the answer counts as use. -/
theorem touches_iff {gb : Bytes → Option Bytes} {e : Env} (h16 : ∀ x, (e.md5 x).length = 16) {t0 : Int} {steps : List Step}
    {x : Nat × Bytes × After} (hx : Item.reply x ∈ (run gb e t0 steps).queue) :
    touches (run gb e t0 steps) x = activity e.proto x.2.1 := by
  obtain ⟨s1, s2⟩ := sim_run gb e t0 steps
  have hq : x ∈ (ServerTraffic.run e (answering gb e t0 steps)).queue := by
    rw [← s2, s1.queue]; exact List.mem_filterMap.2 ⟨_, hx, rfl⟩
  obtain ⟨r, hr, hg, hE⟩ := ServerTraffic.queue_entry h16 (ServerTraffic.inv_run_all e _) hq
  rw [← s2] at hr
  have hk : kindOf (run gb e t0 steps) x.1 = some r.kind := by unfold kindOf; rw [hr]; rfl
  rw [← entry_activity h16 hg hE]
  unfold touches
  rw [hk]
  obtain ⟨k, f, a⟩ := x
  cases a <;> rfl

/-- A task is over exactly if it had nothing more to do and needed no slot or had one. -/
theorem finished_run {gb : Bytes → Option Bytes} {e : Env} {s : State} {i : Nat} {now : Int} (hd : ¬ (s.base.crashed ∨ s.base.isOpen = false)) :
    (finished s (step gb e s (.base (.run i) now)) i).map (·.kind) = ending s i := by
  have hb : (step gb e s (.base (.run i) now)).base = ServerTraffic.onRun s.base i := by
    unfold step
    rw [if_neg hd]
    have : (onRun s i now).base = s.base := by unfold onRun; split <;> rfl
    show ServerTraffic.step e (onRun s i now).base (.run i) = _
    rw [this, ServerTraffic.step, if_neg hd]
  have hlt : (ServerTraffic.onRun s.base i).tasks.length < s.base.tasks.length ↔
      ∃ k ph, s.base.tasks[i]? = some ⟨k, ph, []⟩ ∧ (ph = .free ∨ ∃ g, ph = .inside g) := by
    unfold ServerTraffic.onRun
    cases ht : s.base.tasks[i]? with
    | none => simp
    | some t =>
      obtain ⟨hi, _⟩ := List.getElem?_eq_some_iff.1 ht
      have hlen : (s.base.tasks.eraseIdx i).length < s.base.tasks.length := by rw [List.length_eraseIdx, if_pos hi]; omega
      obtain ⟨k, ph, acts⟩ := t
      cases ph with
      | waiting g =>
        simp only
        split <;> simp
      | free =>
        simp only [ServerTraffic.onGo]
        cases acts with
        | nil => exact ⟨fun _ => ⟨k, .free, rfl, Or.inl rfl⟩, fun _ => hlen⟩
        | cons a rest => cases a <;> simp [ServerTraffic.onAct]
      | inside g =>
        simp only [ServerTraffic.onGo]
        cases acts with
        | nil => exact ⟨fun _ => ⟨k, .inside g, rfl, Or.inr ⟨g, rfl⟩⟩, fun _ => hlen⟩
        | cons a rest => cases a <;> simp [ServerTraffic.onAct]
  unfold finished
  rw [hb]
  by_cases h : (ServerTraffic.onRun s.base i).tasks.length < s.base.tasks.length
  · rw [if_pos h]
    obtain ⟨k, ph, ht, hp⟩ := hlt.1 h
    unfold ending kindOf
    rw [ht]
    rcases hp with rfl | ⟨g, rfl⟩ <;> rfl
  · rw [if_neg h]
    unfold ending
    cases ht : s.base.tasks[i]? with
    | none => rfl
    | some t =>
      obtain ⟨k, ph, acts⟩ := t
      cases acts with
      | cons a rest => cases ph <;> rfl
      | nil =>
        cases ph with
        | waiting g => rfl
        | free => exact absurd (hlt.2 ⟨k, _, ht, Or.inl rfl⟩) h
        | inside g => exact absurd (hlt.2 ⟨k, _, ht, Or.inr ⟨g, rfl⟩⟩) h

/-- The kinds of the packets that count, by their commands. -/
theorem handled_kind {p : Proto} {x : UInt32 × Kind} (h : x ∈ chain p) (now : Int) :
    handled p now x.1 = match (generalizing := false) x.2 with | .activeResp => [.answer now] | .deliverResp => [.use now] | _ => [] := by
  have key : ∀ p : Proto, ∀ x ∈ chain p, handled p now x.1 =
      match x.2 with | .activeResp => [.answer now] | .deliverResp => [.use now] | _ => [] := by
    intro p
    cases p <;> simp only [chain, List.forall_mem_cons] <;> (repeat' constructor) <;> simp
  exact key p x h

/-- C49, C68: what the server remembers about a session is its history: the time of the last use, and the heartbeats in a row that were not
answered (modulo 256). -/
theorem session_history (gb : Bytes → Option Bytes) (e : Env) (h16 : ∀ x, (e.md5 x).length = 16) (t0 : Int) (steps : List Step) :
    (run gb e t0 steps).lastUse = lastActivity t0 (log gb e t0 steps) ∧
    (run gb e t0 steps).nAt.toNat = unanswered (log gb e t0 steps) % 256 := by
  induction steps using snoc_induction with
  | nil => exact ⟨rfl, rfl⟩
  | snoc l y ih =>
    have ht := fun x => touches_iff (gb := gb) h16 (t0 := t0) (steps := l) (x := x)
    rw [run_snoc, log_snoc, Heartbeat.lastActivity_append, unanswered, Heartbeat.unansweredFrom_append]
    show _ ∧ _ = Spec.unansweredFrom (unanswered (log gb e t0 l)) _ % 256
    obtain ⟨i1, i2⟩ := ih
    rw [← i1]
    generalize unanswered (log gb e t0 l) = n at *
    generalize hs : run gb e t0 l = s at *
    unfold step
    by_cases hd : s.base.crashed ∨ s.base.isOpen = false
    · rw [if_pos hd]
      have : events gb e s y = [] := by
        unfold events
        split <;> first | rw [if_pos hd] | rfl | skip
        unfold step finished
        rw [if_pos hd, if_neg (Nat.lt_irrefl _)]
        rfl
      rw [this]
      exact ⟨rfl, i2⟩
    rw [if_neg hd]
    cases y with
    | base z now =>
      cases z with
      | loop =>
        simp only [onLoop, events, if_neg hd]
        cases hq : s.queue with
        | nil => exact ⟨rfl, i2⟩
        | cons it q =>
          cases it with
          | reply x =>
            have := ht x (by rw [hq]; exact List.mem_cons_self)
            simp only [List.head?_cons, Option.map_some, Option.getD_some, written, ← this]
            cases hx : touches s x with
            | true => exact ⟨rfl, i2⟩
            | false => exact ⟨rfl, i2⟩
          | own f a =>
            cases a with
            | beat =>
              refine ⟨rfl, ?_⟩
              show (s.nAt + 1).toNat = (n + 1) % 256
              rw [UInt8.toNat_add, i2]
              show (n % 256 + 1) % 256 = _
              omega
            | dly => exact ⟨rfl, i2⟩
            | close => exact ⟨rfl, i2⟩
      | run i =>
        have hf := finished_run (gb := gb) (e := e) (i := i) (now := now) hd
        have hev : events gb e s (.base (.run i) now) = match ending s i with
            | some .activeResp => [.answer now] | some .deliverResp => [.use now] | _ => [] := by
          rw [← hf]
          show ((finished s (step gb e s (.base (.run i) now)) i).map fun r => handled e.proto now r.cmd).getD [] = _
          cases hr : finished s (step gb e s (.base (.run i) now)) i with
          | none => rfl
          | some r =>
            have hm : r ∈ s.base.reqs := by
              unfold finished at hr
              split at hr
              · obtain ⟨t, _, h⟩ := Option.bind_eq_some_iff.1 hr
                exact List.mem_of_getElem? h
              · cases hr
            have hg := (ServerTraffic.inv_run_all e (answering gb e t0 l)).good r (by rw [← (sim_run gb e t0 l).2, hs]; exact hm)
            have hk := handled_kind hg.1 now
            simp only [Option.map_some, Option.getD_some] at hk ⊢
            rw [hk]
            cases r.kind <;> rfl
        rw [hev]
        show (onRun s i now).lastUse = _ ∧ (onRun s i now).nAt.toNat = _
        unfold onRun
        generalize ending s i = k
        rcases k with _ | k
        · exact ⟨rfl, i2⟩
        · cases k <;> first | exact ⟨rfl, i2⟩ | exact ⟨rfl, rfl⟩
      | packet c q b d => exact ⟨rfl, i2⟩
      | drop i => exact ⟨rfl, i2⟩
      | close => exact ⟨rfl, i2⟩
    | tick d =>
      obtain ⟨_, _, _, h4, h5, _⟩ := onTick_same s d
      show (onTick s d).lastUse = s.lastUse ∧ (onTick s d).nAt.toNat = n % 256
      rw [h4, h5]; exact ⟨rfl, i2⟩
    | task i d =>
      obtain ⟨_, _, _, h4, h5, _⟩ := onTask_same gb e s i d
      show (onTask gb e s i d).lastUse = s.lastUse ∧ (onTask gb e s i d).nAt.toNat = n % 256
      rw [h4, h5]; exact ⟨rfl, i2⟩

/-- C49, C68, C90: every termination the server writes has its reason in the history up to a tick: no use of the session for
`Server.ForceCloseConnTime`, or at least three heartbeats in a row without an answer. -/
theorem termination_reason (gb : Bytes → Option Bytes) (e : Env) (h16 : ∀ x, (e.md5 x).length = 16) (t0 : Int) (steps : List Step)
    (f : Bytes) (hf : f ∈ frames (run gb e t0 steps)) (hc : command f = be32 (terminateCmd e.proto)) :
    ∃ a d b, steps = a ++ .tick d :: b ∧
      (lastActivity t0 (log gb e t0 a) + d.force < d.now ∨ 3 ≤ unanswered (log gb e t0 a)) := by
  obtain ⟨pre, post, hw⟩ := List.append_of_mem hf
  obtain ⟨a, d, b, i, t, c, h1, h2, _⟩ := termination_origin gb e h16 t0 steps pre post f hw hc
  refine ⟨a, d, b ++ .task i t :: c, by rw [h1]; simp, ?_⟩
  obtain ⟨s1, s2⟩ := session_history gb e h16 t0 a
  rcases h2 with h | h
  · left; rw [← s1]; exact h
  · right
    have h : 2 < (run gb e t0 a).nAt.toNat := h
    rw [s2] at h
    have := Nat.mod_le (unanswered (log gb e t0 a)) 256
    omega

/-- C49, C90: every heartbeat the server writes was sent for a session that had logged in and had not been used for more than a minute. -/
theorem heartbeat_reason (gb : Bytes → Option Bytes) (e : Env) (h16 : ∀ x, (e.md5 x).length = 16) (t0 : Int) (steps : List Step)
    (f : Bytes) (hf : f ∈ frames (run gb e t0 steps)) (hc : ∃ c, activeCmd e.proto = some c ∧ command f = be32 c) :
    ∃ a i t b, steps = a ++ .task i t :: b ∧ heartbeat e.proto t.seq = some f ∧
      lastActivity t0 (log gb e t0 a) + 60 * 1000000000 < t.now := by
  obtain ⟨pre, post, hw⟩ := List.append_of_mem hf
  obtain ⟨a, d, b, i, t, c, h1, _, h3, h4⟩ := heartbeat_origin gb e h16 t0 steps pre post f hw hc
  refine ⟨a ++ .tick d :: b, i, t, c, h1, h3, ?_⟩
  rw [← (session_history gb e h16 t0 _).1]
  exact h4

end Gosms.ServerTicks
