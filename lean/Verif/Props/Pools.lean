import Verif.Model.Pools

/-! # C100-C102: the server's goroutine pools -/

namespace Gosms.Pools

/-! ## The server's pool: logins (C100), ticks (C102) -/

theorem run_snoc (n : Nat) (ops : List Op) (o : Op) : Server.run n (ops ++ [o]) = (Server.run n ops).step n o := by
  simp [Server.run, List.foldl_append]

theorem snoc_ind {α : Type} {P : List α → Prop} (h0 : P []) (hs : ∀ l a, P l → P (l ++ [a])) (l : List α) : P l := by
  rw [← List.reverse_reverse l]
  induction l.reverse with
  | nil => exact h0
  | cons a l ih => rw [List.reverse_cons]; exact hs _ _ ih

/-- The tasks given to the pool. -/
def given (ops : List Op) : List Job :=
  ops.filterMap fun
    | .submit j => some j
    | .finish _ => none

/-- Never more tasks at once than workers. -/
theorem server_bound (n : Nat) (ops : List Op) : (Server.run n ops).running.length ≤ n := by
  induction ops using snoc_ind with
  | h0 => simp [Server.run]
  | hs ops o ih =>
    rw [run_snoc]
    cases o with
    | submit j =>
      simp only [Server.step]
      split
      · simp; omega
      · exact ih
    | finish i =>
      simp only [Server.step]
      exact Nat.le_trans (List.length_eraseIdx_le _ _) ih

/-- Every task given to the pool is either taken or refused, not both. -/
theorem taken_or_refused (n : Nat) (ops : List Op) (j : Job) :
    (given ops).count j = (Server.run n ops).taken.count j + (Server.run n ops).refused.count j := by
  induction ops using snoc_ind with
  | h0 => simp [Server.run, given]
  | hs ops o ih =>
    rw [run_snoc]
    cases o with
    | submit k =>
      have : given (ops ++ [.submit k]) = given ops ++ [k] := by simp [given]
      rw [this, List.count_append, ih]
      simp only [Server.step]
      split <;> simp [List.count_append] <;> omega
    | finish i =>
      have : given (ops ++ [.finish i]) = given ops := by simp [given]
      rw [this, ih]
      rfl

/-- C100, C102: a task is refused exactly if all workers are busy when it comes: then the connection of a login is closed
without a response. -/
theorem refused_iff (n : Nat) (ops : List Op) (j : Job) :
    (Server.run n (ops ++ [.submit j])).refused = (Server.run n ops).refused ++
      (if (Server.run n ops).running.length = n then [j] else []) := by
  have := server_bound n ops
  rw [run_snoc]
  simp only [Server.step]
  split
  · rw [if_neg (by omega)]; simp
  · rw [if_pos (by omega)]

theorem closed_mem (s : Server) (c : Nat) : c ∈ s.closed ↔ .login c ∈ s.refused := by
  unfold Server.closed
  rw [List.mem_filterMap]
  constructor
  · rintro ⟨j, hj, h⟩
    cases j <;> simp at h
    exact h ▸ hj
  · exact fun h => ⟨_, h, rfl⟩

theorem running_le_given (n : Nat) (ops : List Op) : (Server.run n ops).running.length ≤ (given ops).length := by
  induction ops using snoc_ind with
  | h0 => simp [Server.run]
  | hs ops o ih =>
    rw [run_snoc]
    cases o with
    | submit k =>
      have : given (ops ++ [.submit k]) = given ops ++ [k] := by simp [given]
      rw [this]
      simp only [Server.step]
      split
      · simp; omega
      · simp; omega
    | finish i =>
      have : given (ops ++ [.finish i]) = given ops := by simp [given]
      rw [this]
      exact Nat.le_trans (List.length_eraseIdx_le _ _) ih

/-- C100 (partial): no connection is closed for want of a worker if at every moment fewer tasks are unfinished than there
are CPUs: a login that comes then is taken. In particular if no more logins and tick tasks come, altogether, than CPUs. -/
theorem logins_taken_partial (n : Nat) (ops : List Op)
    (h : ∀ pre j post, ops = pre ++ .submit j :: post → (Server.run n pre).running.length < n) :
    (Server.run n ops).closed = [] ∧ (Server.run n ops).refused = [] := by
  have : (Server.run n ops).refused = [] := by
    induction ops using snoc_ind with
    | h0 => rfl
    | hs ops o ih =>
      have ih := ih (fun pre j post e => h pre j (post ++ [o]) (by rw [e]; simp))
      cases o with
      | submit j =>
        rw [refused_iff, ih, if_neg]
        · rfl
        · have := h ops j [] rfl
          omega
      | finish i => rw [run_snoc]; exact ih
  exact ⟨by simp [Server.closed, this], this⟩

theorem few_logins_taken (n : Nat) (ops : List Op) (h : (given ops).length ≤ n) : (Server.run n ops).closed = [] := by
  refine (logins_taken_partial n ops fun pre j post e => ?_).1
  have h1 := running_le_given n pre
  have h2 : (given ops).length = (given pre).length + ((given post).length + 1) := by
    rw [e]; simp [given]
  omega

theorem crowd (n : Nat) (js : List Job) : Server.run n (js.map .submit) = ⟨js.take n, js.take n, js.drop n⟩ := by
  induction js using snoc_ind with
  | h0 => simp [Server.run]
  | hs js j ih =>
    rw [List.map_append, List.map_singleton, run_snoc, ih]
    simp only [Server.step, List.length_take]
    by_cases hn : js.length < n
    · rw [if_pos (by omega), List.take_of_length_le (l := js) (by omega), List.take_of_length_le (by simp; omega),
        List.drop_eq_nil_of_le (by omega), List.drop_eq_nil_of_le (by simp; omega)]
    · rw [if_neg (by omega), List.take_append_of_le_length (by omega), List.drop_append_of_le_length (by omega)]

/-- C100 is false of the code: whatever the number of CPUs, of any connections that log in before a login task has
ended, all but as many as there are CPUs are closed without a response, whoever they are. -/
theorem login_crowd_fails (n : Nat) (conns : List Nat) :
    (Server.run n (conns.map fun c => .submit (.login c))).closed = conns.drop n := by
  have : (conns.map fun c => Op.submit (.login c)) = (conns.map Job.login).map .submit := by simp
  rw [this, crowd]
  simp only [Server.closed, ← List.map_drop]
  induction conns.drop n with
  | nil => rfl
  | cons c l ih => rw [List.map_cons, List.filterMap_cons, ih]

/-- C102 is false of the code: if a tick visits its sessions before one of the tasks it starts has ended, only as many sessions as
there are CPUs get their heartbeat (or termination), and this can happen at every tick: those at the end of the visit are
never looked after. -/
theorem tick_crowd_fails (n : Nat) (sessions : List Nat) (ticks : Nat) (c : Nat) (hc : c ∉ sessions.take n) :
    Job.own c ∉ (Server.run n (List.flatten (List.replicate ticks
      ((sessions.map fun c => Op.submit (.own c)) ++ List.replicate n (.finish 0))))).taken := by
  suffices h : ∀ s : Server, s.running = [] → .own c ∉ s.taken →
      ∀ k, (List.foldl (Server.step n) s (List.flatten (List.replicate k
        ((sessions.map fun c => Op.submit (.own c)) ++ List.replicate n (.finish 0))))).running = [] ∧
      Job.own c ∉ (List.foldl (Server.step n) s (List.flatten (List.replicate k
        ((sessions.map fun c => Op.submit (.own c)) ++ List.replicate n (.finish 0))))).taken from
    (h {} rfl (by simp) ticks).2
  have fin : ∀ (m : Nat) (s : Server), s.running.length ≤ m →
      List.foldl (Server.step n) s (List.replicate m (.finish 0)) = { s with running := [] } := by
    intro m
    induction m with
    | zero =>
      intro s hs
      have : s.running = [] := List.length_eq_zero_iff.mp (by omega)
      obtain ⟨_, _, _⟩ := s
      simp at this
      simp [this]
    | succ m ih =>
      intro s hs
      rw [List.replicate_succ, List.foldl_cons, ih]
      · rfl
      · simp only [Server.step, List.length_eraseIdx]
        split <;> omega
  have sub : ∀ (l : List Nat) (s : Server), s.running.length ≤ n → .own c ∉ s.taken → c ∉ l.take (n - s.running.length) →
      (List.foldl (Server.step n) s (l.map fun c => Op.submit (.own c))).running.length ≤ n ∧
      Job.own c ∉ (List.foldl (Server.step n) s (l.map fun c => Op.submit (.own c))).taken := by
    intro l
    induction l with
    | nil => intro s h1 h2 _; exact ⟨h1, h2⟩
    | cons a l ih =>
      intro s h1 h2 h3
      rw [List.map_cons, List.foldl_cons]
      by_cases hn : s.running.length < n
      · have e : n - s.running.length = (n - (s.running.length + 1)) + 1 := by omega
        rw [e, List.take_succ_cons] at h3
        have h3 := not_or.mp (fun h => h3 (List.mem_cons.mpr h))
        refine ih _ ?_ ?_ ?_
        · simp [Server.step, hn]; omega
        · simp [Server.step, hn, h2, h3.1]
        · simp [Server.step, hn]
          exact h3.2
      · refine ih _ ?_ ?_ ?_
        · simp [Server.step, hn]; omega
        · simp [Server.step, hn, h2]
        · simp [Server.step, hn]
          rw [show n - s.running.length = 0 by omega]; simp
  intro s hs ht k
  induction k generalizing s with
  | zero => exact ⟨hs, ht⟩
  | succ k ih =>
    rw [List.replicate_succ, List.flatten_cons, List.foldl_append, List.foldl_append]
    have := sub sessions s (by simp [hs]) ht (by simpa [hs] using hc)
    rw [fin n _ this.1]
    exact ih _ rfl this.2

theorem room (n : Nat) (js : List Job) (s : Server) (h : s.running.length + js.length ≤ n) :
    js.foldl (fun s j => s.step n (.submit j)) s = ⟨s.running ++ js, s.taken ++ js, s.refused⟩ := by
  induction js generalizing s with
  | nil => simp
  | cons j js ih =>
    simp only [List.length_cons] at h
    rw [List.foldl_cons, ih]
    · simp [Server.step, show s.running.length < n by omega]
    · simp [Server.step, show s.running.length < n by omega]; omega

/-- C102 (partial): if, whenever a tick comes, the server has as many idle workers as the tick has tasks, all of them are taken. -/
theorem tick_taken_partial (n : Nat) (ops : List Op) (js : List Job) (h : (Server.run n ops).running.length + js.length ≤ n) :
    (Server.run n (ops ++ js.map .submit)).taken = (Server.run n ops).taken ++ js ∧
    (Server.run n (ops ++ js.map .submit)).refused = (Server.run n ops).refused := by
  have e : Server.run n (ops ++ js.map .submit) = js.foldl (fun s j => s.step n (.submit j)) (Server.run n ops) := by
    simp [Server.run, List.foldl_append, List.foldl_map]
  rw [e, room n js _ h]
  exact ⟨rfl, rfl⟩

example : (Server.run 4 [.submit (.login 9), .finish 0]).running.length + [Job.own 1, .own 2, .own 3].length ≤ 4 := by decide

example : 5 ∉ [1, 2, 3, 4, 5, 6].take 4 ∧ (Server.run 4 [.submit (.own 1), .submit (.own 2), .submit (.own 3), .submit (.own 4),
    .submit (.own 5), .submit (.own 6)]).refused = [.own 5, .own 6] := by decide

example : (Server.run 2 [.submit (.login 7), .submit (.own 1), .finish 0, .submit (.login 8)]).closed = [] := by decide

/-! ## Event loops and sessions' pools (C101) -/

/-- A step of one of the tasks of session `i`. -/
def IsTaskOf (i : Nat) (x : Step) : Prop := ∃ k, x = .enter i k ∨ x = .send i k ∨ x = .done i k

theorem lrun_snoc (wins : List Nat) (steps : List Step) (x : Step) : Loop.run wins (steps ++ [x]) = (Loop.run wins steps).step x := by
  simp [Loop.run, List.foldl_append]

/-- What holds of a session at all times. -/
def Sess.Ok (s : Sess) : Prop := (0 < s.win → s.tasks.length ≤ 2 * s.win) ∧ s.inside ≤ s.win

/-- What holds of a loop at all times. -/
structure Loop.Ok (wins : List Nat) (l : Loop) : Prop where
  wins : l.sess.map (·.win) = wins
  sess : ∀ s ∈ l.sess, s.Ok
  busy : ∀ i ph, l.busy = .submit i ph → ∃ s, l.sess[i]? = some s ∧ 0 < s.win ∧ s.tasks.length = 2 * s.win ∧ ph ≠ .inside

theorem map_win_set (l : List Sess) (i : Nat) (s t : Sess) (h : l[i]? = some s) (hw : t.win = s.win) :
    (l.set i t).map (·.win) = l.map (·.win) := by
  rw [List.map_set, hw]
  apply List.ext_getElem?
  intro k
  rw [List.getElem?_set]
  split
  · rename_i hk
    subst hk
    have := List.getElem?_eq_some_iff.mp h
    obtain ⟨hi, he⟩ := this
    simp [hi, he]
  · rfl

theorem hasWorker_iff (s : Sess) : s.hasWorker = true ↔ s.win = 0 ∨ s.tasks.length < 2 * s.win := by simp [Sess.hasWorker]

theorem firstPhase_ne (over : Bool) : firstPhase over ≠ .inside := by cases over <;> simp [firstPhase]

theorem start_ok (s : Sess) (ph : Phase) (h : s.Ok) (hw : s.hasWorker = true) (hp : ph ≠ .inside) : (s.start ph).Ok := by
  have hw := (hasWorker_iff s).mp hw
  refine ⟨fun h0 => ?_, ?_⟩
  · simp only [Sess.start, List.length_append, List.length_singleton] at h0 ⊢
    omega
  · have := h.2
    simp only [Sess.inside, Sess.start, List.count_append] at this ⊢
    rw [List.count_singleton]
    simp [hp, this]

theorem loop_ok (wins : List Nat) (steps : List Step) : (Loop.run wins steps).Ok wins := by
  induction steps using snoc_ind with
  | h0 =>
    refine ⟨by simp [Loop.run, Function.comp_def], ?_, ?_⟩
    · intro s hs
      simp only [Loop.run, List.foldl_nil, List.mem_map] at hs
      obtain ⟨w, _, rfl⟩ := hs
      exact ⟨by simp, by simp [Sess.inside]⟩
    · intro i ph h
      simp [Loop.run] at h
  | hs steps x ih =>
    rw [lrun_snoc]
    generalize Loop.run wins steps = l at ih
    have upd : ∀ {i : Nat} {s t : Sess}, l.sess[i]? = some s → t.win = s.win → t.Ok →
        ((l.sess.set i t).map (·.win) = wins ∧ ∀ s ∈ l.sess.set i t, s.Ok) := by
      intro i s t hs hw ht
      refine ⟨(map_win_set _ _ _ _ hs hw).trans ih.wins, fun u hu => ?_⟩
      rcases List.mem_or_eq_of_mem_set hu with hu | rfl
      · exact ih.sess u hu
      · exact ht
    cases x with
    | packet i over =>
      simp only [Loop.step]
      split
      · rename_i s hb hs
        split
        · rename_i hw
          obtain ⟨h1, h2⟩ := upd (t := s.start (firstPhase over)) hs rfl (start_ok s _ (ih.sess s (List.mem_of_getElem? hs)) hw (firstPhase_ne over))
          exact ⟨h1, h2, fun j ph hj => by rw [hb] at hj; cases hj⟩
        · rename_i hw
          refine ⟨ih.wins, ih.sess, fun j ph hj => ?_⟩
          simp only [Busy.submit.injEq] at hj
          obtain ⟨rfl, rfl⟩ := hj
          have hok := ih.sess s (List.mem_of_getElem? hs)
          have hw : ¬ (s.win = 0 ∨ s.tasks.length < 2 * s.win) := fun h => hw ((hasWorker_iff s).mpr h)
          have := hok.1 (by omega)
          exact ⟨s, hs, by omega, by omega, firstPhase_ne over⟩
      · exact ih
    | enter i k =>
      simp only [Loop.step]
      split
      · rename_i s hs
        split
        · rename_i hc
          have hok := ih.sess s (List.mem_of_getElem? hs)
          obtain ⟨hk, hkw⟩ := List.getElem?_eq_some_iff.mp hc.1
          have hin : ({ s with tasks := s.tasks.set k .inside } : Sess).Ok := by
            refine ⟨by simpa using hok.1, ?_⟩
            have hlt := hc.2
            simp only [Sess.inside] at hlt ⊢
            rw [List.count_set hk]
            simp [hkw]
            omega
          obtain ⟨h1, h2⟩ := upd (t := { s with tasks := s.tasks.set k .inside }) hs rfl hin
          refine ⟨h1, h2, fun j ph hj => ?_⟩
          obtain ⟨t, ht, r1, r2, r3⟩ := ih.busy j ph hj
          by_cases hij : i = j
          · subst hij
            rw [hs] at ht; cases ht
            exact ⟨{ s with tasks := s.tasks.set k .inside }, by rw [List.getElem?_set_self (List.getElem?_eq_some_iff.mp hs).1], r1, by simpa using r2, r3⟩
          · exact ⟨t, by rw [List.getElem?_set_ne hij]; exact ht, r1, r2, r3⟩
        · exact ih
      · exact ih
    | send i k =>
      simp only [Loop.step]
      split
      · split
        · exact ⟨ih.wins, ih.sess, ih.busy⟩
        · exact ih
      · exact ih
    | done i k =>
      simp only [Loop.step]
      split
      · rename_i s hs
        split
        · rename_i hc
          have hok := ih.sess s (List.mem_of_getElem? hs)
          have hk : k < s.tasks.length := by
            rcases hc with h | h <;> exact (List.getElem?_eq_some_iff.mp h).1
          have hcount : (s.tasks.eraseIdx k).count .inside ≤ s.tasks.count .inside :=
            (List.eraseIdx_sublist _ _).count_le _
          have hin : ({ s with tasks := s.tasks.eraseIdx k } : Sess).Ok := by
            refine ⟨fun h0 => ?_, ?_⟩
            · exact Nat.le_trans (List.length_eraseIdx_le _ _) (hok.1 h0)
            · exact Nat.le_trans hcount hok.2
          obtain ⟨h1, h2⟩ := upd (t := { s with tasks := s.tasks.eraseIdx k }) hs rfl hin
          have hi := (List.getElem?_eq_some_iff.mp hs).1
          unfold Loop.resume
          simp only
          split
          · rename_i j ph hb
            obtain ⟨t, ht, r1, r2, r3⟩ := ih.busy j ph hb
            split
            · rename_i hji
              subst hji
              rw [hs] at ht; cases ht
              have e : (l.sess.set j { s with tasks := s.tasks.eraseIdx k }).modify j (·.start ph) =
                  l.sess.set j (({ s with tasks := s.tasks.eraseIdx k } : Sess).start ph) := by
                apply List.ext_getElem?
                intro n
                rw [List.getElem?_modify, List.getElem?_set, List.getElem?_set]
                split
                · rename_i hn; subst hn; simp [hi]
                · simp
              have hst := start_ok { s with tasks := s.tasks.eraseIdx k } ph hin (by
                rw [hasWorker_iff]; right
                simp only [List.length_eraseIdx, if_pos hk]; omega) r3
              obtain ⟨g1, g2⟩ := upd (t := ({ s with tasks := s.tasks.eraseIdx k } : Sess).start ph) hs rfl hst
              refine ⟨by simpa only [e] using g1, by simpa only [e] using g2, fun j' ph' hj' => by simp at hj'⟩
            · rename_i hji
              refine ⟨h1, h2, fun j' ph' hj' => ?_⟩
              simp only [hb, Busy.submit.injEq] at hj'
              obtain ⟨rfl, rfl⟩ := hj'
              exact ⟨t, by rw [List.getElem?_set_ne (Ne.symm hji)]; exact ht, r1, r2, r3⟩
          · rename_i hb
            exact ⟨h1, h2, fun j ph hj => absurd hj (hb j ph)⟩
        · exact ih
      · exact ih
    | terminate i => exact ⟨ih.wins, ih.sess, ih.busy⟩
    | write =>
      simp only [Loop.step]
      split
      · rename_i f q hb hq
        refine ⟨ih.wins, ih.sess, fun j ph hj => ?_⟩
        simp only at hj
        split at hj <;> cases hj
      · exact ih
    | wake =>
      simp only [Loop.step]
      split
      · exact ⟨ih.wins, ih.sess, fun j ph hj => by cases hj⟩
      · exact ih

/-- C101: at no time does a session with window `w` have more than `2 w` tasks, of which at most `w` are past the window. -/
theorem session_tasks_bounded (wins : List Nat) (steps : List Step) (i w : Nat) (s : Sess) (hw : wins[i]? = some w)
    (h0 : 0 < w) (hs : (Loop.run wins steps).sess[i]? = some s) :
    s.tasks.length ≤ 2 * w ∧ s.tasks.count .inside ≤ w := by
  have ok := loop_ok wins steps
  have e : s.win = w := by
    have := congrArg (·[i]?) ok.wins
    simp only [List.getElem?_map, hs, hw, Option.map_some, Option.some.injEq] at this
    exact this
  have := ok.sess s (List.mem_of_getElem? hs)
  exact ⟨e ▸ this.1 (by omega), e ▸ this.2⟩

theorem session_of (wins : List Nat) (steps : List Step) (i w : Nat) (hw : wins[i]? = some w) (h0 : 0 < w) :
    ∃ s, (Loop.run wins steps).sess[i]? = some s ∧ s.win = w ∧ s.tasks.length ≤ 2 * w := by
  have := congrArg (·[i]?) (loop_ok wins steps).wins
  simp only [List.getElem?_map, hw, Option.map_eq_some_iff] at this
  obtain ⟨s, hs, he⟩ := this
  exact ⟨s, hs, he, (session_tasks_bounded wins steps i w s hw h0 hs).1⟩

/-- C101: the event loop waits for a worker of a session only while all `2 w` of them have a task. -/
theorem waits_only_when_full (wins : List Nat) (steps : List Step) (i : Nat) (ph : Phase)
    (h : (Loop.run wins steps).busy = .submit i ph) :
    ∃ w, wins[i]? = some w ∧ 0 < w ∧ ∃ s, (Loop.run wins steps).sess[i]? = some s ∧ s.tasks.length = 2 * w := by
  have ok := loop_ok wins steps
  obtain ⟨s, hs, h0, hl, _⟩ := ok.busy i ph h
  refine ⟨s.win, ?_, h0, s, hs, hl⟩
  rw [← ok.wins]
  simp [hs]

/-- C101: the event loop never waits for ever: whenever it waits for a worker of a session, one or two steps of that session's
tasks, which need nothing from the loop, set it free, and the task it was to start is started; when it sleeps, it wakes up. -/
theorem loop_recovers (wins : List Nat) (steps : List Step) (h : (Loop.run wins steps).busy ≠ .no) :
    ∃ more : List Step, more.length ≤ 2 ∧ (Loop.run wins (steps ++ more)).busy = .no ∧
      ∀ x ∈ more, x = .wake ∨ ∃ i ph, ((Loop.run wins steps).busy = .submit i ph ∧ IsTaskOf i x ∧
        ∃ s, (Loop.run wins (steps ++ more)).sess[i]? = some s ∧ s.tasks.getLast? = some ph) := by
  have ok := loop_ok wins steps
  have app : ∀ more, Loop.run wins (steps ++ more) = more.foldl Loop.step (Loop.run wins steps) := by
    intro more; simp [Loop.run, List.foldl_append]
  simp only [app]
  generalize Loop.run wins steps = l at h ok ⊢
  cases hb : l.busy with
  | no => exact absurd hb h
  | sleep => exact ⟨[.wake], by simp, by simp [Loop.step, hb], by simp⟩
  | submit i ph =>
    obtain ⟨s, hs, h0, hl, _⟩ := ok.busy i ph hb
    have hi := (List.getElem?_eq_some_iff.mp hs).1
    by_cases hq : ∃ k : Nat, s.tasks[k]? = some Phase.inside ∨ s.tasks[k]? = some Phase.free
    · obtain ⟨k, hk⟩ := hq
      refine ⟨[.done i k], by simp, ?_, ?_⟩
      · simp [Loop.step, hs, hk, Loop.resume, hb]
      · intro x hx
        simp only [List.mem_singleton] at hx
        subst hx
        exact Or.inr ⟨i, ph, rfl, by simp [IsTaskOf], ({ s with tasks := s.tasks.eraseIdx k } : Sess).start ph,
          by simp only [List.foldl_cons, List.foldl_nil, Loop.step, hs]; rw [if_pos hk]; simp [Loop.resume, hb, hi], by simp [Sess.start]⟩
    · have all : ∀ t ∈ s.tasks, t = .waiting := by
        intro t ht
        obtain ⟨k, hk⟩ := List.mem_iff_getElem?.mp ht
        cases t with
        | waiting => rfl
        | inside => exact absurd ⟨k, Or.inl hk⟩ hq
        | free => exact absurd ⟨k, Or.inr hk⟩ hq
      have hin : s.inside = 0 := by
        unfold Sess.inside
        rw [List.count_eq_zero]
        intro hm
        exact absurd (all _ hm) (by decide)
      have h00 : 0 < s.tasks.length := by omega
      have ht0 : s.tasks[0]? = some .waiting := by
        rw [List.getElem?_eq_getElem h00, all _ (List.getElem_mem h00)]
      have e1 : l.step (.enter i 0) = { l with sess := l.sess.set i { s with tasks := s.tasks.set 0 .inside } } := by
        simp only [Loop.step, hs]
        rw [if_pos ⟨ht0, by omega⟩]
      have hfin : ∃ u, (List.foldl Loop.step l [.enter i 0, .done i 0]).sess[i]? = some u ∧ u.tasks.getLast? = some ph := by
        refine ⟨({ s with tasks := (s.tasks.set 0 .inside).eraseIdx 0 } : Sess).start ph, ?_, by simp [Sess.start]⟩
        rw [List.foldl_cons, e1]
        simp [Loop.step, hi, h00, Loop.resume, hb]
      refine ⟨[.enter i 0, .done i 0], by simp, ?_, ?_⟩
      · rw [List.foldl_cons, e1]
        simp [Loop.step, hi, h00, Loop.resume, hb]
      · intro x hx
        simp only [List.mem_cons, List.not_mem_nil, or_false] at hx
        rcases hx with rfl | rfl <;> exact Or.inr ⟨i, ph, rfl, by simp [IsTaskOf], hfin⟩

/-- While the loop waits for session `i`, steps that are not of its tasks write nothing and take no packet. -/
theorem stuck (i : Nat) (ph : Phase) (more : List Step) (h : ∀ x ∈ more, ¬ IsTaskOf i x) (l : Loop) (hb : l.busy = .submit i ph) :
    (more.foldl Loop.step l).busy = .submit i ph ∧ (more.foldl Loop.step l).wire = l.wire ∧
    ∀ (j : Nat) (s : Sess), (more.foldl Loop.step l).sess[j]? = some s → ∃ t : Sess, l.sess[j]? = some t ∧ s.tasks.length ≤ t.tasks.length := by
  induction more generalizing l with
  | nil => exact ⟨hb, rfl, fun j s hs => ⟨s, hs, Nat.le_refl _⟩⟩
  | cons x more ih =>
    have hx := h x (by simp)
    have step1 : (l.step x).busy = .submit i ph ∧ (l.step x).wire = l.wire ∧
        ∀ (j : Nat) (s : Sess), (l.step x).sess[j]? = some s → ∃ t : Sess, l.sess[j]? = some t ∧ s.tasks.length ≤ t.tasks.length := by
      have same : ∀ (j : Nat) (s : Sess), l.sess[j]? = some s → ∃ t : Sess, l.sess[j]? = some t ∧ s.tasks.length ≤ t.tasks.length :=
        fun j s hs => ⟨s, hs, Nat.le_refl _⟩
      have upd : ∀ {m : Nat} {s t : Sess}, l.sess[m]? = some s → t.tasks.length ≤ s.tasks.length →
          ∀ (j : Nat) (u : Sess), (l.sess.set m t)[j]? = some u → ∃ v : Sess, l.sess[j]? = some v ∧ u.tasks.length ≤ v.tasks.length := by
        intro m s t hs ht j u hu
        by_cases hm : m = j
        · subst hm
          rw [List.getElem?_set_self (List.getElem?_eq_some_iff.mp hs).1] at hu
          cases hu
          exact ⟨s, hs, ht⟩
        · rw [List.getElem?_set_ne hm] at hu
          exact same j u hu
      cases x with
      | packet j over => simp only [Loop.step, hb]; exact ⟨trivial, trivial, same⟩
      | enter j k =>
        simp only [Loop.step]
        split
        · rename_i s hs
          split
          · exact ⟨hb, rfl, upd hs (by simp)⟩
          · exact ⟨hb, rfl, same⟩
        · exact ⟨hb, rfl, same⟩
      | send j k =>
        simp only [Loop.step]
        split
        · split <;> exact ⟨hb, rfl, same⟩
        · exact ⟨hb, rfl, same⟩
      | done j k =>
        have hx : j ≠ i := fun e => hx ⟨k, by simp [e]⟩
        simp only [Loop.step]
        split
        · rename_i s hs
          split
          · simp only [Loop.resume, hb]
            rw [if_neg (fun e => hx e.symm)]
            exact ⟨rfl, rfl, upd hs (List.length_eraseIdx_le _ _)⟩
          · exact ⟨hb, rfl, same⟩
        · exact ⟨hb, rfl, same⟩
      | terminate j => exact ⟨hb, rfl, same⟩
      | write => simp only [Loop.step, hb]; exact ⟨trivial, trivial, same⟩
      | wake => simp [Loop.step, hb]; exact same
    obtain ⟨b, w, g⟩ := step1
    obtain ⟨b', w', g'⟩ := ih (fun y hy => h y (by simp [hy])) (l.step x) b
    refine ⟨b', w'.trans w, fun j s hs => ?_⟩
    obtain ⟨t, ht, hl⟩ := g' j s hs
    obtain ⟨u, hu, hl'⟩ := g j t ht
    exact ⟨u, hu, Nat.le_trans hl hl'⟩

/-- From any moment at which the loop is free: packets of one client until all workers of its session are busy, and one more. -/
theorem flood (i : Nat) (over : Bool) (n : Nat) : ∀ (l : Loop) (s : Sess), l.busy = .no → l.sess[i]? = some s → 0 < s.win →
    s.tasks.length ≤ 2 * s.win → 2 * s.win < s.tasks.length + n →
    ((List.replicate n (.packet i over)).foldl Loop.step l).busy = .submit i (firstPhase over) ∧
    ((List.replicate n (.packet i over)).foldl Loop.step l).wire = l.wire ∧
    ∀ j, j ≠ i → ((List.replicate n (.packet i over)).foldl Loop.step l).sess[j]? = l.sess[j]? := by
  induction n with
  | zero => intro l s _ _ _ h1 h2; omega
  | succ n ih =>
    intro l s hb hs h0 h1 h2
    rw [List.replicate_succ, List.foldl_cons]
    by_cases hw : s.hasWorker = true
    · have hlt : s.tasks.length < 2 * s.win := by
        rcases (hasWorker_iff s).1 hw with h | h
        · omega
        · exact h
      have hstep : l.step (.packet i over) = { l with sess := l.sess.set i (s.start (firstPhase over)) } := by
        simp only [Loop.step, hb, hs, hw, if_true]
      rw [hstep]
      obtain ⟨q1, q2, q3⟩ := ih { l with sess := l.sess.set i (s.start (firstPhase over)) } (s.start (firstPhase over)) hb
        (List.getElem?_set_self (List.getElem?_eq_some_iff.mp hs).1) h0 (by simp [Sess.start]; omega) (by simp [Sess.start]; omega)
      exact ⟨q1, q2, fun j hj => by rw [q3 j hj]; exact List.getElem?_set_ne (Ne.symm hj)⟩
    · have hstep : l.step (.packet i over) = { l with busy := .submit i (firstPhase over) } := by
        simp only [Loop.step, hb, hs, hw, if_false]; rfl
      rw [hstep]
      have key : ∀ (n : Nat) (l : Loop), l.busy = .submit i (firstPhase over) → (List.replicate n (.packet i over)).foldl Loop.step l = l := by
        intro n
        induction n with
        | zero => intro l _; rfl
        | succ n ih =>
          intro l hb
          rw [List.replicate_succ, List.foldl_cons]
          have : l.step (.packet i over) = l := by simp only [Loop.step, hb]
          rw [this, ih l hb]
      rw [key n _ rfl]
      exact ⟨rfl, rfl, fun _ _ => rfl⟩

/-- C101 is false of the code, at every moment: as soon as the loop waits for a worker of one client's session, nothing is written on any
connection and no packet of any client taken, until a task of that client makes progress. -/
theorem waiting_stops_all_fails (wins : List Nat) (steps more : List Step) (i : Nat) (ph : Phase)
    (hb : (Loop.run wins steps).busy = .submit i ph) (h : ∀ x ∈ more, ¬ IsTaskOf i x) :
    (Loop.run wins (steps ++ more)).wire = (Loop.run wins steps).wire ∧
    Loop.run wins (steps ++ more ++ [.write]) = Loop.run wins (steps ++ more) ∧
    ∀ j over, Loop.run wins (steps ++ more ++ [.packet j over]) = Loop.run wins (steps ++ more) := by
  have app : Loop.run wins (steps ++ more) = more.foldl Loop.step (Loop.run wins steps) := by simp [Loop.run, List.foldl_append]
  obtain ⟨g1, g2, _⟩ := stuck i ph more h _ hb
  rw [← app] at g1 g2
  refine ⟨g2, ?_, fun j over => ?_⟩
  · rw [lrun_snoc]; simp only [Loop.step, g1]
  · rw [lrun_snoc]; simp only [Loop.step, g1]

/-- C101 is false of the code: at any moment, whatever happened before, a client that sends as many packets as its session has workers and
one more stops the event loop for all its connections: until a task of that client makes progress, nothing is written on any of them and no
packet taken. -/
theorem one_client_stops_all_fails (wins : List Nat) (steps more : List Step) (i w : Nat) (over : Bool) (hw : wins[i]? = some w) (h0 : 0 < w)
    (hb : (Loop.run wins steps).busy = .no) (h : ∀ x ∈ more, ¬ IsTaskOf i x) :
    let stopped := steps ++ List.replicate (2 * w + 1) (.packet i over) ++ more
    (Loop.run wins stopped).wire = (Loop.run wins steps).wire ∧ Loop.run wins (stopped ++ [.write]) = Loop.run wins stopped ∧
    (∀ j o, Loop.run wins (stopped ++ [.packet j o]) = Loop.run wins stopped) ∧
    ∀ (j : Nat) (s : Sess), j ≠ i → (Loop.run wins stopped).sess[j]? = some s →
      ∃ t : Sess, (Loop.run wins steps).sess[j]? = some t ∧ s.tasks.length ≤ t.tasks.length := by
  intro stopped
  have app : ∀ a b, Loop.run wins (a ++ b) = b.foldl Loop.step (Loop.run wins a) := by
    intro a b; simp [Loop.run, List.foldl_append]
  obtain ⟨s, hs, hwin, hlen⟩ := session_of wins steps i w hw h0
  obtain ⟨f1, f2, f3⟩ := flood i over (2 * w + 1) (Loop.run wins steps) s hb hs (by omega) (by rw [hwin]; exact hlen) (by rw [hwin]; omega)
  rw [← app] at f1 f2 f3
  obtain ⟨g1, g2, g3⟩ := waiting_stops_all_fails wins _ more i _ f1 h
  refine ⟨g1.trans f2, g2, g3, fun j s hj hs => ?_⟩
  have hs : (Loop.run wins ((steps ++ List.replicate (2 * w + 1) (.packet i over)) ++ more)).sess[j]? = some s := hs
  rw [app] at hs
  obtain ⟨t, ht, hl⟩ := (stuck i _ more h _ f1).2.2 j s hs
  exact ⟨t, by rw [← f3 j hj]; exact ht, hl⟩

/-- C101 is false of the code also when the server ends a session: at any moment, once a termination is written the loop sleeps, and until
it wakes up nothing is written on any connection and no packet taken. -/
theorem termination_stops_all_fails (wins : List Nat) (steps more : List Step) (i : Nat) (q : List (Nat × Bool))
    (hb : (Loop.run wins steps).busy = .no) (hq : (Loop.run wins steps).queue = (i, true) :: q) (h : .wake ∉ more) :
    let stopped := steps ++ [.write] ++ more
    (Loop.run wins stopped).wire = (Loop.run wins steps).wire ++ [(i, true)] ∧
    Loop.run wins (stopped ++ [.write]) = Loop.run wins stopped ∧
    ∀ j over, Loop.run wins (stopped ++ [.packet j over]) = Loop.run wins stopped := by
  intro stopped
  have app : ∀ a b, Loop.run wins (a ++ b) = b.foldl Loop.step (Loop.run wins a) := by
    intro a b; simp [Loop.run, List.foldl_append]
  have h0 : (Loop.run wins (steps ++ [.write])).busy = .sleep ∧
      (Loop.run wins (steps ++ [.write])).wire = (Loop.run wins steps).wire ++ [(i, true)] := by
    rw [lrun_snoc]; simp [Loop.step, hb, hq]
  have hk : (Loop.run wins stopped).busy = .sleep ∧ (Loop.run wins stopped).wire = (Loop.run wins steps).wire ++ [(i, true)] := by
    show (Loop.run wins ((steps ++ [.write]) ++ more)).busy = _ ∧ (Loop.run wins ((steps ++ [.write]) ++ more)).wire = _
    rw [app]
    generalize Loop.run wins (steps ++ [.write]) = l at h0
    generalize (Loop.run wins steps).wire ++ [(i, true)] = w at h0
    clear stopped
    induction more generalizing l with
    | nil => exact h0
    | cons x more ih =>
      refine ih (fun hm => h (by simp [hm])) (l.step x) ?_
      obtain ⟨hb, hw⟩ := h0
      cases x with
      | packet j over => simp [Loop.step, hb, hw]
      | enter j k =>
        simp only [Loop.step]
        split
        · split <;> exact ⟨hb, hw⟩
        · exact ⟨hb, hw⟩
      | send j k =>
        simp only [Loop.step]
        split
        · split <;> exact ⟨hb, hw⟩
        · exact ⟨hb, hw⟩
      | done j k =>
        simp only [Loop.step]
        split
        · split
          · simp [Loop.resume, hb, hw]
          · exact ⟨hb, hw⟩
        · exact ⟨hb, hw⟩
      | terminate j => exact ⟨hb, hw⟩
      | write => simp [Loop.step, hb, hw]
      | wake => exact absurd (by simp) h
  refine ⟨hk.2, ?_, fun j over => ?_⟩
  · rw [lrun_snoc]; simp only [Loop.step, hk.1]
  · rw [lrun_snoc]; simp only [Loop.step, hk.1]

/-- C101 (partial): a connection is served at once (its packet gets a task) if the loop is free and its session has a free worker,
whatever the other sessions are doing. -/
theorem served_at_once_partial (wins : List Nat) (steps : List Step) (j : Nat) (over : Bool) (s : Sess)
    (hb : (Loop.run wins steps).busy = .no) (hs : (Loop.run wins steps).sess[j]? = some s) (hl : s.tasks.length < 2 * s.win) :
    (Loop.run wins (steps ++ [.packet j over])).busy = .no ∧
    (Loop.run wins (steps ++ [.packet j over])).sess[j]? = some { s with tasks := s.tasks ++ [if over then .free else .waiting] } := by
  rw [lrun_snoc]
  have hw : s.hasWorker = true := (hasWorker_iff s).mpr (Or.inr hl)
  simp only [Loop.step, hb, hs, hw, if_true]
  exact ⟨trivial, by rw [List.getElem?_set_self (List.getElem?_eq_some_iff.mp hs).1]; rfl⟩

/-- C101: what is written: the frames given to `AsyncWrite` by the tasks past the window (and those that need none) and by ticks, each
once and in that order. -/
theorem written_once (wins : List Nat) (steps : List Step) (x : Step) :
    (Loop.run wins (steps ++ [x])).wire ++ (Loop.run wins (steps ++ [x])).queue =
    (Loop.run wins steps).wire ++ (Loop.run wins steps).queue ++
      match x with
      | .send i k => if ∃ s, (Loop.run wins steps).sess[i]? = some s ∧ (s.tasks[k]? = some .inside ∨ s.tasks[k]? = some .free)
          then [(i, false)] else []
      | .terminate i => [(i, true)]
      | _ => [] := by
  rw [lrun_snoc]
  generalize Loop.run wins steps = l
  cases x with
  | packet i over =>
    simp only [Loop.step]
    split
    · split <;> simp
    · simp
  | enter i k =>
    simp only [Loop.step]
    split
    · split <;> simp
    · simp
  | send i k =>
    simp only [Loop.step]
    split
    · rename_i s hs
      split
      · rename_i hc
        rw [if_pos ⟨s, hs, hc⟩]; simp
      · rename_i hc
        rw [if_neg]; · simp
        rintro ⟨t, ht, h⟩
        rw [hs] at ht; cases ht; exact hc h
    · rename_i hs
      simp [hs]
  | done i k =>
    simp only [Loop.step]
    split
    · split
      · simp only [Loop.resume]
        split
        · split <;> simp
        · simp
      · simp
    · simp
  | terminate i => simp [Loop.step]
  | write =>
    simp only [Loop.step]
    split
    · rename_i hq; simp [hq]
    · simp
  | wake =>
    simp only [Loop.step]
    split <;> simp

/-- After some traffic of the second session, three packets of the first stop the loop, whatever the second session does. -/
example : (Loop.run [1, 1] ([.packet 1 false, .enter 1 0, .send 1 0] ++ List.replicate 3 (.packet 0 false) ++ [.done 1 0, .write, .packet 1 false])).wire = [] :=
  (one_client_stops_all_fails [1, 1] [.packet 1 false, .enter 1 0, .send 1 0] [.done 1 0, .write, .packet 1 false] 0 1 false rfl (by decide)
    (by decide) (by simp [IsTaskOf])).1

/-- A termination is written after a response. -/
example : (Loop.run [1] ([.packet 0 false, .enter 0 0, .send 0 0, .terminate 0, .write] ++ [.write] ++ [.send 0 0, .write, .write])).wire =
    [(0, false), (0, true)] :=
  (termination_stops_all_fails [1] [.packet 0 false, .enter 0 0, .send 0 0, .terminate 0, .write] [.send 0 0, .write, .write] 0 [] (by decide)
    (by decide) (by decide)).1

example : (Loop.run [1, 1] [.packet 0 false, .packet 0 false, .packet 0 false, .packet 1 false, .enter 0 0, .send 0 0, .write]).busy =
    .submit 0 .waiting := by decide

example : (Loop.run [1, 1] [.packet 0 false, .packet 0 false, .packet 0 false, .enter 0 0, .send 0 0, .done 0 0, .write]).wire =
    [(0, false)] := by decide

end Gosms.Pools
