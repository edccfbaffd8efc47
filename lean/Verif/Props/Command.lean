import Verif.Model.Command

/-!
# C84: the client command sends to every number; C85: the pid file
-/

namespace Gosms.Command

/-! ## C85 -/

/-- C85: the file holds exactly the process id afterwards if and only if what it held before was not longer. -/
theorem savePid_partial (old : Option Bytes) (pid : Bytes) :
    savePid old true pid = some pid ↔ (old.getD []).length ≤ pid.length := by
  simp only [savePid, if_true, Option.some.injEq]
  constructor
  · intro h
    have : (old.getD []).drop pid.length = [] := List.append_cancel_left (by rw [h, List.append_nil])
    exact List.drop_eq_nil_iff.1 this
  · intro h
    rw [List.drop_eq_nil_of_le h, List.append_nil]

/-- C85 fails: if the file of an earlier run holds a longer number, its end stays behind the new one. -/
theorem savePid_fails (old pid : Bytes) (h : pid.length < old.length) :
    ∃ rest, rest ≠ [] ∧ savePid (some old) true pid = some (pid ++ rest) :=
  ⟨old.drop pid.length, by simpa [List.drop_eq_nil_iff] using h, rfl⟩

/-- Process 7 after process 123: "723". -/
example : savePid (some [0x31, 0x32, 0x33]) true [0x37] = some [0x37, 0x32, 0x33] ∧ savePid none true [0x37] = some [0x37] := by decide

/-! ## C84 -/

variable {P : Type} (arr : List P) (cap iterates : Nat)

/-- What the command is asked to do: one message to each number, `iterates` times. -/
def plan (arr : List P) (iterates : Nat) : List P := (List.replicate iterates arr).flatten

theorem run_snoc (steps : List Step) (x : Step) :
    run arr cap iterates (steps ++ [x]) = step arr cap (run arr cap iterates steps) x := by simp [run]

def Inv (s : State P) : Prop :=
  s.sent.length + s.tasks.length + (if s.assigned then 1 else 0) + s.rest.length + s.rounds * arr.length = iterates * arr.length ∧
  (∀ p ∈ s.sent, p ∈ arr) ∧ (∀ p ∈ s.rest, p ∈ arr) ∧
  (∀ v ∈ s.tasks, ∃ p ∈ arr, s.cells.reverse[v]? = some (some p)) ∧
  (s.assigned = true → ∃ p cs, p ∈ arr ∧ s.cells = some p :: cs) ∧ (s.rest ≠ [] → s.cells ≠ [])

theorem inv_step {s : State P} (h : Inv arr iterates s) (x : Step) : Inv arr iterates (step arr cap s x) := by
  obtain ⟨rounds, rest, cells, assigned, tasks, sent⟩ := s
  obtain ⟨h1, h2, h3, h4, h5, h6⟩ := h
  simp only at h1 h2 h3 h4 h5 h6
  cases x with
  | loop =>
    simp only [step, onLoop]
    cases assigned with
    | true =>
      simp only [if_true] at h1 ⊢
      obtain ⟨p, cs, hp, hc⟩ := h5 rfl
      split
      · refine ⟨by simp; omega, h2, h3, ?_, by simp, h6⟩
        intro v hv
        simp only [List.mem_append, List.mem_singleton] at hv
        rcases hv with hv | rfl
        · exact h4 v hv
        · exact ⟨p, hp, by rw [hc]; simp⟩
      · exact ⟨by simpa using h1, h2, h3, h4, h5, h6⟩
    | false =>
      simp only [Bool.false_eq_true, if_false] at h1 ⊢
      split
      · rename_i p rest'
        refine ⟨by simp at h1 ⊢; omega, h2, fun q hq => h3 q (List.mem_cons_of_mem _ hq), ?_, ?_, by simp⟩
        · intro v hv
          obtain ⟨q, hq, hv'⟩ := h4 v hv
          cases cells with
          | nil => simp at hv'
          | cons c cs =>
            simp only [List.tail_cons, List.reverse_cons] at hv' ⊢
            by_cases hl : v < cs.reverse.length
            · refine ⟨q, hq, ?_⟩
              rw [List.getElem?_append_left hl] at hv' ⊢
              exact hv'
            · refine ⟨p, h3 p (by simp), ?_⟩
              rw [List.getElem?_append_right (by omega)] at hv' ⊢
              cases hz : v - cs.reverse.length with
              | zero => rfl
              | succ k => rw [hz] at hv'; simp at hv'
        · exact fun _ => ⟨p, cells.tail, h3 p (by simp), rfl⟩
      · split
        · exact ⟨by simpa using h1, h2, h3, h4, h5, h6⟩
        · rename_i n
          refine ⟨?_, h2, fun q hq => hq, ?_, by simp, by simp⟩
          · simp only [List.length_nil, Bool.false_eq_true, if_false, Nat.succ_eq_add_one, Nat.succ_mul] at h1 ⊢
            omega
          · intro v hv
            obtain ⟨q, hq, hv'⟩ := h4 v hv
            refine ⟨q, hq, ?_⟩
            rw [List.reverse_cons]
            obtain ⟨hl, _⟩ := List.getElem?_eq_some_iff.1 hv'
            rw [List.getElem?_append_left hl]
            exact hv'
  | task j =>
    simp only [step, onTask]
    split
    · exact ⟨h1, h2, h3, h4, h5, h6⟩
    · rename_i v hv
      have hmem : v ∈ tasks := List.mem_of_getElem? hv
      obtain ⟨q, hq, hv'⟩ := h4 v hmem
      rw [hv']
      have hj : j < tasks.length := (List.getElem?_eq_some_iff.1 hv).1
      refine ⟨?_, ?_, h3, fun w hw => h4 w (List.mem_of_mem_eraseIdx hw), h5, h6⟩
      · simp only [List.length_append, List.length_singleton, List.length_eraseIdx, hj, if_true]
        omega
      · intro p hp
        simp only [List.mem_append, List.mem_singleton] at hp
        rcases hp with hp | rfl
        · exact h2 p hp
        · exact hq

theorem inv_run (steps : List Step) : Inv arr iterates (run arr cap iterates steps) := by
  induction steps using snoc_induction with
  | nil => simp [run, Inv]
  | snoc steps x ih => rw [run_snoc]; exact inv_step arr cap iterates ih x

/-- C84, what holds under every schedule: when everything has run, as many messages have been sent as asked for, all of them to
numbers from the list. -/
theorem command_count (steps : List Step) (hf : Finished (run arr cap iterates steps)) :
    (run arr cap iterates steps).sent.length = (plan arr iterates).length ∧ ∀ p ∈ (run arr cap iterates steps).sent, p ∈ arr := by
  obtain ⟨h1, h2, _⟩ := inv_run arr cap iterates steps
  obtain ⟨f1, f2, f3, f4⟩ := hf
  rw [f1, f2, f3, f4] at h1
  refine ⟨?_, h2⟩
  simp [plan] at h1 ⊢
  exact h1

def PromptInv (s : State P) : Prop :=
  (s.tasks = [] ∧ s.assigned = false ∧ s.sent ++ s.rest ++ plan arr s.rounds = plan arr iterates) ∨
  (∃ p cs, s.tasks = [] ∧ s.assigned = true ∧ s.cells = some p :: cs ∧ s.sent ++ p :: s.rest ++ plan arr s.rounds = plan arr iterates) ∨
  (∃ p cs, s.tasks = [cs.length] ∧ s.assigned = false ∧ s.cells = some p :: cs ∧
    s.sent ++ p :: s.rest ++ plan arr s.rounds = plan arr iterates)

theorem promptInv_step {s : State P} (h : PromptInv arr iterates s) (x : Step) (hx : x = .loop → s.tasks = []) :
    PromptInv arr iterates (step arr cap s x) := by
  obtain ⟨rounds, rest, cells, assigned, tasks, sent⟩ := s
  cases x with
  | loop =>
    have ht := hx rfl
    simp only at ht
    subst ht
    rcases h with ⟨_, h2, h3⟩ | ⟨p, cs, _, h2, h3, h4⟩ | ⟨p, cs, h1, _⟩
    · simp only at h2 h3
      subst h2
      simp only [step, onLoop, Bool.false_eq_true, if_false]
      split
      · rename_i p rest' _
        exact .inr (.inl ⟨p, cells.tail, rfl, rfl, rfl, by simpa using h3⟩)
      · split
        · exact .inl ⟨rfl, rfl, by simpa using h3⟩
        · rename_i n
          exact .inl ⟨rfl, rfl, by simpa [plan, List.replicate_succ] using h3⟩
    · simp only at h2 h3 h4
      subst h2 h3
      simp only [step, onLoop, if_true]
      split
      · exact .inr (.inr ⟨p, cs, by simp, rfl, rfl, h4⟩)
      · exact .inr (.inl ⟨p, cs, rfl, rfl, rfl, h4⟩)
    · cases h1
  | task j =>
    rcases h with ⟨h1, h2, h3⟩ | ⟨p, cs, h1, h2, h3, h4⟩ | ⟨p, cs, h1, h2, h3, h4⟩
    · simp only at h1 h2 h3
      subst h1 h2
      exact .inl ⟨by simp [step, onTask], by simp [step, onTask], by simpa [step, onTask] using h3⟩
    · simp only at h1 h2 h3 h4
      subst h1 h2 h3
      exact .inr (.inl ⟨p, cs, by simp [step, onTask], by simp [step, onTask], by simp [step, onTask], by simpa [step, onTask] using h4⟩)
    · simp only at h1 h2 h3 h4
      subst h1 h2 h3
      cases j with
      | zero => exact .inl ⟨by simp [step, onTask], by simp [step, onTask], by simpa [step, onTask] using h4⟩
      | succ j =>
        exact .inr (.inr ⟨p, cs, by simp [step, onTask], by simp [step, onTask], by simp [step, onTask], by simpa [step, onTask] using h4⟩)

/-- C84, partly: if each task runs before the loop goes on, exactly the messages asked for are sent, in order. -/
theorem command_prompt_partial (steps : List Step)
    (hprompt : ∀ pre, pre ++ [.loop] <+: steps → (run arr cap iterates pre).tasks = [])
    (hf : Finished (run arr cap iterates steps)) : (run arr cap iterates steps).sent = plan arr iterates := by
  have key : PromptInv arr iterates (run arr cap iterates steps) := by
    clear hf
    induction steps using snoc_induction with
    | nil => exact .inl ⟨rfl, rfl, by simp [run]⟩
    | snoc steps x ih =>
      rw [run_snoc]
      refine promptInv_step arr cap iterates (ih fun pre hp => hprompt pre (hp.trans (List.prefix_append _ _))) x ?_
      rintro rfl
      exact hprompt steps List.prefix_rfl
  obtain ⟨f1, f2, f3, f4⟩ := hf
  rcases key with ⟨_, _, h⟩ | ⟨p, cs, _, h, _⟩ | ⟨p, cs, h, _⟩
  · rw [f1, f2] at h
    simpa [plan] using h
  · rw [f3] at h; cases h
  · rw [f4] at h; cases h

theorem foldl_loop (l : List P) (t : List Nat) (c : Option P) (cs : List (Option P)) (r : Nat) (sent : List P)
    (hl : t.length + l.length ≤ cap) :
    (List.replicate (2 * l.length) Step.loop).foldl (step arr cap) ⟨r, l, c :: cs, false, t, sent⟩ =
    ⟨r, [], (l.map some).getLastD c :: cs, false, t ++ List.replicate l.length cs.length, sent⟩ := by
  induction l generalizing t c with
  | nil => simp
  | cons p l ih =>
    have : 2 * (p :: l).length = 2 * l.length + 1 + 1 := by simp; omega
    rw [this, List.replicate_succ, List.replicate_succ, List.foldl_cons, List.foldl_cons]
    have hs : step arr cap (step arr cap ⟨r, p :: l, c :: cs, false, t, sent⟩ .loop) .loop =
        ⟨r, l, some p :: cs, false, t ++ [cs.length], sent⟩ := by
      simp only [List.length_cons] at hl
      have : t.length < cap := by omega
      simp [step, onLoop, this]
    rw [hs, ih _ _ (by simp at hl ⊢; omega)]
    simp only [List.map_cons, List.getLastD_cons, List.length_cons, List.replicate_succ, List.append_assoc, List.singleton_append]

theorem foldl_task (n : Nat) (p : P) (cs : List (Option P)) (r : Nat) (sent : List P) :
    (List.replicate n (Step.task 0)).foldl (step arr cap) ⟨r, [], some p :: cs, false, List.replicate n cs.length, sent⟩ =
    ⟨r, [], some p :: cs, false, [], sent ++ List.replicate n p⟩ := by
  induction n generalizing sent with
  | zero => simp
  | succ n ih =>
    have e : List.replicate (n + 1) (Step.task 0) = .task 0 :: List.replicate n (.task 0) := rfl
    rw [e, List.foldl_cons]
    have hs : step arr cap ⟨r, [], some p :: cs, false, List.replicate (n + 1) cs.length, sent⟩ (.task 0) =
        ⟨r, [], some p :: cs, false, List.replicate n cs.length, sent ++ [p]⟩ := by
      simp [step, onTask, List.replicate_succ]
    rw [hs, ih]
    simp [List.replicate_succ]

/-- C84 fails: whatever the numbers (at most as many as the pool has goroutines, at least 10) and the number of repetitions, there is a
schedule in which every message goes to the last number. -/
theorem command_last_number_fails (init : List P) (last : P) (hcap : (init ++ [last]).length ≤ cap) :
    ∃ steps, Finished (run (init ++ [last]) cap iterates steps) ∧
      (run (init ++ [last]) cap iterates steps).sent = List.replicate (iterates * (init ++ [last]).length) last := by
  have key : ∀ (k : Nat) (cells : List (Option P)) (sent : List P), ∃ (steps : List Step) (cells' : List (Option P)),
      steps.foldl (step (init ++ [last]) cap) ⟨k, [], cells, false, [], sent⟩ =
      ⟨0, [], cells', false, [], sent ++ List.replicate (k * (init ++ [last]).length) last⟩ := by
    intro k
    induction k with
    | zero => intro cells sent; exact ⟨[], cells, by simp⟩
    | succ k ih =>
      intro cells sent
      obtain ⟨steps, cells', h⟩ := ih (some last :: cells) (sent ++ List.replicate (init ++ [last]).length last)
      refine ⟨[.loop] ++ List.replicate (2 * (init ++ [last]).length) .loop ++
        List.replicate (init ++ [last]).length (.task 0) ++ steps, cells', ?_⟩
      rw [List.foldl_append, List.foldl_append, List.foldl_append]
      have h1 : [Step.loop].foldl (step (init ++ [last]) cap) ⟨k + 1, [], cells, false, [], sent⟩ =
          ⟨k, init ++ [last], none :: cells, false, [], sent⟩ := rfl
      rw [h1, foldl_loop _ _ _ _ _ _ _ _ (by simpa using hcap)]
      have h2 : ((init ++ [last]).map some).getLastD none = some last := by simp [List.getLastD_eq_getLast?]
      rw [h2, List.nil_append, foldl_task, h]
      congr 1
      rw [List.append_assoc, List.replicate_append_replicate, Nat.add_mul, Nat.one_mul, Nat.add_comm]
  obtain ⟨steps, cells', h⟩ := key iterates [] []
  refine ⟨steps, ?_, ?_⟩
  · unfold run; rw [h]; exact ⟨rfl, rfl, rfl, rfl⟩
  · unfold run; rw [h]; rfl

/-- So every list that contains another number than its last one can be served wrongly: that number gets nothing. -/
theorem command_number_missed_fails (init : List P) (last p : P) (hp : p ≠ last) (hcap : (init ++ [last]).length ≤ cap) :
    ∃ steps, Finished (run (init ++ [last]) cap iterates steps) ∧ p ∉ (run (init ++ [last]) cap iterates steps).sent := by
  obtain ⟨steps, h1, h2⟩ := command_last_number_fails cap iterates init last hcap
  exact ⟨steps, h1, by rw [h2]; intro h; exact hp (List.eq_of_mem_replicate h)⟩

/-- Three numbers as in the default of the command: late tasks send three times to 3; prompt tasks send to 1, 2 and 3. -/
example :
    (run [1, 2, 3] 10 1 (List.replicate 7 .loop ++ List.replicate 3 (.task 0))).sent = [3, 3, 3] ∧
    (run [1, 2, 3] 10 1 [.loop, .loop, .loop, .task 0, .loop, .loop, .task 0, .loop, .loop, .task 0]).sent = [1, 2, 3] := by decide

end Gosms.Command
