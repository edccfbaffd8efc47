import Verif.Model.ClientStop

/-!
# C116: a client that ends closes its connections first
-/

namespace Gosms.ClientStop
variable (want : Nat) (order : List Hook)

theorem run_append (a b : List Step) : run want order (a ++ b) = b.foldl (step want order) (run want order a) := by simp [run]

theorem run_snoc (a : List Step) (x : Step) : run want order (a ++ [x]) = step want order (run want order a) x := by simp [run]

/-! ### What closing leaves as it is -/

theorem close_pool (s : State) (i : Nat) : (close s i).pool = s.pool := by unfold close; split <;> rfl
theorem close_opened (s : State) (i : Nat) : (close s i).opened = s.opened := by unfold close; split <;> rfl
theorem close_hook (s : State) (i : Nat) : (close s i).hook = s.hook := by unfold close; split <;> rfl
theorem close_todo (s : State) (i : Nat) : (close s i).todo = s.todo := by unfold close; split <;> rfl
theorem close_pc (s : State) (i : Nat) : (close s i).pc = s.pc := by unfold close; split <;> rfl
theorem close_pending (s : State) (i : Nat) : (close s i).pending = s.pending := by unfold close; split <;> rfl
theorem close_ticking (s : State) (i : Nat) : (close s i).ticking = s.ticking := by unfold close; split <;> rfl
theorem close_told (s : State) (i : Nat) : (close s i).told = s.told := by unfold close; split <;> rfl
theorem close_exited (s : State) (i : Nat) : (close s i).exited = s.exited := by unfold close; split <;> rfl

theorem close_sub (s : State) (i j : Nat) (h : j ∈ (close s i).alive) : j ∈ s.alive := by
  unfold close at h
  split at h
  · exact h
  · exact (List.mem_filter.1 h).1

theorem foldl_close (l : List Nat) (s : State) :
    (l.foldl close s).opened = s.opened ∧ (l.foldl close s).hook = s.hook ∧ (l.foldl close s).todo = s.todo ∧
    (l.foldl close s).pending = s.pending ∧ (l.foldl close s).ticking = s.ticking ∧ (l.foldl close s).told = s.told ∧
    (l.foldl close s).exited = s.exited ∧ ∀ j ∈ (l.foldl close s).alive, j ∈ s.alive := by
  induction l generalizing s with
  | nil => simp
  | cons a l ih =>
    obtain ⟨h1, h2, h3, h4, h5, h6, h7, h8⟩ := ih (close s a)
    simp only [List.foldl_cons, h1, h2, h3, h4, h5, h6, h7, close_opened, close_hook, close_todo, close_pending, close_ticking, close_told, close_exited,
      true_and]
    exact fun j hj => close_sub s a j (h8 j hj)

/-! ### Sessions with the status closing have no connection -/

/-- Every open connection is one that was opened; a session being closed has no connection any more. -/
def Inv (s : State) : Prop :=
  (∀ i ∈ s.alive, i < s.opened) ∧ (∀ i ∈ s.pool, i < s.opened) ∧ (∀ i ∈ s.shut, i ∉ s.alive ∧ i < s.opened) ∧
  (∀ i, s.pc = .login i → i < s.opened) ∧ (∀ l, s.hook = .closing l → ∀ i ∈ l, i < s.opened)

theorem inv_close {s : State} (h : Inv s) (i : Nat) (hi : i < s.opened) : Inv (close s i) := by
  obtain ⟨h1, h2, h3, h4, h5⟩ := h
  refine ⟨fun j hj => ?_, ?_, ?_, ?_, ?_⟩
  · rw [close_opened]; exact h1 j (close_sub s i j hj)
  · rw [close_opened, close_pool]; exact h2
  · intro j hj
    rw [close_opened]
    unfold close at hj ⊢
    split at hj
    · rename_i hs; simp only [hs, if_true]; exact h3 j hj
    · rename_i hs
      simp only [hs, if_false]
      rcases List.mem_cons.1 hj with rfl | hj
      · exact ⟨by simp, hi⟩
      · exact ⟨fun hc => (h3 j hj).1 (List.mem_filter.1 hc).1, (h3 j hj).2⟩
  · rw [close_opened, close_pc]; exact h4
  · rw [close_opened, close_hook]; exact h5

theorem inv_foldl {s : State} (h : Inv s) (l : List Nat) (hl : ∀ i ∈ l, i < s.opened) : Inv (l.foldl close s) := by
  induction l generalizing s with
  | nil => exact h
  | cons a l ih =>
    refine ih (inv_close h a (hl a (by simp))) fun i hi => ?_
    rw [close_opened]; exact hl i (by simp [hi])

theorem inv_step {s : State} (h : Inv s) (x : Step) : Inv (step want order s x) := by
  have h0 := h
  obtain ⟨h1, h2, h3, h4, h5⟩ := h
  unfold step
  split
  · exact h0
  cases x with
  | tick => dsimp only; split <;> exact h0
  | sorter r =>
    dsimp only
    unfold onSorter
    split
    · split
      · exact ⟨h1, h2, h3, fun i hi => (by cases hi), h5⟩
      · exact h0
    · have hf : ∀ i ∈ (s.pool.filter fun i => !healthy s i), i < s.opened := fun i hi => h2 i (List.mem_filter.1 hi).1
      obtain ⟨g1, g2, g3, g4, g5⟩ := inv_foldl h0 _ hf
      have e := (foldl_close (s.pool.filter fun i => !healthy s i) s).1
      exact ⟨g1, fun i hi => by show i < (List.foldl close s _).opened; rw [e]; exact h2 i (List.mem_filter.1 hi).1, g3, fun i hi => (by cases hi), g5⟩
    · split
      · split
        · exact ⟨h1, h2, h3, fun i hi => (by cases hi), h5⟩
        · exact ⟨h1, h2, h3, fun i hi => (by cases hi), h5⟩
      · exact ⟨h1, h2, h3, fun i hi => (by cases hi), h5⟩
    · split
      · exact ⟨h1, h2, h3, fun i hi => (by cases hi), h5⟩
      · refine ⟨?_, ?_, ?_, ?_, ?_⟩
        · intro i hi
          rcases List.mem_cons.1 hi with rfl | hi
          · exact Nat.lt_succ_self _
          · exact Nat.lt_succ_of_lt (h1 i hi)
        · exact fun i hi => Nat.lt_succ_of_lt (h2 i hi)
        · intro i hi
          refine ⟨?_, Nat.lt_succ_of_lt (h3 i hi).2⟩
          intro hc
          rcases List.mem_cons.1 hc with e | hc
          · have := (h3 i hi).2; omega
          · exact (h3 i hi).1 hc
        · intro i hi; cases hi; exact Nat.lt_succ_self _
        · exact fun l hl i hi => Nat.lt_succ_of_lt (h5 l hl i hi)
    · rename_i i hpc
      have hi := h4 i hpc
      have hp : ∀ j ∈ s.pool ++ [i], j < s.opened := fun j hj => by
        rcases List.mem_append.1 hj with hj | hj
        · exact h2 j hj
        · simp only [List.mem_singleton] at hj; exact hj ▸ hi
      split
      · exact ⟨h1, h2, h3, fun i hi => (by cases hi), h5⟩
      · exact ⟨h1, hp, h3, fun i hi => (by cases hi), h5⟩
      · exact ⟨h1, hp, h3, fun i hi => (by cases hi), h5⟩
    · exact ⟨h1, h2, h3, fun i hi => (by cases hi), h5⟩
  | lost i =>
    dsimp only
    split
    · rename_i hi; exact inv_close h0 i (h2 i hi)
    · exact h0
  | collect i =>
    dsimp only
    split
    · exact h0
    · exact ⟨fun j hj => h1 j (List.mem_filter.1 hj).1, h2, fun j hj => ⟨fun hc => (h3 j hj).1 (List.mem_filter.1 hc).1, (h3 j hj).2⟩, h4, h5⟩
  | signal =>
    dsimp only
    split
    · exact ⟨h1, h2, h3, h4, fun l hl => (by cases hl)⟩
    · exact h0
  | hook =>
    dsimp only
    unfold onHook
    split
    · exact h0
    · split
      · exact h0
      · exact ⟨h1, h2, h3, h4, fun l hl => (by cases hl)⟩
      · exact ⟨h1, h2, h3, h4, fun l hl i hi => (by cases hl; exact h2 i hi)⟩
      · rename_i hh _; exact ⟨h1, h2, h3, h4, h5⟩
    · split
      · exact h0
      · exact ⟨h1, h2, h3, h4, fun l hl => (by cases hl)⟩
    · rename_i i r hh
      obtain ⟨g1, g2, g3, g4, g5⟩ := inv_close h0 i (h5 _ hh i (by simp))
      refine ⟨g1, g2, g3, g4, fun l hl j hj => ?_⟩
      cases hl
      show j < (close s i).opened
      rw [close_opened]
      exact h5 _ hh j (by simp [hj])
    · exact ⟨h1, h2, h3, h4, fun l hl => (by cases hl)⟩
  | exit =>
    dsimp only
    split
    · exact ⟨h1, h2, h3, h4, h5⟩
    · exact h0

theorem inv_run (steps : List Step) : Inv (run want order steps) := by
  induction steps using snoc_induction with
  | nil => exact ⟨by simp [run], by simp [run], by simp [run], by simp [run], by simp [run]⟩
  | snoc a x ih => rw [run_snoc]; exact inv_step want order ih x

theorem onSorter_exited (s : State) (r : Option Bool) : (onSorter want s r).exited = s.exited := by
  unfold onSorter
  split
  · split <;> rfl
  · exact (foldl_close _ s).2.2.2.2.2.2.1
  · split
    · split <;> rfl
    · rfl
  · split <;> rfl
  · split <;> rfl
  · rfl

theorem onHook_exited (s : State) : (onHook s).exited = s.exited := by
  unfold onHook
  split
  · rfl
  · split <;> rfl
  · split <;> rfl
  · exact close_exited s _
  · rfl

theorem exited_between (steps : List Step) (h : (run want order steps).exited = true) :
    (run want order steps).hook = .between ∧ (run want order steps).todo = [] := by
  induction steps using snoc_induction with
  | nil => simp [run] at h
  | snoc a x ih =>
    rw [run_snoc] at h ⊢
    generalize run want order a = s at *
    by_cases he : s.exited = true
    · have e : step want order s x = s := by unfold step; simp only [he, if_true]
      rw [e]; exact ih he
    · unfold step at h ⊢
      rw [if_neg he] at h ⊢
      cases x with
      | exit =>
        dsimp only at h ⊢
        split
        · rename_i hh; exact hh
        · rename_i hh; rw [if_neg hh] at h; exact absurd h he
      | tick => dsimp only at h; split at h <;> exact absurd h he
      | sorter r => dsimp only at h; rw [onSorter_exited] at h; exact absurd h he
      | lost i => dsimp only at h; split at h <;> first | exact absurd h he | (rw [close_exited] at h; exact absurd h he)
      | collect i => dsimp only at h; split at h <;> exact absurd h he
      | signal => dsimp only at h; split at h <;> exact absurd h he
      | hook => dsimp only at h; rw [onHook_exited] at h; exact absurd h he

/-! ### What the closing hook finds, it closes -/

/-- Connection `i` is closed, or the hook is about to close it. -/
def Doomed (i : Nat) (s : State) : Prop := i < s.opened ∧ (i ∉ s.alive ∨ ∃ l, s.hook = .closing l ∧ i ∈ l)

theorem doomed_close {i : Nat} {s : State} (h : Doomed i s) (j : Nat) : Doomed i (close s j) := by
  refine ⟨by rw [close_opened]; exact h.1, ?_⟩
  rcases h.2 with h2 | h2
  · exact .inl fun hc => h2 (close_sub s j i hc)
  · right; rw [close_hook]; exact h2

theorem doomed_foldl {i : Nat} {s : State} (h : Doomed i s) (l : List Nat) : Doomed i (l.foldl close s) := by
  induction l generalizing s with
  | nil => exact h
  | cons a l ih => exact ih (doomed_close h a)

theorem doomed_step {i : Nat} {s : State} (hv : Inv s) (h : Doomed i s) (x : Step) : Doomed i (step want order s x) := by
  have h0 := h
  obtain ⟨h1, h2⟩ := h
  unfold step
  split
  · exact h0
  cases x with
  | tick => dsimp only; split <;> exact h0
  | sorter r =>
    dsimp only
    unfold onSorter
    split
    · split <;> exact h0
    · exact doomed_foldl h0 _
    · split
      · split <;> exact h0
      · exact h0
    · split
      · exact h0
      · refine ⟨Nat.lt_succ_of_lt h1, ?_⟩
        rcases h2 with h2 | h2
        · left
          intro hc
          rcases List.mem_cons.1 hc with e | hc
          · omega
          · exact h2 hc
        · exact .inr h2
    · split <;> exact h0
    · exact h0
  | lost j =>
    dsimp only
    split
    · exact doomed_close h0 j
    · exact h0
  | collect j =>
    dsimp only
    split
    · exact h0
    · refine ⟨h1, ?_⟩
      rcases h2 with h2 | h2
      · exact .inl fun hc => h2 (List.mem_filter.1 hc).1
      · exact .inr h2
  | signal =>
    dsimp only
    split
    · rename_i hb
      refine ⟨h1, ?_⟩
      rcases h2 with h2 | ⟨l, hl, _⟩
      · exact .inl h2
      · rw [hb] at hl; cases hl
    · exact h0
  | hook =>
    dsimp only
    unfold onHook
    split
    · exact h0
    · rename_i hb
      have h2' : i ∉ s.alive := by
        rcases h2 with h2 | ⟨l, hl, _⟩
        · exact h2
        · rw [hb] at hl; cases hl
      split <;> exact ⟨h1, .inl h2'⟩
    · rename_i hb
      have h2' : i ∉ s.alive := by
        rcases h2 with h2 | ⟨l, hl, _⟩
        · exact h2
        · rw [hb] at hl; cases hl
      split <;> exact ⟨h1, .inl h2'⟩
    · rename_i j r hb
      refine ⟨by show i < (close s j).opened; rw [close_opened]; exact h1, ?_⟩
      rcases h2 with h2 | ⟨l, hl, hi⟩
      · exact .inl fun hc => h2 (close_sub s j i hc)
      · rw [hb] at hl
        cases hl
        rcases List.mem_cons.1 hi with rfl | hi
        · left
          show i ∉ (close s i).alive
          unfold close
          split
          · rename_i hs; exact (hv.2.2.1 i hs).1
          · simp
        · exact .inr ⟨r, rfl, hi⟩
    · rename_i hb
      refine ⟨h1, ?_⟩
      rcases h2 with h2 | ⟨l, hl, hi⟩
      · exact .inl h2
      · rw [hb] at hl; cases hl; cases hi
  | exit =>
    dsimp only
    split <;> exact h0

theorem doomed_run {i : Nat} (pre post : List Step) (h : Doomed i (run want order pre)) : Doomed i (run want order (pre ++ post)) := by
  induction post using snoc_induction with
  | nil => simpa using h
  | snoc b x ih => rw [← List.append_assoc, run_snoc]; exact doomed_step want order (inv_run want order _) ih x

/-- C116, part. When the process has ended, every connection that was in the pool as its closing hook began is closed: whatever the
order of the hooks, and whatever the pool and the receivers do meanwhile. Missing: connections made after that
(`being_made_left_open_fails`). -/
theorem pooled_closed_partial (pre post : List Step) (r : List Hook) (hb : (run want order pre).hook = .between)
    (ht : (run want order pre).todo = .closeAll :: r) (he : (run want order (pre ++ .hook :: post)).exited = true) :
    ∀ i ∈ (run want order pre).pool, i ∉ (run want order (pre ++ .hook :: post)).alive := by
  intro i hi
  have hx : (run want order pre).exited = false := by
    cases h : (run want order pre).exited with
    | false => rfl
    | true => have := (exited_between want order pre h).2; rw [ht] at this; cases this
  have e : run want order (pre ++ .hook :: post) = run want order ((pre ++ [.hook]) ++ post) := by simp
  have hd : Doomed i (run want order (pre ++ [.hook])) := by
    rw [run_snoc]
    have : step want order (run want order pre) .hook = { run want order pre with todo := r, hook := .closing (run want order pre).pool } := by
      have e1 : step want order (run want order pre) .hook = onHook (run want order pre) := by unfold step; rw [if_neg (by simp [hx])]
      rw [e1]
      unfold onHook
      rw [hb]
      dsimp only
      rw [ht]
    rw [this]
    exact ⟨(inv_run want order pre).2.1 i hi, .inr ⟨_, rfl, hi⟩⟩
  have hd' := doomed_run want order _ post hd
  rw [← e] at hd'
  rcases hd'.2 with h | ⟨l, hl, _⟩
  · exact h
  · rw [(exited_between want order _ he).1] at hl; cases hl

/-- Two sessions are in the pool as the signal comes; when the process has ended both are closed. -/
def sample : List Step :=
  [.tick, .sorter none, .sorter none, .sorter none, .sorter (some true), .sorter (some true), .sorter none, .sorter none, .sorter (some true),
   .sorter (some true), .sorter none, .sorter none, .signal, .hook, .hook]

example : (run 2 [.stopTicker, .closeAll] sample).pool = [0, 1] ∧ (run 2 [.stopTicker, .closeAll] sample).hook = .between ∧
    (run 2 [.stopTicker, .closeAll] sample).todo = [.closeAll] ∧ (run 2 [.stopTicker, .closeAll] sample).alive = [1, 0] ∧
    (run 2 [.stopTicker, .closeAll] (sample ++ .hook :: [.hook, .hook, .hook, .exit])).exited = true ∧
    (run 2 [.stopTicker, .closeAll] (sample ++ .hook :: [.hook, .hook, .hook, .exit])).alive = [] := by decide

/-! ### A pool at rest -/

/-- The pool's goroutine rests, and the hooks will close what is open. -/
def Rest (s : State) : Prop :=
  s.pc = .idle ∧ s.pending = false ∧ (∀ i ∈ s.alive, i ∈ s.pool) ∧
  ((s.hook = .before ∧ Hook.closeAll ∈ order) ∨ (s.hook ≠ .before ∧ Hook.closeAll ∈ s.todo) ∨ (∃ l, s.hook = .closing l ∧ ∀ i ∈ s.alive, i ∈ l) ∨
    s.alive = [] ∧ s.hook ≠ .before)

theorem rest_close {s : State} (h : Rest order s) (i : Nat) : Rest order (close s i) := by
  obtain ⟨h1, h2, h3, h4⟩ := h
  refine ⟨by rw [close_pc]; exact h1, by rw [close_pending]; exact h2, fun j hj => by rw [close_pool]; exact h3 j (close_sub s i j hj), ?_⟩
  rw [close_hook, close_todo]
  rcases h4 with h4 | h4 | ⟨l, hl, h4⟩ | ⟨h4, h5⟩
  · exact .inl h4
  · exact .inr (.inl h4)
  · exact .inr (.inr (.inl ⟨l, hl, fun j hj => h4 j (close_sub s i j hj)⟩))
  · refine .inr (.inr (.inr ⟨?_, h5⟩))
    exact List.eq_nil_iff_forall_not_mem.2 fun j hj => by have := close_sub s i j hj; rw [h4] at this; cases this

theorem rest_step {s : State} (hv : Inv s) (h : Rest order s) (x : Step) (hx : x = .tick → s.ticking = false) :
    Rest order (step want order s x) := by
  have h0 := h
  obtain ⟨h1, h2, h3, h4⟩ := h
  unfold step
  split
  · exact h0
  cases x with
  | tick => dsimp only; rw [hx rfl]; exact h0
  | sorter r =>
    dsimp only
    unfold onSorter
    simp only [h1, h2, Bool.false_eq_true, if_false]
    exact h0
  | lost j =>
    dsimp only
    split
    · exact rest_close order h0 j
    · exact h0
  | collect j =>
    dsimp only
    split
    · exact h0
    · refine ⟨h1, h2, fun i hi => h3 i (List.mem_filter.1 hi).1, ?_⟩
      rcases h4 with h4 | h4 | ⟨l, hl, h4⟩ | ⟨h4, h5⟩
      · exact .inl h4
      · exact .inr (.inl h4)
      · exact .inr (.inr (.inl ⟨l, hl, fun i hi => h4 i (List.mem_filter.1 hi).1⟩))
      · exact .inr (.inr (.inr ⟨by show s.alive.filter _ = []; rw [h4]; rfl, h5⟩))
  | signal =>
    dsimp only
    split
    · rename_i hb
      refine ⟨h1, h2, h3, ?_⟩
      rcases h4 with h4 | ⟨h4, _⟩ | ⟨l, hl, h4⟩ | ⟨_, h4⟩
      · exact .inr (.inl ⟨(by simp), h4.2⟩)
      · exact absurd hb h4
      · rw [hb] at hl; cases hl
      · exact absurd hb h4
    · exact h0
  | hook =>
    dsimp only
    unfold onHook
    split
    · exact h0
    · rename_i hb
      split
      · exact h0
      · rename_i r ht
        refine ⟨h1, h2, h3, ?_⟩
        rcases h4 with ⟨h4, _⟩ | ⟨_, h4⟩ | ⟨l, hl, _⟩ | ⟨h4, _⟩
        · rw [hb] at h4; cases h4
        · rw [ht] at h4; exact .inr (.inl ⟨(by simp), (by simpa using h4)⟩)
        · rw [hb] at hl; cases hl
        · exact .inr (.inr (.inr ⟨h4, by simp⟩))
      · exact ⟨h1, h2, h3, .inr (.inr (.inl ⟨_, rfl, h3⟩))⟩
      · rename_i r ht
        refine ⟨h1, h2, h3, ?_⟩
        rcases h4 with ⟨h4, _⟩ | ⟨_, h4⟩ | ⟨l, hl, _⟩ | ⟨h4, _⟩
        · rw [hb] at h4; cases h4
        · rw [ht] at h4; exact .inr (.inl ⟨(by simp [hb]), (by simpa using h4)⟩)
        · rw [hb] at hl; cases hl
        · exact .inr (.inr (.inr ⟨h4, by simp [hb]⟩))
    · rename_i hb
      split
      · exact h0
      · refine ⟨h1, h2, h3, ?_⟩
        rcases h4 with ⟨h4, _⟩ | ⟨_, h4⟩ | ⟨l, hl, _⟩ | ⟨h4, _⟩
        · rw [hb] at h4; cases h4
        · exact .inr (.inl ⟨(by simp), h4⟩)
        · rw [hb] at hl; cases hl
        · exact .inr (.inr (.inr ⟨h4, by simp⟩))
    · rename_i j r hb
      obtain ⟨g1, g2, g3, g4⟩ := rest_close order h0 j
      refine ⟨g1, g2, g3, ?_⟩
      rcases h4 with ⟨h4, _⟩ | ⟨_, h4⟩ | ⟨l, hl, h4⟩ | ⟨h4, _⟩
      · rw [hb] at h4; cases h4
      · refine .inr (.inl ⟨(by simp), ?_⟩)
        show Hook.closeAll ∈ (close s j).todo
        rw [close_todo]; exact h4
      · rw [hb] at hl
        cases hl
        refine .inr (.inr (.inl ⟨r, rfl, fun i hi => ?_⟩))
        have hi' : i ∈ (close s j).alive := hi
        have hij : i ≠ j := by
          rintro rfl
          unfold close at hi'
          split at hi'
          · rename_i hs; exact (hv.2.2.1 i hs).1 hi'
          · simp at hi'
        rcases List.mem_cons.1 (h4 i (close_sub s j i hi')) with e | hm
        · exact absurd e hij
        · exact hm
      · refine .inr (.inr (.inr ⟨?_, by simp⟩))
        exact List.eq_nil_iff_forall_not_mem.2 fun i hi => by have := close_sub s j i hi; rw [h4] at this; cases this
    · rename_i hb
      refine ⟨h1, h2, h3, ?_⟩
      rcases h4 with ⟨h4, _⟩ | ⟨_, h4⟩ | ⟨l, hl, h4⟩ | ⟨h4, _⟩
      · rw [hb] at h4; cases h4
      · exact .inr (.inl ⟨(by simp), h4⟩)
      · rw [hb] at hl
        cases hl
        refine .inr (.inr (.inr ⟨?_, by simp⟩))
        exact List.eq_nil_iff_forall_not_mem.2 fun i hi => by cases h4 i hi
      · exact .inr (.inr (.inr ⟨h4, by simp⟩))
  | exit =>
    dsimp only
    split <;> exact h0

/-- C116, part. If the pool is at rest as the signal comes - its goroutine waits for the next tick, and every open connection belongs to a
session of the pool - and no tick comes before the ticker is stopped, then the process ends with no connection left open. -/
theorem at_rest_all_closed_partial (pre post : List Step) (hc : Hook.closeAll ∈ order) (hb : (run want order pre).hook = .before)
    (hp : (run want order pre).pc = .idle) (hn : (run want order pre).pending = false)
    (ha : ∀ i ∈ (run want order pre).alive, i ∈ (run want order pre).pool)
    (ht : ∀ a b, post = a ++ .tick :: b → (run want order (pre ++ a)).ticking = false)
    (he : (run want order (pre ++ post)).exited = true) : (run want order (pre ++ post)).alive = [] := by
  have hr : Rest order (run want order (pre ++ post)) := by
    clear he
    induction post using snoc_induction with
    | nil => simp only [List.append_nil]; exact ⟨hp, hn, ha, .inl ⟨hb, hc⟩⟩
    | snoc b x ih =>
      rw [← List.append_assoc, run_snoc]
      refine rest_step want order (inv_run want order _) (ih fun a c h => ht a (c ++ [x]) (by simp [h])) x ?_
      rintro rfl
      exact ht b [] rfl
  obtain ⟨e1, e2⟩ := exited_between want order _ he
  rcases hr.2.2.2 with ⟨h, _⟩ | ⟨_, h⟩ | ⟨l, h, _⟩ | ⟨h, _⟩
  · rw [e1] at h; cases h
  · rw [e2] at h; cases h
  · rw [e1] at h; cases h
  · exact h

example : (run 2 [.closeAll, .stopTicker] (sample.take 12)).pc = .idle ∧ (run 2 [.closeAll, .stopTicker] (sample.take 12)).alive = [1, 0] ∧
    (run 2 [.closeAll, .stopTicker] (sample.take 12 ++ [.signal, .hook, .hook, .lost 1, .hook, .hook, .hook, .hook, .exit])).exited = true := by decide

/-! ### A connection being made -/

/-- Connection `i` is open and its session being made: no list holds it yet. -/
def Making (i : Nat) (s : State) : Prop := i ∈ s.alive ∧ i ∉ s.shut ∧ i ∉ s.unwell ∧ i ∉ s.pool ∧ ∀ l, s.hook = .closing l → i ∉ l

theorem making_close {i j : Nat} {s : State} (h : Making i s) (hj : j ≠ i) : Making i (close s j) := by
  unfold close
  split
  · exact h
  · obtain ⟨h1, h2, h3, h4, h5⟩ := h
    refine ⟨List.mem_filter.2 ⟨h1, by simp [hj.symm]⟩, ?_, h3, h4, h5⟩
    intro hc
    rcases List.mem_cons.1 hc with e | hc
    · exact hj e.symm
    · exact h2 hc

theorem making_foldl {i : Nat} (l : List Nat) {s : State} (h : Making i s) (hl : i ∉ l) : Making i (l.foldl close s) := by
  induction l generalizing s with
  | nil => exact h
  | cons a l ih =>
    simp only [List.mem_cons, not_or] at hl
    exact ih (making_close h (Ne.symm hl.1)) hl.2

/-- While connection `i` is being made it is open; nothing is in the channel before the signal. -/
def Wide (s : State) : Prop := (∀ i, s.pc = .login i → Making i s) ∧ (∀ i ∈ s.unwell, i < s.opened) ∧ (s.hook = .before → s.told = false)

theorem close_unwell (s : State) (i : Nat) : (close s i).unwell = s.unwell := by unfold close; split <;> rfl

theorem foldl_unwell (l : List Nat) (s : State) : (l.foldl close s).unwell = s.unwell := by
  induction l generalizing s with
  | nil => rfl
  | cons a l ih => simp only [List.foldl_cons, ih, close_unwell]

theorem wide_step {s : State} (hv : Inv s) (h : Wide s) (x : Step) : Wide (step want order s x) := by
  have h0 := h
  obtain ⟨h1, h2, h3⟩ := h
  obtain ⟨v1, v2, v3, v4, v5⟩ := hv
  unfold step
  split
  · exact h0
  cases x with
  | tick => dsimp only; split <;> exact h0
  | sorter r =>
    dsimp only
    unfold onSorter
    split
    · split
      · exact ⟨fun i hi => (by cases hi), h2, h3⟩
      · exact h0
    · obtain ⟨e1, e2, e3, e4, e5, e6, e7, e8⟩ := foldl_close (s.pool.filter fun i => !healthy s i) s
      refine ⟨fun i hi => (by cases hi), ?_, ?_⟩
      · dsimp only; rw [foldl_unwell, e1]; exact h2
      · dsimp only; rw [e2, e6]; exact h3
    · split
      · split
        · exact ⟨fun i hi => (by cases hi), h2, fun _ => rfl⟩
        · exact ⟨fun i hi => (by cases hi), h2, h3⟩
      · exact ⟨fun i hi => (by cases hi), h2, h3⟩
    · split
      · exact ⟨fun i hi => (by cases hi), h2, h3⟩
      · refine ⟨fun i hi => ?_, fun i hi => Nat.lt_succ_of_lt (h2 i hi), h3⟩
        cases hi
        refine ⟨by simp, fun hc => ?_, fun hc => ?_, fun hc => ?_, fun l hl hc => ?_⟩
        · have := (v3 _ hc).2; omega
        · have := h2 _ hc; omega
        · have := v2 _ hc; omega
        · have := v5 l hl _ hc; omega
    · rename_i i hpc
      split
      · exact ⟨fun i hi => (by cases hi), h2, h3⟩
      · exact ⟨fun i hi => (by cases hi), h2, h3⟩
      · refine ⟨fun i hi => (by cases hi), fun j hj => ?_, h3⟩
        rcases List.mem_cons.1 hj with rfl | hj
        · exact v4 _ hpc
        · exact h2 j hj
    · exact ⟨fun i hi => (by cases hi), h2, h3⟩
  | lost j =>
    dsimp only
    split
    · rename_i hj
      refine ⟨fun i hi => ?_, ?_, ?_⟩
      · rw [close_pc] at hi
        have := h1 i hi
        exact making_close this fun e => this.2.2.2.1 (e ▸ hj)
      · rw [close_unwell, close_opened]; exact h2
      · rw [close_hook, close_told]; exact h3
    · exact h0
  | collect j =>
    dsimp only
    split
    · exact h0
    · rename_i hr
      refine ⟨fun i hi => ?_, h2, h3⟩
      have hi' : s.pc = .login i := hi
      obtain ⟨m1, m2, m3, m4, m5⟩ := h1 i hi'
      have hne : i ≠ j := by
        rintro rfl
        apply hr
        simp [referred, hi']
      exact ⟨List.mem_filter.2 ⟨m1, by simp [hne]⟩, m2, m3, m4, m5⟩
  | signal =>
    dsimp only
    split
    · refine ⟨fun i hi => ?_, h2, fun hc => (by cases hc)⟩
      obtain ⟨m1, m2, m3, m4, m5⟩ := h1 i hi
      exact ⟨m1, m2, m3, m4, fun l hl => (by cases hl)⟩
    · exact h0
  | hook =>
    dsimp only
    unfold onHook
    split
    · exact h0
    · split
      · exact h0
      · refine ⟨fun i hi => ?_, h2, fun hc => (by cases hc)⟩
        obtain ⟨m1, m2, m3, m4, m5⟩ := h1 i hi
        exact ⟨m1, m2, m3, m4, fun l hl => (by cases hl)⟩
      · refine ⟨fun i hi => ?_, h2, fun hc => (by cases hc)⟩
        obtain ⟨m1, m2, m3, m4, m5⟩ := h1 i hi
        exact ⟨m1, m2, m3, m4, fun l hl => (by cases hl; exact m4)⟩
      · exact h0
    · split
      · exact h0
      · refine ⟨fun i hi => ?_, h2, fun hc => (by cases hc)⟩
        obtain ⟨m1, m2, m3, m4, m5⟩ := h1 i hi
        exact ⟨m1, m2, m3, m4, fun l hl => (by cases hl)⟩
    · rename_i j r hb
      refine ⟨fun i hi => ?_, ?_, fun hc => (by cases hc)⟩
      · have hi' : s.pc = .login i := by have := close_pc s j; rw [← this]; exact hi
        have m := h1 i hi'
        have hj : j ≠ i := fun e => m.2.2.2.2 _ hb (by simp [e])
        obtain ⟨m1, m2, m3, m4, m5⟩ := making_close m hj
        exact ⟨m1, m2, m3, m4, fun l hl => by cases hl; exact fun hc => m.2.2.2.2 _ hb (by simp [hc])⟩
      · dsimp only; rw [close_unwell, close_opened]; exact h2
    · refine ⟨fun i hi => ?_, h2, fun hc => (by cases hc)⟩
      obtain ⟨m1, m2, m3, m4, m5⟩ := h1 i hi
      exact ⟨m1, m2, m3, m4, fun l hl => (by cases hl)⟩
  | exit =>
    dsimp only
    split <;> exact h0

theorem wide_run (steps : List Step) : Wide (run want order steps) := by
  induction steps using snoc_induction with
  | nil => exact ⟨by simp [run], by simp [run], by simp [run]⟩
  | snoc a x ih => rw [run_snoc]; exact wide_step want order (inv_run want order a) ih x

theorem step_hook {s : State} (h : s.exited = false) : step want order s .hook = onHook s := by
  unfold step; rw [if_neg (by simp [h])]

/-- The loop of the closing hook comes to its end, and leaves a connection being made alone. -/
theorem drain_closing {i : Nat} (l : List Nat) {s : State} (he : s.exited = false) (hp : s.pc = .login i) (hm : Making i s) (hh : s.hook = .closing l) :
    ∃ n, ∃ s', (List.replicate n Step.hook).foldl (step want order) s = s' ∧ s'.exited = false ∧ s'.pc = .login i ∧ Making i s' ∧ s'.hook = .between ∧
      s'.todo = s.todo ∧ s'.told = s.told := by
  induction l generalizing s with
  | nil =>
    refine ⟨1, _, rfl, ?_⟩
    simp only [List.replicate, List.foldl_cons, List.foldl_nil, step_hook want order he]
    unfold onHook
    rw [hh]
    obtain ⟨m1, m2, m3, m4, m5⟩ := hm
    exact ⟨he, hp, ⟨m1, m2, m3, m4, fun l hl => (by cases hl)⟩, rfl, rfl, rfl⟩
  | cons j r ih =>
    have hj : j ≠ i := fun e => hm.2.2.2.2 _ hh (by simp [e])
    have e : step want order s .hook = { close s j with hook := .closing r } := by
      rw [step_hook want order he]; unfold onHook; rw [hh]
    obtain ⟨m1, m2, m3, m4, m5⟩ := making_close hm hj
    obtain ⟨n, s', hs, g⟩ := ih (s := { close s j with hook := .closing r }) (by rw [← he]; exact close_exited s j) (by rw [← hp]; exact close_pc s j)
      ⟨m1, m2, m3, m4, fun l hl => by cases hl; exact fun hc => hm.2.2.2.2 _ hh (by simp [hc])⟩ rfl
    refine ⟨n + 1, s', ?_, ?_⟩
    · rw [List.replicate_succ, List.foldl_cons, e]; exact hs
    · obtain ⟨g1, g2, g3, g4, g5, g6⟩ := g
      exact ⟨g1, g2, g3, g4, g5.trans (close_todo s j), g6.trans (close_told s j)⟩

/-- The hooks come to their end, and leave a connection being made alone. -/
theorem drain {i : Nat} (t : List Hook) {s : State} (he : s.exited = false) (hp : s.pc = .login i) (hm : Making i s) (hh : s.hook = .between)
    (ht : s.todo = t) (hc : t.count .stopTicker + s.told.toNat ≤ 1) :
    ∃ n, ∃ s', (List.replicate n Step.hook).foldl (step want order) s = s' ∧ s'.exited = false ∧ s'.pc = .login i ∧ Making i s' ∧ s'.hook = .between ∧
      s'.todo = [] := by
  induction t generalizing s with
  | nil => exact ⟨0, s, rfl, he, hp, hm, hh, ht⟩
  | cons k r ih =>
    obtain ⟨m1, m2, m3, m4, m5⟩ := hm
    cases k with
    | other =>
      have e : step want order s .hook = { s with todo := r } := by
        rw [step_hook want order he]; unfold onHook; rw [hh]; dsimp only; rw [ht]
      obtain ⟨n, s', hs, g⟩ := ih (s := { s with todo := r }) he hp ⟨m1, m2, m3, m4, m5⟩ hh rfl (by simpa using hc)
      exact ⟨n + 1, s', by rw [List.replicate_succ, List.foldl_cons, e]; exact hs, g⟩
    | closeAll =>
      have e : step want order s .hook = { s with todo := r, hook := .closing s.pool } := by
        rw [step_hook want order he]; unfold onHook; rw [hh]; dsimp only; rw [ht]
      obtain ⟨n, s1, hs, g1, g2, g3, g4, g5, g6⟩ := drain_closing want order s.pool (s := { s with todo := r, hook := .closing s.pool }) he hp
        ⟨m1, m2, m3, m4, fun l hl => by cases hl; exact m4⟩ rfl
      obtain ⟨n', s', hs', g⟩ := ih g1 g2 g3 g4 g5 (by rw [g6]; simpa using hc)
      refine ⟨1 + n + n', s', ?_, g⟩
      rw [← List.replicate_append_replicate, ← List.replicate_append_replicate, List.foldl_append, List.foldl_append]
      show List.foldl (step want order) (List.foldl (step want order) (step want order s .hook) _) _ = s'
      rw [e, hs, hs']
    | stopTicker =>
      have htold : s.told = false := by
        simp only [List.count_cons_self] at hc
        cases h : s.told
        · rfl
        · rw [h] at hc; simp at hc
      have hcr : r.count .stopTicker = 0 := by simp only [List.count_cons_self] at hc; omega
      have e : step want order s .hook = { s with todo := r, ticking := false, hook := .telling } := by
        rw [step_hook want order he]; unfold onHook; rw [hh]; dsimp only; rw [ht]
      have e2 : step want order { s with todo := r, ticking := false, hook := .telling } .hook =
          { s with todo := r, ticking := false, hook := .between, told := true } := by
        rw [step_hook want order (s := { s with todo := r, ticking := false, hook := .telling }) he]; unfold onHook; dsimp only; rw [if_neg (by simp [htold])]
      obtain ⟨n, s', hs, g⟩ := ih (s := { s with todo := r, ticking := false, hook := .between, told := true }) he hp
        ⟨m1, m2, m3, m4, fun l hl => (by cases hl)⟩ rfl rfl (by rw [hcr]; simp)
      exact ⟨n + 2, s', by rw [List.replicate_succ, List.replicate_succ, List.foldl_cons, List.foldl_cons, e, e2]; exact hs, g⟩

/-- C116 refuted: whenever the signal comes while a connection of the pool is being made, the process may end with that connection logged in, in the
pool, and never closed - in whatever order the hooks run. -/
theorem being_made_left_open_fails (pre : List Step) (i : Nat) (hb : (run want order pre).hook = .before) (hp : (run want order pre).pc = .login i)
    (hc : order.count .stopTicker ≤ 1) :
    ∃ post, (run want order (pre ++ post)).exited = true ∧ i ∈ (run want order (pre ++ post)).alive ∧ i ∈ (run want order (pre ++ post)).pool ∧
      healthy (run want order (pre ++ post)) i = true := by
  have hx : (run want order pre).exited = false := by
    cases h : (run want order pre).exited with
    | false => rfl
    | true => have := (exited_between want order pre h).1; rw [hb] at this; cases this
  obtain ⟨w1, _, w3⟩ := wide_run want order pre
  obtain ⟨m1, m2, m3, m4, m5⟩ := w1 i hp
  have e : step want order (run want order pre) .signal = { run want order pre with hook := .between, todo := order } := by
    unfold step; rw [if_neg (by simp [hx])]; dsimp only; rw [if_pos hb]
  obtain ⟨n, s', hs, g1, g2, g3, g4, g5⟩ := drain want order order (s := { run want order pre with hook := .between, todo := order }) hx hp
    ⟨m1, m2, m3, m4, fun l hl => (by cases hl)⟩ rfl rfl (by show _ + (run want order pre).told.toNat ≤ 1; rw [w3 hb]; exact hc)
  refine ⟨.signal :: (List.replicate n .hook ++ [.sorter (some true), .exit]), ?_⟩
  have e1 : step want order s' (.sorter (some true)) = { s' with pool := s'.pool ++ [i], pc := .sleeping } := by
    unfold step; rw [if_neg (by simp [g1])]; dsimp only; unfold onSorter; rw [g2]
  have e2 : step want order { s' with pool := s'.pool ++ [i], pc := .sleeping } .exit = { s' with pool := s'.pool ++ [i], pc := .sleeping, exited := true } := by
    unfold step; rw [if_neg (by simp [g1])]; dsimp only; rw [if_pos ⟨g4, g5⟩]
  rw [run_append]
  simp only [List.foldl_cons, List.foldl_append, List.foldl_nil, e, hs, e1, e2]
  exact ⟨trivial, g3.1, by simp, by simp [healthy, g3.2.1, g3.2.2.1]⟩

example : (run 1 [.stopTicker, .closeAll] (sample.take 5)).pc = .login 0 ∧ (run 1 [.stopTicker, .closeAll] (sample.take 5)).hook = .before := by decide

/-! ### The signal that no more connections are wanted -/

/-- C116, part. Once the pool has been told to make no more connections, and no tick is left in its channel, at most the one connection it is
dialing is still opened. Missing: `told_once_fails`. -/
theorem told_obeyed_partial (pre post : List Step) (ht : (run want order pre).told = true) (hs : (run want order pre).ticking = false)
    (hn : (run want order pre).pending = false) :
    (run want order (pre ++ post)).opened ≤ (run want order pre).opened + 1 ∧
    ((run want order pre).pc ≠ .dialing → (run want order (pre ++ post)).opened = (run want order pre).opened) := by
  have key : ∀ (post : List Step), let s := run want order (pre ++ post); s.ticking = false ∧ s.pending = false ∧ (s.told = true ∨ s.pc = .idle) ∧
      (run want order pre).opened ≤ s.opened ∧
      s.opened + (if s.pc = .dialing then 1 else 0) ≤ (run want order pre).opened + (if (run want order pre).pc = .dialing then 1 else 0) := by
    intro post
    induction post using snoc_induction with
    | nil => simp [ht, hs, hn]
    | snoc b x ih =>
      rw [← List.append_assoc]
      dsimp only at ih ⊢
      rw [run_snoc]
      generalize run want order (pre ++ b) = s at ih
      obtain ⟨i1, i2, i3, i4, i5⟩ := ih
      unfold step
      split
      · exact ⟨i1, i2, i3, i4, i5⟩
      cases x with
      | tick => dsimp only; rw [if_neg (by simp [i1])]; exact ⟨i1, i2, i3, i4, i5⟩
      | sorter r =>
        dsimp only
        unfold onSorter
        split
        · rename_i hpc
          rw [if_neg (by simp [i2])]
          exact ⟨i1, i2, i3, i4, i5⟩
        · rename_i hpc
          obtain ⟨e1, e2, e3, e4, e5, e6, e7, e8⟩ := foldl_close (s.pool.filter fun i => !healthy s i) s
          have i3' : s.told = true := by rcases i3 with h | h; exact h; rw [hpc] at h; cases h
          simp only [hpc, reduceCtorEq, if_false, Nat.add_zero] at i5 ⊢
          exact ⟨e5.trans i1, e4.trans i2, .inl (e6.trans i3'), by rw [e1]; exact i4, by rw [e1]; exact i5⟩
        · rename_i hpc
          have i3' : s.told = true := by rcases i3 with h | h; exact h; rw [hpc] at h; cases h
          simp only [hpc, reduceCtorEq, if_false, Nat.add_zero] at i5
          rw [if_pos i3']
          split
          · exact ⟨i1, i2, .inr rfl, i4, by simpa using i5⟩
          · exact ⟨i1, i2, .inr rfl, i4, by simpa using i5⟩
        · rename_i hpc
          have i3' : s.told = true := by rcases i3 with h | h; exact h; rw [hpc] at h; cases h
          simp only [hpc, if_true] at i5
          split
          · refine ⟨i1, i2, .inl i3', i4, ?_⟩
            simp only [reduceCtorEq, if_false]; omega
          · refine ⟨i1, i2, .inl i3', by dsimp only; omega, ?_⟩
            simp only [reduceCtorEq, if_false]; omega
        · rename_i i hpc
          have i3' : s.told = true := by rcases i3 with h | h; exact h; rw [hpc] at h; cases h
          simp only [hpc, reduceCtorEq, if_false, Nat.add_zero] at i5
          split <;> exact ⟨i1, i2, .inl i3', i4, by simpa using i5⟩
        · rename_i hpc
          have i3' : s.told = true := by rcases i3 with h | h; exact h; rw [hpc] at h; cases h
          simp only [hpc, reduceCtorEq, if_false, Nat.add_zero] at i5
          exact ⟨i1, i2, .inl i3', i4, by simpa using i5⟩
      | lost j =>
        dsimp only
        split
        · rw [close_ticking, close_pending, close_told, close_pc, close_opened]; exact ⟨i1, i2, i3, i4, i5⟩
        · exact ⟨i1, i2, i3, i4, i5⟩
      | collect j => dsimp only; split <;> exact ⟨i1, i2, i3, i4, i5⟩
      | signal => dsimp only; split <;> exact ⟨i1, i2, i3, i4, i5⟩
      | hook =>
        dsimp only
        unfold onHook
        split
        · exact ⟨i1, i2, i3, i4, i5⟩
        · split
          · exact ⟨i1, i2, i3, i4, i5⟩
          · exact ⟨rfl, i2, i3, i4, i5⟩
          · exact ⟨i1, i2, i3, i4, i5⟩
          · exact ⟨i1, i2, i3, i4, i5⟩
        · split
          · exact ⟨i1, i2, i3, i4, i5⟩
          · exact ⟨i1, i2, .inl rfl, i4, i5⟩
        · rename_i j r hb
          dsimp only
          rw [close_ticking, close_pending, close_told, close_pc, close_opened]; exact ⟨i1, i2, i3, i4, i5⟩
        · exact ⟨i1, i2, i3, i4, i5⟩
      | exit => dsimp only; split <;> exact ⟨i1, i2, i3, i4, i5⟩
  obtain ⟨k1, k2, k3, k4, k5⟩ := key post
  constructor
  · split at k5 <;> split at k5 <;> omega
  · intro hd
    rw [if_neg hd] at k5
    split at k5 <;> omega

/-- The pool has been told while it was dialing, with no tick left. -/
example : (run 1 [.stopTicker, .closeAll] [.tick, .sorter none, .sorter none, .sorter none, .signal, .hook, .hook]).told = true ∧
    (run 1 [.stopTicker, .closeAll] [.tick, .sorter none, .sorter none, .sorter none, .signal, .hook, .hook]).pc = .dialing ∧
    (run 1 [.stopTicker, .closeAll] [.tick, .sorter none, .sorter none, .sorter none, .signal, .hook, .hook, .sorter (some true)]).opened = 1 := by decide

/-- One turn of the loop makes a connection. -/
theorem one_more {s : State} (he : s.exited = false) (hp : s.pc = .filling) (ht : s.told = false) (hl : s.pool.length < want) :
    [Step.sorter none, .sorter (some true), .sorter (some true), .sorter none].foldl (step want order) s =
      { s with opened := s.opened + 1, alive := s.opened :: s.alive, pool := s.pool ++ [s.opened] } := by
  obtain ⟨opened, alive, shut, unwell, pool, pc, pending, ticking, told, hook, todo, exited⟩ := s
  simp only at he hp ht hl
  subst he; subst hp; subst ht
  simp [step, onSorter, hl]

/-- The tick left in the ticker's channel has the pool made again after the signal to stop was taken. -/
def again : List Step := [.sorter none, .sorter none, .sorter none, .sorter none]

/-- C116 refuted: the signal to make no more connections is good for one time. For every number of connections there is a run in which, after the ticker
was stopped and the signal given, the pool makes that many connections, all there is room for. -/
theorem told_once_fails (r : List Hook) (hw : 0 < want) :
    ∃ pre post, (run want (.stopTicker :: r) pre).told = true ∧ (run want (.stopTicker :: r) pre).ticking = false ∧
      (run want (.stopTicker :: r) (pre ++ post)).opened = (run want (.stopTicker :: r) pre).opened + want := by
  have h0 : run want (.stopTicker :: r) [.tick, .sorter none, .sorter none, .sorter none, .sorter none, .tick, .signal, .hook, .hook] =
      { pc := .sleeping, pending := true, ticking := false, told := true, hook := .between, todo := r } := by
    simp [run, step, onSorter, onHook, hw]
  have h1 : ∀ n ≤ want, ∃ post, ∃ l, run want (.stopTicker :: r)
      ([.tick, .sorter none, .sorter none, .sorter none, .sorter none, .tick, .signal, .hook, .hook] ++ post) =
      { opened := n, alive := l, pool := List.range n, pc := .filling, ticking := false, hook := .between, todo := r } := by
    intro n
    induction n with
    | zero =>
      intro _
      refine ⟨again, [], ?_⟩
      rw [run_append, h0]
      simp [again, step, onSorter, hw]
    | succ n ih =>
      intro hn
      obtain ⟨post, l, hs⟩ := ih (by omega)
      refine ⟨post ++ [.sorter none, .sorter (some true), .sorter (some true), .sorter none], n :: l, ?_⟩
      rw [← List.append_assoc, run_append, hs, one_more want _ rfl rfl rfl (by simp; omega)]
      simp [List.range_succ]
  obtain ⟨post, l, hs⟩ := h1 want (Nat.le_refl _)
  exact ⟨_, post, by rw [h0], by rw [h0], by rw [h0, hs]; simp⟩

/-! ### What leaves the pool is closed -/

theorem foldl_close_gone (l : List Nat) {s : State} (hv : Inv s) (hl : ∀ i ∈ l, i < s.opened) (i : Nat) (hi : i ∈ l) : i ∉ (l.foldl close s).alive := by
  induction l generalizing s with
  | nil => cases hi
  | cons a l ih =>
    rcases List.mem_cons.1 hi with rfl | h
    · intro hc
      have := (foldl_close l (close s i)).2.2.2.2.2.2.2 i hc
      unfold close at this
      split at this
      · rename_i hs; exact (hv.2.2.1 i hs).1 this
      · simp at this
    · exact ih (inv_close hv a (hl a (by simp))) (fun j hj => by rw [close_opened]; exact hl j (by simp [hj])) h

/-- C116, part. At every tick the pool keeps exactly the sessions that are open and logged in, and each session it drops has its connection closed:
none is left behind for the hook to miss. -/
theorem dropped_closed (pre : List Step) (r : Option Bool) (hx : (run want order pre).exited = false) (hp : (run want order pre).pc = .sorting) (i : Nat)
    (hi : i ∈ (run want order pre).pool) :
    (i ∈ (run want order (pre ++ [.sorter r])).pool ↔ i ∉ (run want order pre).shut ∧ i ∉ (run want order pre).unwell) ∧
    (i ∉ (run want order (pre ++ [.sorter r])).pool → i ∉ (run want order (pre ++ [.sorter r])).alive) := by
  have hv := inv_run want order pre
  have e : step want order (run want order pre) (.sorter r) = { ((run want order pre).pool.filter fun i => !healthy (run want order pre) i).foldl close
      (run want order pre) with pool := (run want order pre).pool.filter (healthy (run want order pre)), pc := .filling } := by
    unfold step onSorter
    simp [hx, hp]
  rw [run_snoc, e]
  generalize run want order pre = s at *
  constructor
  · show i ∈ s.pool.filter (healthy s) ↔ _
    rw [List.mem_filter]
    simp [hi, healthy]
  · intro h
    have h' : i ∉ s.pool.filter (healthy s) := h
    show i ∉ ((s.pool.filter fun i => !healthy s i).foldl close s).alive
    refine foldl_close_gone _ hv (fun j hj => hv.2.1 j (List.mem_filter.1 hj).1) i (List.mem_filter.2 ⟨hi, ?_⟩)
    cases hh : healthy s i with
    | true => exact absurd (List.mem_filter.2 ⟨hi, hh⟩) h'
    | false => rfl

/-- The second session of two is lost and dropped at the next tick. -/
example : let pre := sample.take 12 ++ [.lost 1, .tick, .sorter none]
    (run 2 [.stopTicker, .closeAll] pre).pc = .sorting ∧ (run 2 [.stopTicker, .closeAll] pre).pool = [0, 1] ∧
    (run 2 [.stopTicker, .closeAll] (pre ++ [.sorter none])).pool = [0] ∧ (run 2 [.stopTicker, .closeAll] (pre ++ [.sorter none])).alive = [0] := by
  decide

/-- C116, the collector, in every history: it closes a connection exactly if nothing in the process leads to it any more, neither the pool nor a login under
way nor the loop of the closing hook. -/
theorem forgotten_collected (pre : List Step) (hx : (run want order pre).exited = false) (i : Nat) :
    i ∈ (run want order (pre ++ [.collect i])).alive ↔ i ∈ (run want order pre).alive ∧
      (i ∈ (run want order pre).pool ∨ (run want order pre).pc = .login i ∨ ∃ rest, (run want order pre).hook = .closing rest ∧ i ∈ rest) := by
  rw [run_snoc]
  generalize run want order pre = s at hx
  have hr : referred s i = true ↔ (i ∈ s.pool ∨ s.pc = .login i ∨ ∃ rest, s.hook = .closing rest ∧ i ∈ rest) := by
    unfold referred
    cases hh : s.hook <;> simp [or_assoc]
  simp only [step, hx, Bool.false_eq_true, if_false]
  split
  · rename_i h
    exact ⟨fun hi => ⟨hi, hr.1 h⟩, fun hi => hi.1⟩
  · rename_i h
    simp only [List.mem_filter, decide_eq_true_eq, ne_eq, not_true_eq_false, and_false, false_iff, not_and]
    exact fun _ h' => h (hr.2 h')

/-- A dial whose login fails leaves an open connection nobody refers to; in the pool it would be left alone. -/
example : let pre := [Step.tick, .sorter none, .sorter none, .sorter none, .sorter (some true), .sorter none]
    (run 1 [] pre).alive = [0] ∧ (run 1 [] pre).exited = false ∧ (run 1 [] (pre ++ [.collect 0])).alive = [] ∧
      (run 1 [] ((pre.dropLast ++ [.sorter (some true)]) ++ [.collect 0])).alive = [0] := by decide

end Gosms.ClientStop
