import Verif.Model.ClientPoolFill

/-!
# C108: a usable connection is used
-/

namespace Gosms.ClientPoolFill

/-- The attempts to connect that give a session. -/
def gained (steps : List Step) : Nat := steps.countP fun x => match x with
  | .dial (some _) => true
  | _ => false

theorem run_append (want : Nat) (first : Option Nat) (a b : List Step) :
    run want first (a ++ b) = b.foldl (step want) (run want first a) := by simp [run]

theorem run_snoc (want : Nat) (first : Option Nat) (a : List Step) (x : Step) :
    run want first (a ++ [x]) = step want (run want first a) x := by simp [run]

theorem goto_self (s : State) (n : Nat) (p : Pc) : (s.goto n p).pc n = p := by simp [State.goto]
theorem goto_ne (s : State) {n m : Nat} (p : Pc) (h : m ≠ n) : (s.goto n p).pc m = s.pc m := by simp [State.goto, h]

theorem blocked (want h : Nat) (rest : List Nat) (more : List Step) (s : State) (hf : s.filling = true)
    (hp : s.pool = h :: rest) (hd : h ∈ s.dead) (hg : gained more + s.pool.length < want) :
    (∃ new, (more.foldl (step want) s).pool = h :: rest ++ new) ∧
    (more.foldl (step want) s).filling = true ∧
    ∀ n i, (more.foldl (step want) s).pc n = .got i → s.pc n = .got i := by
  induction more generalizing s rest with
  | nil => exact ⟨⟨[], by simp [hp]⟩, hf, fun n i h => h⟩
  | cons x more ih =>
    rw [List.foldl_cons]
    have hgm : gained more ≤ gained (x :: more) := by unfold gained; rw [List.countP_cons]; omega
    have same : ∀ s' : State, s'.filling = s.filling → s'.pool = s.pool → (∀ i ∈ s.dead, i ∈ s'.dead) →
        (∀ n i, s'.pc n = .got i → s.pc n = .got i) →
        (∃ new, (more.foldl (step want) s').pool = h :: rest ++ new) ∧
        (more.foldl (step want) s').filling = true ∧
        ∀ n i, (more.foldl (step want) s').pc n = .got i → s.pc n = .got i := by
      intro s' h1 h2 h3 h4
      obtain ⟨h5, h6, h7⟩ := ih rest s' (by rw [h1, hf]) (by rw [h2, hp]) (h3 _ hd) (by rw [h2]; omega)
      exact ⟨h5, h6, fun n i h => h4 n i (h7 n i h)⟩
    cases x with
    | breaks i => exact same _ rfl rfl (fun j hj => List.mem_cons_of_mem _ hj) fun n i h => h
    | tick kept =>
      have e : step want s (.tick kept) = s := by
        simp only [step]; rw [if_neg]; rw [hf]; rintro ⟨h, _⟩; cases h
      rw [e]
      exact same s rfl rfl (fun j hj => hj) fun n i h => h
    | dial r =>
      have e : step want s (.dial r) =
          { s with pool := s.pool ++ r.toList, filling := decide ((s.pool ++ r.toList).length < want) } := by
        simp only [step]; rw [if_pos hf]
      have hlen : gained more + (s.pool ++ r.toList).length ≤ gained (.dial r :: more) + s.pool.length := by
        unfold gained
        rw [List.countP_cons]
        cases r <;> simp <;> omega
      rw [e]
      obtain ⟨⟨new, h5⟩, h6, h7⟩ := ih (rest ++ r.toList)
        { s with pool := s.pool ++ r.toList, filling := decide ((s.pool ++ r.toList).length < want) }
        (by simp only [decide_eq_true_eq]; omega) (by simp [hp]) hd (by dsimp only; omega)
      exact ⟨⟨r.toList ++ new, by rw [h5]; simp⟩, h6, h7⟩
    | call n =>
      simp only [step]
      split
      · exact same s rfl rfl (fun j hj => hj) fun n i h => h
      · refine same _ rfl rfl (fun j hj => hj) fun m i hm => ?_
        by_cases e : m = n
        · subst e; rw [goto_self] at hm; cases hm
        · rw [goto_ne _ _ e] at hm; exact hm
    | look n =>
      simp only [step]
      split
      · rw [hp]
        simp only [List.head?_cons, Option.some_or]
        rw [if_pos (by simpa using hd)]
        refine same _ rfl (by simp [State.goto]) (fun j hj => hj) fun m i hm => ?_
        by_cases e : m = n
        · subst e; rw [goto_self] at hm; cases hm
        · rw [goto_ne _ _ e] at hm; exact hm
      · exact same s rfl rfl (fun j hj => hj) fun n i h => h

/-- C108 fails: when the first session of the pool breaks while the pool is being filled, then until it is full, that is as long as fewer
connections succeed than are missing, no goroutine that sends gets a session, whatever usable sessions the pool
has behind the broken one; and the broken one is not removed. -/
theorem broken_first_blocks_fails (want : Nat) (first : Option Nat) (steps more : List Step) (h : Nat) (rest : List Nat)
    (hf : (run want first steps).filling = true) (hp : (run want first steps).pool = h :: rest)
    (hd : h ∈ (run want first steps).dead) (hg : gained more + (rest.length + 1) < want) :
    (∃ new, (run want first (steps ++ more)).pool = h :: rest ++ new) ∧
    ∀ n i, (run want first (steps ++ more)).pc n = .got i → (run want first steps).pc n = .got i := by
  rw [run_append]
  obtain ⟨h1, _, h3⟩ := blocked want h rest more _ hf hp hd (by rw [hp]; simpa using hg)
  exact ⟨h1, h3⟩

/-- So it is for every number of connections wanted from three on, if the carrier does not accept as many: the first session
breaks, the second stays usable, and no message is sent any more. -/
theorem usable_unused_fails (want : Nat) (hw : 3 ≤ want) (more : List Step) (hg : gained more + 2 < want)
    (n i : Nat) :
    1 ∈ (run want (some 0) ([.tick [0], .dial (some 1), .breaks 0] ++ more)).pool ∧
    (run want (some 0) ([.tick [0], .dial (some 1), .breaks 0] ++ more)).pc n ≠ .got i := by
  have e : run want (some 0) [.tick [0], .dial (some 1), .breaks 0] = { pool := [0, 1], dead := [0], filling := true } := by
    have h1 : 1 < want := by omega
    have h2 : 2 < want := by omega
    have h3 : [0].isPerm [0] = true := by decide
    simp [run, step, h1, h2, h3]
  obtain ⟨⟨new, h1⟩, h2⟩ := broken_first_blocks_fails want (some 0) _ more 0 [1] (by rw [e]) (by rw [e]) (by rw [e]; simp) (by simpa using hg)
  refine ⟨by rw [h1]; simp, fun h => ?_⟩
  have := h2 n i h
  rw [e] at this
  cases this

/-- The pool is being filled only while it is too small. -/
theorem filling_small (want : Nat) (first : Option Nat) (steps : List Step) (h : (run want first steps).filling = true) :
    (run want first steps).pool.length < want := by
  have key : ∀ (s : State), (s.filling = true → s.pool.length < want) → ∀ x, (step want s x).filling = true → (step want s x).pool.length < want := by
    intro s hs x
    cases x with
    | breaks i => exact hs
    | tick kept => simp only [step]; split
                   · intro h; simpa using h
                   · exact hs
    | dial r => simp only [step]; split
                · intro h; simpa using h
                · exact hs
    | call n => simp only [step]; split <;> exact hs
    | look n => simp only [step]; split
                · split
                  · split <;> exact hs
                  · exact hs
                · exact hs
  have : ∀ (steps : List Step) (s : State), (s.filling = true → s.pool.length < want) →
      ((steps.foldl (step want) s).filling = true → (steps.foldl (step want) s).pool.length < want) := by
    intro steps
    induction steps with
    | nil => intro s hs; exact hs
    | cons x steps ih => intro s hs; rw [List.foldl_cons]; exact ih _ (key s hs x)
  exact this steps _ (fun h => by cases h) h

theorem quiet (want : Nat) (kept : List Nat) (more : List Step) (hm : ∀ x ∈ more, (∀ i, x ≠ .breaks i) ∧ ∀ k, x ≠ .tick k) (s : State)
    (hp : ∃ new, s.pool = kept ++ new) :
    (∃ new, (more.foldl (step want) s).pool = kept ++ new) ∧ (more.foldl (step want) s).dead = s.dead := by
  induction more generalizing s with
  | nil => exact ⟨hp, rfl⟩
  | cons x more ih =>
    rw [List.foldl_cons]
    have hx := hm x List.mem_cons_self
    have key : (∃ new, (step want s x).pool = kept ++ new) ∧ (step want s x).dead = s.dead := by
      cases x with
      | breaks i => exact absurd rfl (hx.1 i)
      | tick k => exact absurd rfl (hx.2 k)
      | dial r =>
        simp only [step]
        split
        · obtain ⟨new, hn⟩ := hp
          exact ⟨⟨new ++ r.toList, by rw [hn]; simp⟩, rfl⟩
        · exact ⟨hp, rfl⟩
      | call n => simp only [step]; split <;> exact ⟨hp, rfl⟩
      | look n =>
        simp only [step]
        split
        · split
          · split <;> exact ⟨hp, rfl⟩
          · exact ⟨hp, rfl⟩
        · exact ⟨hp, rfl⟩
    obtain ⟨h1, h2⟩ := ih (fun y hy => hm y (List.mem_cons_of_mem _ hy)) _ key.1
    exact ⟨h1, h2.trans key.2⟩

/-- C108, the part that holds: when the pool is full, whatever happened before, the next tick keeps the usable sessions and only
these, and from then on, as long as no session breaks, every goroutine gets a session, a usable one, at its first look. -/
theorem usable_used_when_full_partial (want : Nat) (first : Option Nat) (steps : List Step)
    (hfull : want ≤ (run want first steps).pool.length) (i : Nat) (hi : i ∈ (run want first steps).pool)
    (hu : i ∉ (run want first steps).dead) (kept : List Nat)
    (hk : kept.Perm ((run want first steps).pool.filter fun i => !(run want first steps).dead.contains i))
    (more : List Step) (hm : ∀ x ∈ more, (∀ i, x ≠ .breaks i) ∧ ∀ k, x ≠ .tick k) (n : Nat) (ret : Option Nat)
    (hn : (run want first (steps ++ .tick kept :: more)).pc n = .looking ret) :
    (run want first (steps ++ [.tick kept])).pool = kept ∧
    ∃ j, j ∈ (run want first steps).pool ∧ j ∉ (run want first steps).dead ∧
      (run want first (steps ++ .tick kept :: more ++ [.look n])).pc n = .got j := by
  have hf : (run want first steps).filling = false := by
    cases h : (run want first steps).filling with
    | false => rfl
    | true => have := filling_small want first steps h; omega
  have e : run want first (steps ++ [.tick kept]) =
      { run want first steps with pool := kept, filling := decide (kept.length < want) } := by
    rw [run_snoc]; simp only [step]; rw [if_pos ⟨hf, List.isPerm_iff.2 hk⟩]
  refine ⟨by rw [e], ?_⟩
  have hne : kept ≠ [] := by
    rintro rfl
    have := hk.symm.mem_iff (a := i)
    simp [hi] at this
    exact hu this
  obtain ⟨j, ks, rfl⟩ := List.exists_cons_of_ne_nil hne
  have e2 : run want first (steps ++ .tick (j :: ks) :: more) = more.foldl (step want) (run want first (steps ++ [.tick (j :: ks)])) := by
    rw [← run_append]; simp
  obtain ⟨⟨new, h1⟩, h2⟩ := quiet want (j :: ks) more hm (run want first (steps ++ [.tick (j :: ks)])) ⟨[], by rw [e]; simp⟩
  rw [← e2] at h1 h2
  have hj : j ∈ (run want first steps).pool ∧ j ∉ (run want first steps).dead := by
    have := hk.mem_iff (a := j)
    simp at this
    exact this
  refine ⟨j, hj.1, hj.2, ?_⟩
  rw [run_snoc]
  have hd : (run want first (steps ++ .tick (j :: ks) :: more)).dead = (run want first steps).dead := by rw [h2, e]
  simp only [step, hn, h1, List.cons_append, List.head?_cons, Option.some_or, hd]
  rw [if_neg (by simpa using hj.2), goto_self]

/-- Non-vacuity: two connections wanted; the first breaks when the pool is full; after the next tick the second is used. -/
example :
    let steps : List Step := [.tick [0], .dial (some 1), .breaks 0]
    2 ≤ (run 2 (some 0) steps).pool.length ∧ (run 2 (some 0) (steps ++ [.tick [1], .call 5, .look 5])).pc 5 = .got 1 := by
  decide

/-- And while it fills, the same pool with three wanted. -/
example : (run 3 (some 0) [.tick [0], .dial (some 1), .breaks 0, .call 5, .look 5, .dial none, .tick [1], .look 5, .dial none, .look 5]).pc 5 =
    .looking (some 0) := by decide

/-- A goroutine only gets a session that is not broken when it is looked at, and that was in the pool. -/
theorem got_usable (want : Nat) (first : Option Nat) (steps : List Step) (x : Step) (n i : Nat)
    (h : (run want first (steps ++ [x])).pc n = .got i) (h0 : (run want first steps).pc n ≠ .got i) :
    x = .look n ∧ i ∉ (run want first steps).dead ∧
      ((run want first steps).pool.head? = some i ∨ (run want first steps).pc n = .looking (some i)) := by
  rw [run_snoc] at h
  generalize run want first steps = s at h h0 ⊢
  cases x with
  | breaks j => exact absurd h h0
  | tick kept => simp only [step] at h; split at h <;> exact absurd h h0
  | dial r => simp only [step] at h; split at h <;> exact absurd h h0
  | call m =>
    simp only [step] at h
    split at h
    · exact absurd h h0
    · by_cases e : n = m
      · subst e; rw [goto_self] at h; cases h
      · rw [goto_ne _ _ e] at h; exact absurd h h0
  | look m =>
    simp only [step] at h
    split at h
    · rename_i ret hret
      split at h
      · rename_i j hj
        split at h
        · by_cases e : n = m
          · subst e; rw [goto_self] at h; cases h
          · rw [goto_ne _ _ e] at h; exact absurd h h0
        · rename_i hd
          by_cases e : n = m
          · subst e
            rw [goto_self] at h
            cases h
            refine ⟨rfl, by simpa using hd, ?_⟩
            cases hp : s.pool.head? with
            | some k => rw [hp] at hj; left; simpa using hj
            | none => rw [hp] at hj; right; rw [hret]; simp at hj; rw [hj]
          · rw [goto_ne _ _ e] at h; exact absurd h h0
      · exact absurd h h0
    · exact absurd h h0

end Gosms.ClientPoolFill
