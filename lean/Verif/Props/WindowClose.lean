import Verif.Props.Window

/-!
C125: the handlers of a connection that is closed end.
-/

namespace Gosms.Window

/-! ## Specification -/

/-- A step that handlers take by themselves. -/
def Spec.Own : Step → Prop
  | .send _ => True
  | .finish => True
  | .receive _ => True
  | .handoff _ _ => True
  | _ => False

/-- No handler of the session can go on. -/
def Spec.AtRest (s : State) : Prop := ∀ x, Spec.Own x → step s x = s

/-- The handlers that were started and have not ended. -/
def Spec.left (s : State) : Nat := s.entering.length + s.running + s.leaving.length

/-! ## Windows that are not the session's are closed -/

structure Others (s : State) : Prop where
  closed : ∀ g c, s.chans[g]? = some c → s.cur ≠ some g → c.closed = true
  cur : ∀ g, s.cur = some g → g < s.chans.length
  entering : ∀ g, some g ∈ s.entering → g < s.chans.length
  leaving : ∀ g, some g ∈ s.leaving → g < s.chans.length

theorem closeCur_length (s : State) : (closeCur s).length = s.chans.length := by
  unfold closeCur; split <;> simp

theorem closeCur_closed {s : State} (h : Others s) {g : Nat} {c : Chan} (hg : (closeCur s)[g]? = some c) : c.closed = true := by
  unfold closeCur at hg
  split at hg
  · rename_i k hk
    rw [List.getElem?_modify] at hg
    by_cases e : k = g
    · subst e
      simp only [if_true] at hg
      cases hc : s.chans[k]? with
      | none => rw [hc] at hg; cases hg
      | some c' => rw [hc] at hg; cases hg; rfl
    · simp only [if_neg e, Option.map_eq_map] at hg
      exact h.closed g c (by simpa using hg) (by rw [hk]; simpa using e)
  · rename_i hk
    exact h.closed g c hg (by rw [hk]; simp)

theorem mem_eraseIdx_of {α : Type} {l : List α} {i : Nat} {a : α} (h : a ∈ l.eraseIdx i) : a ∈ l := List.mem_of_mem_eraseIdx h

theorem set_closed {s : State} (h : Others s) {g : Nat} {c c' : Chan} (hc : s.chans[g]? = some c) (hcl : c'.closed = c.closed) :
    ∀ k d, (s.chans.set g c')[k]? = some d → s.cur ≠ some k → d.closed = true := by
  intro k d hd hk
  rw [List.getElem?_set] at hd
  by_cases e : g = k
  · subst e
    have hlt : g < s.chans.length := (List.getElem?_eq_some_iff.1 hc).1
    simp only [if_true, hlt] at hd
    cases hd
    rw [hcl]
    exact h.closed g c hc hk
  · simp only [if_neg e] at hd
    exact h.closed k d hd hk

theorem others_step {s : State} (h : Others s) (x : Step) : Others (step s x) := by
  cases x with
  | login size =>
    simp only [step]
    split
    · exact ⟨h.closed, h.cur, h.entering, h.leaving⟩
    · refine ⟨?_, ?_, ?_, ?_⟩
      · intro g c hg hne
        have hne' : g ≠ s.chans.length := fun e => hne (by rw [e])
        dsimp only at hg
        rw [List.getElem?_append] at hg
        split at hg
        · exact closeCur_closed h hg
        · rename_i hl
          rw [closeCur_length] at hl hg
          have : g - s.chans.length ≠ 0 := by omega
          rw [List.getElem?_cons] at hg
          simp [this] at hg
      · intro g hg; cases hg; simp [closeCur_length]
      · intro g hg; have := h.entering g hg; simp [closeCur_length]; omega
      · intro g hg; have := h.leaving g hg; simp [closeCur_length]; omega
  | close =>
    simp only [step]
    refine ⟨fun g c hg _ => closeCur_closed h hg, by simp, ?_, ?_⟩
    · intro g hg; rw [closeCur_length]; exact h.entering g hg
    · intro g hg; rw [closeCur_length]; exact h.leaving g hg
  | start =>
    refine ⟨h.closed, h.cur, ?_, h.leaving⟩
    intro g hg
    rcases List.mem_append.1 hg with hg | hg
    · exact h.entering g hg
    · rw [List.mem_singleton] at hg; exact h.cur g hg.symm
  | send i =>
    simp only [step]
    split
    · split
      · rename_i c hc
        split
        · exact ⟨h.closed, h.cur, fun g hg => h.entering g (mem_eraseIdx_of hg), h.leaving⟩
        · split
          · exact ⟨set_closed h hc rfl, by simpa using h.cur, fun g hg => by simpa using h.entering g (mem_eraseIdx_of hg), by simpa using h.leaving⟩
          · exact h
      · exact h
    · exact h
  | finish =>
    simp only [step]
    split
    · refine ⟨h.closed, h.cur, h.entering, ?_⟩
      intro g hg
      rcases List.mem_append.1 hg with hg | hg
      · exact h.leaving g hg
      · rw [List.mem_singleton] at hg; exact h.cur g hg.symm
    · exact h
  | receive i =>
    simp only [step]
    split
    · split
      · rename_i c hc
        split
        · exact ⟨set_closed h hc rfl, by simpa using h.cur, by simpa using h.entering, fun g hg => by simpa using h.leaving g (mem_eraseIdx_of hg)⟩
        · split
          · exact ⟨h.closed, h.cur, h.entering, fun g hg => h.leaving g (mem_eraseIdx_of hg)⟩
          · exact h
      · exact h
    · exact h
  | handoff i j =>
    simp only [step]
    split
    · split
      · split
        · exact ⟨h.closed, h.cur, fun g hg => h.entering g (mem_eraseIdx_of hg), fun g hg => h.leaving g (mem_eraseIdx_of hg)⟩
        · exact h
      · exact h
    · exact h

theorem others_foldl (steps : List Step) {s : State} (h : Others s) : Others (steps.foldl step s) := by
  induction steps generalizing s with
  | nil => exact h
  | cons x steps ih => rw [List.foldl_cons]; exact ih (others_step h x)

theorem others_run (steps : List Step) : Others (run steps) :=
  others_foldl steps ⟨by simp, by simp, by simp, by simp⟩

/-! ## After the closing -/

/-- Those that can never go on. -/
def nils (s : State) : Nat := s.running + s.leaving.count none + s.entering.count none

theorem count_eraseIdx_some {l : List (Option Nat)} {i g : Nat} (h : l[i]? = some (some g)) :
    (l.eraseIdx i).count none = l.count none := by
  obtain ⟨hi, he⟩ := List.getElem?_eq_some_iff.1 h
  induction l generalizing i with
  | nil => cases hi
  | cons a l ih =>
    cases i with
    | zero =>
      simp only [List.getElem_cons_zero] at he
      subst he
      simp
    | succ i =>
      rw [List.eraseIdx_cons_succ, List.count_cons, List.count_cons, ih (by simpa using h) (by simpa using hi) (by simpa using he)]

theorem nils_step {s : State} (h : Others s) (hcur : s.cur = none) (x : Step) (hx : noLogin x = true) :
    (step s x).cur = none ∧ nils (step s x) = nils s + if x = .start then 1 else 0 := by
  cases x with
  | login => cases hx
  | close => exact ⟨rfl, rfl⟩
  | start =>
    refine ⟨hcur, ?_⟩
    simp only [step, nils, hcur, List.count_append, List.count_singleton_self, if_true]
    omega
  | send i =>
    simp only [step]
    split
    · rename_i g hg
      split
      · rename_i c hc
        have := h.closed g c hc (by rw [hcur]; simp)
        rw [if_pos this]
        exact ⟨hcur, by simp [nils, count_eraseIdx_some hg]⟩
      · exact ⟨hcur, by simp⟩
    · exact ⟨hcur, by simp⟩
  | finish =>
    simp only [step]
    split
    · refine ⟨hcur, ?_⟩
      simp only [nils, hcur, List.count_append, List.count_singleton_self, reduceCtorEq, if_false]
      omega
    · exact ⟨hcur, by simp⟩
  | receive i =>
    simp only [step]
    split
    · rename_i g hg
      split
      · rename_i c hc
        have := h.closed g c hc (by rw [hcur]; simp)
        split
        · exact ⟨hcur, by simp [nils, count_eraseIdx_some hg]⟩
        · exact ⟨hcur, by simp [nils, count_eraseIdx_some hg]⟩
      · exact ⟨hcur, by simp⟩
    · exact ⟨hcur, by simp⟩
  | handoff i j =>
    simp only [step]
    split
    · rename_i g g' hg hg'
      split
      · rename_i c hc
        have := h.closed g c hc (by rw [hcur]; simp)
        rw [if_neg (by simp [this])]
        exact ⟨hcur, by simp⟩
      · exact ⟨hcur, by simp⟩
    · exact ⟨hcur, by simp⟩

theorem nils_foldl (rest : List Step) (hr : ∀ x ∈ rest, noLogin x = true) {s : State} (h : Others s) (hcur : s.cur = none) :
    (rest.foldl step s).cur = none ∧ nils (rest.foldl step s) = nils s + rest.count .start := by
  induction rest generalizing s with
  | nil => exact ⟨hcur, rfl⟩
  | cons x rest ih =>
    obtain ⟨h1, h2⟩ := nils_step h hcur x (hr x (by simp))
    obtain ⟨h3, h4⟩ := ih (fun y hy => hr y (by simp [hy])) (others_step h x) h1
    rw [List.foldl_cons]
    refine ⟨h3, ?_⟩
    rw [h4, h2, List.count_cons]
    by_cases e : x = .start <;> simp [e]
    omega

theorem count_le_length' (l : List (Option Nat)) : l.count none ≤ l.length := List.count_le_length

/-- **C125 fails: a handler that is at work when the connection is closed never ends.** Whatever happened on the connection before, with any number
of logins, and whatever happens afterwards: at least as many handlers are left for ever as were at work. -/
theorem working_left_fails (before rest : List Step) (hr : ∀ x ∈ rest, noLogin x = true) :
    (run before).running ≤ Spec.left (run (before ++ .close :: rest)) := by
  rw [run_append, List.foldl_cons]
  obtain ⟨_, h⟩ := nils_foldl rest hr (others_step (others_run before) .close) rfl
  have e : nils (step (run before) .close) = nils (run before) := rfl
  rw [e] at h
  have h1 := count_le_length' ((rest.foldl step (step (run before) .close)).entering)
  have h2 := count_le_length' ((rest.foldl step (step (run before) .close)).leaving)
  unfold nils at h
  unfold Spec.left
  omega

/-! ## One login -/

/-- Nobody waits on a nil channel before the closing. -/
def NoNil (s : State) : Prop := (∃ g, s.cur = some g) ∧ none ∉ s.entering ∧ none ∉ s.leaving

theorem noNil_step {s : State} (h : NoNil s) (x : Step) (hx : noClose x = true) : NoNil (step s x) := by
  obtain ⟨⟨g, hg⟩, h2, h3⟩ := h
  have hm : ∀ {l : List (Option Nat)} {i : Nat}, none ∉ l → none ∉ l.eraseIdx i := fun h hm => h (mem_eraseIdx_of hm)
  cases x with
  | login size =>
    simp only [step]
    split
    · exact ⟨⟨g, hg⟩, h2, h3⟩
    · exact ⟨⟨_, rfl⟩, h2, h3⟩
  | close => cases hx
  | start => exact ⟨⟨g, hg⟩, by simp [step, hg, h2], h3⟩
  | send i =>
    simp only [step]
    repeat' split
    all_goals first
      | exact ⟨⟨g, hg⟩, h2, h3⟩
      | exact ⟨⟨g, hg⟩, hm h2, h3⟩
  | finish =>
    simp only [step]
    split
    · exact ⟨⟨g, hg⟩, h2, by simp [hg, h3]⟩
    · exact ⟨⟨g, hg⟩, h2, h3⟩
  | receive i =>
    simp only [step]
    repeat' split
    all_goals first
      | exact ⟨⟨g, hg⟩, h2, h3⟩
      | exact ⟨⟨g, hg⟩, h2, hm h3⟩
  | handoff i j =>
    simp only [step]
    repeat' split
    all_goals first
      | exact ⟨⟨g, hg⟩, h2, h3⟩
      | exact ⟨⟨g, hg⟩, hm h2, hm h3⟩

theorem noNil_run (size : Int) (hs : 0 ≤ size) (before : List Step) (hb : ∀ x ∈ before, noClose x = true) :
    NoNil (run (.login size :: before)) := by
  have h0 : NoNil (step {} (.login size)) := by
    simp only [step]
    rw [if_neg (by omega)]
    exact ⟨⟨_, rfl⟩, by simp, by simp⟩
  show NoNil (before.foldl step (step {} (.login size)))
  generalize step {} (.login size) = s at *
  induction before generalizing s with
  | nil => exact h0
  | cons x before ih =>
    rw [List.foldl_cons]
    exact ih (fun y hy => hb y (by simp [hy])) _ (noNil_step h0 x (hb x (by simp)))

theorem rest_all_nil {s : State} (h : Others s) (hcur : s.cur = none) (hr : Spec.AtRest s) : Spec.left s = nils s := by
  have hrun : s.running = 0 := by
    have := congrArg (·.running) (hr .finish trivial)
    simp only [step] at this
    split at this
    · simp only at this; omega
    · omega
  have hent : ∀ a ∈ s.entering, a = none := by
    intro a ha
    obtain ⟨i, hi⟩ := List.getElem?_of_mem ha
    cases a with
    | none => rfl
    | some g =>
      exfalso
      have hlt := h.entering g ha
      have hc := List.getElem?_eq_getElem hlt
      have := congrArg (fun s => s.entering.length) (hr (.send i) trivial)
      simp only [step, hi, hc, h.closed g _ hc (by rw [hcur]; simp), if_true] at this
      have := length_eraseIdx_some hi
      omega
  have hlea : ∀ a ∈ s.leaving, a = none := by
    intro a ha
    obtain ⟨i, hi⟩ := List.getElem?_of_mem ha
    cases a with
    | none => rfl
    | some g =>
      exfalso
      have hlt := h.leaving g ha
      have hc := List.getElem?_eq_getElem hlt
      have h1 := congrArg (fun s => s.leaving.length) (hr (.receive i) trivial)
      have h2 := length_eraseIdx_some hi
      simp only [step, hi, hc, h.closed g _ hc (by rw [hcur]; simp), if_true] at h1
      split at h1 <;> simp only at h1 <;> omega
  have c1 : s.entering.count none = s.entering.length := by
    rw [List.count_eq_length]; intro a ha; exact (hent a ha).symm
  have c2 : s.leaving.count none = s.leaving.length := by
    rw [List.count_eq_length]; intro a ha; exact (hlea a ha).symm
  unfold Spec.left nils
  omega

/-- **C125 (partial): all other handlers end.** On a connection with a login, whatever happened on it, with any number of further logins: once it is
closed and no handler can go on, exactly those are left that were at work at that moment. So none is left if none was at work. Those that waited for
a slot end by a panic that the pool recovers; those that were giving back their slot end. -/
theorem others_end_partial (size : Int) (hs : 0 ≤ size) (before rest : List Step) (hb : ∀ x ∈ before, noClose x = true)
    (hr : ∀ x ∈ rest, noLogin x = true) (hst : Step.start ∉ rest) (hrest : Spec.AtRest (run ((.login size :: before) ++ .close :: rest))) :
    Spec.left (run ((.login size :: before) ++ .close :: rest)) = (run (.login size :: before)).running := by
  have ho := others_run ((.login size :: before) ++ .close :: rest)
  obtain ⟨_, n1, n2⟩ := noNil_run size hs before hb
  rw [run_append, List.foldl_cons] at hrest ho ⊢
  obtain ⟨h1, h2⟩ := nils_foldl rest hr (others_step (others_run (.login size :: before)) .close) rfl
  rw [rest_all_nil ho h1 hrest, h2, List.count_eq_zero_of_not_mem hst]
  show nils (run (.login size :: before)) + 0 = _
  unfold nils
  rw [List.count_eq_zero_of_not_mem n1, List.count_eq_zero_of_not_mem n2]
  omega

/-- And the handlers do come to rest: from every state of a closed session some order of their steps leads there. -/
theorem can_rest (s : State) (h : Others s) (hcur : s.cur = none) : ∃ l : List Step, (∀ x ∈ l, Spec.Own x) ∧ Spec.AtRest (l.foldl step s) := by
  have key : ∀ n (s : State), Others s → s.cur = none → s.entering.length + 2 * s.running + s.leaving.length ≤ n →
      ∃ l : List Step, (∀ x ∈ l, Spec.Own x) ∧ Spec.AtRest (l.foldl step s) := by
    intro n
    induction n with
    | zero =>
      intro s _ _ hn
      refine ⟨[], by simp, ?_⟩
      have h1 : s.entering = [] := List.length_eq_zero_iff.1 (by omega)
      have h2 : s.leaving = [] := List.length_eq_zero_iff.1 (by omega)
      have h3 : s.running = 0 := by omega
      intro x hx
      cases x with
      | login => cases hx
      | close => cases hx
      | start => cases hx
      | send i => simp [step, h1]
      | finish => simp [step, h3]
      | receive i => simp [step, h2]
      | handoff i j => simp [step, h1]
    | succ n ih =>
      intro s h hcur hn
      by_cases hr : Spec.AtRest s
      · exact ⟨[], by simp, hr⟩
      · have hex : ∃ x, Spec.Own x ∧ step s x ≠ s := by
          apply Classical.byContradiction
          intro hne
          exact hr fun x hx => Classical.byContradiction fun hxs => hne ⟨x, hx, hxs⟩
        obtain ⟨x, hx, hxs⟩ := hex
        have hlog : noLogin x = true := by cases x <;> first | rfl | cases hx
        obtain ⟨l, hl, hrest⟩ := ih (step s x) (others_step h x) (nils_step h hcur x hlog).1 (by
          cases x with
          | login => cases hx
          | close => cases hx
          | start => cases hx
          | send i =>
            simp only [step] at hxs ⊢
            split at hxs
            · rename_i g hg
              split at hxs
              · rename_i c hc
                have h1 := h.closed g c hc (by rw [hcur]; simp)
                have h2 := length_eraseIdx_some hg
                rw [if_pos h1]
                simp only
                omega
              · exact absurd rfl hxs
            · exact absurd rfl hxs
          | finish =>
            simp only [step] at hxs ⊢
            split at hxs
            · rename_i hp
              rw [if_pos hp]
              simp only [List.length_append, List.length_cons, List.length_nil]
              omega
            · exact absurd rfl hxs
          | receive i =>
            simp only [step] at hxs ⊢
            split at hxs
            · rename_i g hg
              split at hxs
              · rename_i c hc
                have h2 := length_eraseIdx_some hg
                split at hxs
                · rename_i h3; rw [if_pos h3]; simp only; omega
                · rename_i h3
                  rw [if_neg h3]
                  split at hxs
                  · rename_i h4; rw [if_pos h4]; simp only; omega
                  · exact absurd rfl hxs
              · exact absurd rfl hxs
            · exact absurd rfl hxs
          | handoff i j =>
            exfalso
            simp only [step] at hxs
            split at hxs
            · rename_i g g' hg hg'
              split at hxs
              · rename_i c hc
                have h1 := h.closed g c hc (by rw [hcur]; simp)
                rw [if_neg (by simp [h1])] at hxs
                exact hxs rfl
              · exact hxs rfl
            · exact hxs rfl)
        refine ⟨x :: l, ?_, hrest⟩
        intro y hy
        rcases List.mem_cons.1 hy with rfl | hy
        · exact hx
        · exact hl y hy
  exact key _ s h hcur (Nat.le_refl _)

/-- Satisfiable: a window of two, two handlers at work, one waiting for a slot, one giving back its slot. At rest the two are left. -/
example : ∃ rest : List Step, (∀ x ∈ rest, noLogin x = true) ∧ Step.start ∉ rest ∧
    (run (.login 2 :: [.start, .start, .start, .send 0, .send 0, .finish, .start])).running = 1 ∧
    Spec.AtRest (run ((.login 2 :: [.start, .start, .start, .send 0, .send 0, .finish, .start]) ++ .close :: rest)) := by
  obtain ⟨l, hl, hr⟩ := can_rest (run ((.login 2 :: [.start, .start, .start, .send 0, .send 0, .finish, .start]) ++ [.close])) (others_run _) (by decide)
  refine ⟨l, ?_, ?_, by decide, ?_⟩
  · intro x hx; have := hl x hx; cases x <;> first | rfl | cases this
  · intro h; exact hl _ h
  · have e : (.login 2 :: [.start, .start, .start, .send 0, .send 0, .finish, .start]) ++ .close :: l =
        (.login 2 :: [.start, .start, .start, .send 0, .send 0, .finish, .start] ++ [.close]) ++ l := rfl
    rw [e, run_append]; exact hr

/-- **C125 fails: a client can fill the server with handlers that never end.** For every number: that many connections, each with a login, a submit
and the loss of the connection, leave that many handlers, whatever the server does afterwards on each. -/
theorem any_number_left_fails (n W : Nat) (hW : 1 ≤ W) (rest : Fin n → List Step) (hr : ∀ c, ∀ x ∈ rest c, noLogin x = true) :
    n ≤ ((List.finRange n).map fun c => Spec.left (run ([.login W, .start, .send 0] ++ .close :: rest c))).sum := by
  have one : ∀ c, 1 ≤ Spec.left (run ([.login W, .start, .send 0] ++ .close :: rest c)) := by
    intro c
    refine Nat.le_trans ?_ (working_left_fails [.login W, .start, .send 0] (rest c) (hr c))
    have e0 : run [.login W, .start] = { chans := [⟨W, 0, false⟩], cur := some 0, entering := [some 0] } := by
      simp only [run, List.foldl_cons, List.foldl_nil, step]
      rw [if_neg (by omega)]
      simp [closeCur]
    have e1 : run [.login (W : Int), .start, .send 0] = step (run [.login W, .start]) (.send 0) := rfl
    rw [e1, e0]
    simp only [step, List.getElem?_cons_zero, Bool.false_eq_true, if_false]
    rw [if_pos (by omega)]
    exact Nat.le_refl _
  have : ∀ l : List (Fin n), l.length ≤ (l.map fun c => Spec.left (run ([.login W, .start, .send 0] ++ .close :: rest c))).sum := by
    intro l
    induction l with
    | nil => simp
    | cons c l ih => simp only [List.map_cons, List.sum_cons, List.length_cons]; have := one c; omega
  have h := this (List.finRange n)
  rwa [List.length_finRange] at h

end Gosms.Window
