import Verif.Model.Window
import Verif.Go.Bytes

/-!
# C48: the receive window bounds concurrency
-/

namespace Gosms.Window

/-- Handlers that have taken their slot and not yet given it back. -/
def busy (s : State) : Nat := s.running + s.leaving.length

/-- Slots of the session's current window that are taken. -/
def taken (s : State) : Nat :=
  match s.cur with
  | some g => match s.chans[g]? with
    | some c => c.cnt
    | none => 0
  | none => 0

def noLogin : Step → Bool
  | .login _ => false
  | _ => true

def noClose : Step → Bool
  | .close => false
  | _ => true

theorem run_append (a b : List Step) : run (a ++ b) = b.foldl step (run a) := by
  unfold run; rw [List.foldl_append]

theorem length_eraseIdx_some {α : Type} {l : List α} {i : Nat} {a : α} (h : l[i]? = some a) :
    (l.eraseIdx i).length + 1 = l.length := by
  obtain ⟨hi, _⟩ := List.getElem?_eq_some_iff.1 h
  rw [List.length_eraseIdx_of_lt hi]; omega

/-- One window of size `W`, open or closed. -/
structure One (W : Nat) (s : State) : Prop where
  chans : ∃ c, s.chans = [c] ∧ c.cap = W ∧
    ((s.cur = some 0 ∧ c.closed = false ∧ c.cnt = busy s ∧ ∀ x ∈ s.leaving, x = some 0) ∨
     (s.cur = none ∧ c.closed = true))
  bound : busy s ≤ W
  entering : ∀ x ∈ s.entering, x = some 0 ∨ x = none
  leaving : ∀ x ∈ s.leaving, x = some 0 ∨ x = none

theorem one_step {W : Nat} {s : State} (h : One W s) (x : Step) (hx : noLogin x = true) : One W (step s x) := by
  obtain ⟨⟨c, hc, hcap, hst⟩, hb, he, hl⟩ := h
  unfold busy at hb hst
  cases x with
  | login size => cases hx
  | close =>
    simp only [step, closeCur]
    refine ⟨?_, hb, he, hl⟩
    rcases hst with ⟨h1, _, _, _⟩ | ⟨h1, h2⟩
    · refine ⟨{ c with closed := true }, ?_, hcap, .inr ⟨rfl, rfl⟩⟩
      simp only [h1, hc]; rfl
    · exact ⟨c, by simp only [h1, hc], hcap, .inr ⟨rfl, h2⟩⟩
  | start =>
    refine ⟨⟨c, hc, hcap, hst⟩, hb, ?_, hl⟩
    intro y hy
    rcases List.mem_append.1 hy with hy | hy
    · exact he y hy
    · rw [List.mem_singleton] at hy
      rw [hy]
      rcases hst with ⟨h1, _⟩ | ⟨h1, _⟩ <;> simp [h1]
  | send i =>
    unfold step
    simp only
    split
    · rename_i g hg
      have hg0 : g = 0 := by
        rcases he _ (List.mem_of_getElem? hg) with h | h
        · injection h
        · cases h
      subst hg0
      simp only [hc, List.getElem?_cons_zero]
      have he' : ∀ x ∈ s.entering.eraseIdx i, x = some 0 ∨ x = none :=
        fun x hx => he x (List.mem_of_mem_eraseIdx hx)
      split
      · rename_i hcl
        refine ⟨⟨c, rfl, hcap, ?_⟩, hb, he', hl⟩
        exact hst
      · rename_i hcl
        split
        · rename_i hlt
          rcases hst with ⟨h1, h2, h3, h4⟩ | ⟨_, h2⟩
          · refine ⟨⟨{ c with cnt := c.cnt + 1 }, rfl, hcap, .inl ⟨h1, h2, ?_, h4⟩⟩, ?_, he', hl⟩
            · show c.cnt + 1 = s.running + 1 + s.leaving.length; omega
            · show s.running + 1 + s.leaving.length ≤ W; omega
          · exact absurd h2 hcl
        · exact ⟨⟨c, hc, hcap, hst⟩, hb, he, hl⟩
    · exact ⟨⟨c, hc, hcap, hst⟩, hb, he, hl⟩
  | finish =>
    unfold step
    simp only
    split
    · rename_i hr
      have hlen : s.running - 1 + (s.leaving ++ [s.cur]).length = s.running + s.leaving.length := by
        rw [List.length_append]; simp only [List.length_cons, List.length_nil]; omega
      refine ⟨⟨c, hc, hcap, ?_⟩, ?_, he, ?_⟩
      · rcases hst with ⟨h1, h2, h3, h4⟩ | h1
        · refine .inl ⟨h1, h2, ?_, ?_⟩
          · show c.cnt = s.running - 1 + (s.leaving ++ [s.cur]).length
            rw [hlen]; exact h3
          · intro y hy
            rcases List.mem_append.1 hy with hy | hy
            · exact h4 y hy
            · rw [List.mem_singleton] at hy; rw [hy, h1]
        · exact .inr h1
      · show s.running - 1 + (s.leaving ++ [s.cur]).length ≤ W
        rw [hlen]; exact hb
      · intro y hy
        rcases List.mem_append.1 hy with hy | hy
        · exact hl y hy
        · rw [List.mem_singleton] at hy
          rw [hy]
          rcases hst with ⟨h1, _⟩ | ⟨h1, _⟩ <;> simp [h1]
    · exact ⟨⟨c, hc, hcap, hst⟩, hb, he, hl⟩
  | receive i =>
    unfold step
    simp only
    split
    · rename_i g hg
      have hg0 : g = 0 := by
        rcases hl _ (List.mem_of_getElem? hg) with h | h
        · injection h
        · cases h
      subst hg0
      simp only [hc, List.getElem?_cons_zero]
      have hlen := length_eraseIdx_some hg
      have hl' : ∀ x ∈ s.leaving.eraseIdx i, x = some 0 ∨ x = none :=
        fun x hx => hl x (List.mem_of_mem_eraseIdx hx)
      split
      · rename_i hpos
        refine ⟨⟨{ c with cnt := c.cnt - 1 }, rfl, hcap, ?_⟩, ?_, he, hl'⟩
        · rcases hst with ⟨h1, h2, h3, h4⟩ | h1
          · refine .inl ⟨h1, h2, ?_, fun y hy => h4 y (List.mem_of_mem_eraseIdx hy)⟩
            show c.cnt - 1 = s.running + (s.leaving.eraseIdx i).length; omega
          · exact .inr h1
        · show s.running + (s.leaving.eraseIdx i).length ≤ W; omega
      · rename_i hz
        split
        · rename_i hcl
          refine ⟨⟨c, rfl, hcap, ?_⟩, ?_, he, hl'⟩
          · rcases hst with ⟨_, h2, _, _⟩ | h1
            · rw [h2] at hcl; cases hcl
            · exact .inr h1
          · show s.running + (s.leaving.eraseIdx i).length ≤ W; omega
        · exact ⟨⟨c, hc, hcap, hst⟩, hb, he, hl⟩
    · exact ⟨⟨c, hc, hcap, hst⟩, hb, he, hl⟩
  | handoff i j =>
    unfold step
    simp only
    split
    · rename_i g g' hg hg'
      have hg0 : g = 0 := by
        rcases he _ (List.mem_of_getElem? hg) with h | h
        · injection h
        · cases h
      subst hg0
      simp only [hc, List.getElem?_cons_zero]
      split
      · rename_i hcond
        have hlen := length_eraseIdx_some hg'
        rcases hst with ⟨h1, h2, h3, h4⟩ | ⟨_, h2⟩
        · refine ⟨⟨c, rfl, hcap, .inl ⟨h1, h2, ?_, fun y hy => h4 y (List.mem_of_mem_eraseIdx hy)⟩⟩, ?_,
            fun x hx => he x (List.mem_of_mem_eraseIdx hx), fun x hx => hl x (List.mem_of_mem_eraseIdx hx)⟩
          · show c.cnt = s.running + 1 + (s.leaving.eraseIdx j).length; omega
          · show s.running + 1 + (s.leaving.eraseIdx j).length ≤ W; omega
        · rw [h2] at hcond; exact absurd hcond.2.2 (by simp)
      · exact ⟨⟨c, hc, hcap, hst⟩, hb, he, hl⟩
    · exact ⟨⟨c, hc, hcap, hst⟩, hb, he, hl⟩

theorem one_run (W : Nat) (rest : List Step) (h : ∀ x ∈ rest, noLogin x = true) :
    One W (run (.login W :: rest)) := by
  have h0 : One W (run [.login W]) := by
    have : run [.login W] = { chans := [⟨W, 0, false⟩], cur := some 0 } := by
      simp only [run, List.foldl_cons, List.foldl_nil, step]
      rw [if_neg (by omega)]
      simp [closeCur]
    rw [this]
    exact ⟨⟨_, rfl, rfl, .inl ⟨rfl, rfl, rfl, by simp⟩⟩, by simp [busy], by simp, by simp⟩
  have e : run (.login W :: rest) = rest.foldl step (run [.login W]) := rfl
  rw [e]
  generalize run [.login W] = s at h0
  induction rest generalizing s with
  | nil => exact h0
  | cons x rest ih =>
    rw [List.foldl_cons]
    exact ih (fun y hy => h y (by simp [hy])) rfl _ (one_step h0 x (h x (by simp)))

/-- C48, the part that holds: in every schedule of a session that logs in once, with handlers starting, running and
ending in any order and the session closing at any time, at most `W` handlers hold a slot. -/
theorem window_bound_partial (W : Nat) (rest : List Step) (h : ∀ x ∈ rest, noLogin x = true) :
    busy (run (.login W :: rest)) ≤ W ∧ (run (.login W :: rest)).running ≤ W := by
  have := (one_run W rest h).bound
  unfold busy at *
  omega

theorem open_run (W : Nat) (rest : List Step) (h : ∀ x ∈ rest, noLogin x = true) (hc : ∀ x ∈ rest, noClose x = true) :
    (run (.login W :: rest)).cur = some 0 := by
  have key : ∀ (s : State), s.cur = some 0 → (rest.foldl step s).cur = some 0 := by
    induction rest with
    | nil => intro s hs; exact hs
    | cons x rest ih =>
      intro s hs
      rw [List.foldl_cons]
      apply ih (fun y hy => h y (by simp [hy])) (fun y hy => hc y (by simp [hy]))
      have h1 := h x (by simp)
      have h2 := hc x (by simp)
      cases x with
      | login size => cases h1
      | close => cases h2
      | start => exact hs
      | send i => simp only [step]; split <;> (try split) <;> (try split) <;> (try split) <;> exact hs
      | finish => simp only [step]; split <;> exact hs
      | receive i => simp only [step]; split <;> (try split) <;> (try split) <;> (try split) <;> exact hs
      | handoff i j => simp only [step]; split <;> (try split) <;> (try split) <;> exact hs
  have e : run (.login W :: rest) = rest.foldl step (run [.login W]) := rfl
  rw [e]
  apply key
  simp only [run, List.foldl_cons, List.foldl_nil, step]
  rw [if_neg (by omega)]; rfl

/-- C48, the part that holds: while the session is open the number of taken slots is the number of handlers holding
one; a handler at its end is never blocked, and frees exactly one slot. -/
theorem slot_freed_partial (W : Nat) (rest : List Step) (h : ∀ x ∈ rest, noLogin x = true)
    (hc : ∀ x ∈ rest, noClose x = true) (i : Nat) (hi : i < (run (.login W :: rest)).leaving.length) :
    taken (run (.login W :: rest)) = busy (run (.login W :: rest)) ∧
    taken (run (.login W :: rest ++ [.receive i])) + 1 = taken (run (.login W :: rest)) ∧
    (run (.login W :: rest ++ [.receive i])).ended = (run (.login W :: rest)).ended + 1 ∧
    (run (.login W :: rest ++ [.receive i])).leaving.length + 1 = (run (.login W :: rest)).leaving.length := by
  have h1 := one_run W rest h
  have hcur := open_run W rest h hc
  rw [run_append]
  generalize run (.login W :: rest) = s at *
  obtain ⟨⟨c, hch, hcap, hst⟩, hb, he, hl⟩ := h1
  rcases hst with ⟨_, h2, h3, h4⟩ | ⟨h5, _⟩
  · have hg : s.leaving[i]? = some (some 0) := by
      rw [List.getElem?_eq_getElem hi, h4 _ (List.getElem_mem hi)]
    have hpos : 0 < c.cnt := by unfold busy at h3; omega
    have hlen := length_eraseIdx_some hg
    simp only [List.foldl_cons, List.foldl_nil, step, hg, hch, List.getElem?_cons_zero, if_pos hpos]
    refine ⟨?_, ?_, trivial, hlen⟩
    · simp only [taken, hcur, hch, List.getElem?_cons_zero]; exact h3
    · simp only [taken, hcur, hch, List.getElem?_cons_zero, List.set_cons_zero]; omega
  · rw [hcur] at h5; cases h5

/-- A slot that is free is granted: a waiting handler of an open session gets in when fewer than `W` are busy. -/
theorem slot_granted_partial (W : Nat) (rest : List Step) (h : ∀ x ∈ rest, noLogin x = true)
    (hc : ∀ x ∈ rest, noClose x = true) (i : Nat) (hi : (run (.login W :: rest)).entering[i]? = some (some 0))
    (hfree : busy (run (.login W :: rest)) < W) :
    (run (.login W :: rest ++ [.send i])).running = (run (.login W :: rest)).running + 1 := by
  have h1 := one_run W rest h
  have hcur := open_run W rest h hc
  rw [run_append]
  generalize run (.login W :: rest) = s at *
  obtain ⟨⟨c, hch, hcap, hst⟩, hb, he, hl⟩ := h1
  rcases hst with ⟨_, h2, h3, h4⟩ | ⟨h5, _⟩
  · simp only [List.foldl_cons, List.foldl_nil, step, hi, hch, List.getElem?_cons_zero, h2, Bool.false_eq_true, if_false]
    rw [if_pos (by omega)]
  · rw [hcur] at h5; cases h5

example : busy (run (.login 2 :: [.start, .start, .start, .send 0, .send 0, .send 0, .finish])) = 2 ∧
    (run (.login 2 :: [.start, .start, .start, .send 0, .send 0, .send 0, .finish])).leaving.length = 1 := by decide

/-! ## Refutations -/

/-- `k` handlers start and take a slot each. -/
def fill (k : Nat) : List Step := (List.replicate k [Step.start, .send 0]).flatten

theorem fill_run (k : Nat) (s : State) (pre : List Chan) (c : Chan) (hch : s.chans = pre ++ [c])
    (hcur : s.cur = some pre.length) (ho : c.closed = false) (he : s.entering = []) (hk : c.cnt + k ≤ c.cap) :
    (fill k).foldl step s = { s with running := s.running + k, chans := pre ++ [{ c with cnt := c.cnt + k }] } := by
  induction k generalizing s c with
  | zero => simp only [fill, List.replicate_zero, List.flatten_nil, List.foldl_nil, Nat.add_zero, ← hch]
  | succ k ih =>
    have e1 : [Step.start, .send 0].foldl step s =
        { s with running := s.running + 1, chans := pre ++ [{ c with cnt := c.cnt + 1 }] } := by
      have hget : (pre ++ [c])[pre.length]? = some c := by simp
      have hset : (pre ++ [c]).set pre.length { c with cnt := c.cnt + 1 } = pre ++ [{ c with cnt := c.cnt + 1 }] := by
        simp
      simp only [List.foldl_cons, List.foldl_nil, step, he, List.nil_append, List.getElem?_cons_zero, hcur, hch, hget,
        ho, Bool.false_eq_true, if_false, List.eraseIdx_cons_zero]
      rw [if_pos (by omega)]
      simp
    unfold fill
    rw [List.replicate_succ, List.flatten_cons, List.foldl_append, e1]
    have := ih { s with running := s.running + 1, chans := pre ++ [{ c with cnt := c.cnt + 1 }] }
      { c with cnt := c.cnt + 1 } rfl hcur ho he (by show c.cnt + 1 + k ≤ c.cap; omega)
    unfold fill at this
    rw [this]
    simp only [State.mk.injEq, and_true, true_and, List.append_cancel_left_eq, List.cons.injEq, Chan.mk.injEq]
    omega

/-- One login and `W` handlers, again and again on the same session. -/
def relogin (W : Nat) : List Step := .login W :: fill W

/-- The code violates C48 for sessions that log in again: whatever the window size, `n` logins on one connection let
`n * W` handlers run at the same time. -/
theorem relogin_window_fails (W n : Nat) :
    (run (List.replicate n (relogin W)).flatten).running = n * W ∧
    (run (List.replicate n (relogin W)).flatten).ended = 0 := by
  have key : ∀ s : State, s.entering = [] → s.crashed = false →
      ∃ s', (List.replicate n (relogin W)).flatten.foldl step s = s' ∧ s'.running = s.running + n * W ∧
        s'.ended = s.ended := by
    induction n with
    | zero => intro s _ _; exact ⟨s, rfl, by simp, rfl⟩
    | succ n ih =>
      intro s he hcr
      rw [List.replicate_succ, List.flatten_cons, List.foldl_append]
      have e1 : (relogin W).foldl step s =
          { s with running := s.running + W, cur := some s.chans.length, chans := closeCur s ++ [⟨W, W, false⟩] } := by
        unfold relogin
        rw [List.foldl_cons]
        have e0 : step s (.login W) =
            { s with chans := closeCur s ++ [⟨W, 0, false⟩], cur := some s.chans.length } := by
          simp only [step]
          rw [if_neg (by omega)]
          simp
        have hlen : (closeCur s).length = s.chans.length := by
          unfold closeCur; split <;> simp
        rw [e0, fill_run W { s with chans := closeCur s ++ [⟨W, 0, false⟩], cur := some s.chans.length } (closeCur s)
          ⟨W, 0, false⟩ rfl (by show some s.chans.length = _; rw [hlen]) rfl he (by simp)]
        simp
      rw [e1]
      obtain ⟨s', h1, h2, h3⟩ := ih { s with
        running := s.running + W, cur := some s.chans.length, chans := closeCur s ++ [⟨W, W, false⟩] } he hcr
      refine ⟨s', h1, ?_, h3⟩
      rw [h2]
      show s.running + W + n * W = s.running + (n + 1) * W
      rw [Nat.add_mul]; omega
  obtain ⟨s', h1, h2, h3⟩ := key {} rfl rfl
  have : run (List.replicate n (relogin W)).flatten = s' := h1
  rw [this, h2, h3]
  exact ⟨by simp, rfl⟩

/-- After the session is closed, a finishing handler waits on a nil channel. -/
theorem nil_stays {rest : List Step} (h : ∀ x ∈ rest, noLogin x = true) (s : State) (hcur : s.cur = none)
    (hl : ∀ x ∈ s.leaving, x = none) (he : ∀ g ∈ s.entering, g = none) :
    (rest.foldl step s).ended = s.ended ∧
    (rest.foldl step s).running + (rest.foldl step s).leaving.length = s.running + s.leaving.length := by
  induction rest generalizing s with
  | nil => exact ⟨rfl, rfl⟩
  | cons x rest ih =>
    rw [List.foldl_cons]
    have h1 := h x (by simp)
    have ih' := ih (fun y hy => h y (by simp [hy]))
    cases x with
    | login size => cases h1
    | close =>
      have := ih' (step s .close) rfl hl he
      simpa [step] using this
    | start =>
      have := ih' (step s .start) hcur hl (by
        intro y hy
        rcases List.mem_append.1 hy with hy | hy
        · exact he y hy
        · rw [List.mem_singleton] at hy; rw [hy, hcur])
      simpa [step] using this
    | send i =>
      have e1 : step s (.send i) = s := by
        simp only [step]
        split
        · rename_i g hg
          have := he _ (List.mem_of_getElem? hg)
          cases this
        · rfl
      rw [e1]; exact ih' s hcur hl he
    | finish =>
      by_cases hr : 0 < s.running
      · have e1 : step s .finish = { s with running := s.running - 1, leaving := s.leaving ++ [s.cur] } := by
          simp only [step, if_pos hr]
        rw [e1]
        have := ih' { s with running := s.running - 1, leaving := s.leaving ++ [s.cur] } hcur (by
          intro y hy
          rcases List.mem_append.1 hy with hy | hy
          · exact hl y hy
          · rw [List.mem_singleton] at hy; rw [hy, hcur]) he
        refine ⟨this.1, ?_⟩
        rw [this.2]
        simp only [List.length_append, List.length_cons, List.length_nil]
        omega
      · have e1 : step s .finish = s := by simp only [step, if_neg hr]
        rw [e1]; exact ih' s hcur hl he
    | receive i =>
      have e1 : step s (.receive i) = s := by
        simp only [step]
        split
        · rename_i g hg
          have := hl _ (List.mem_of_getElem? hg)
          cases this
        · rfl
      rw [e1]; exact ih' s hcur hl he
    | handoff i j =>
      have e1 : step s (.handoff i j) = s := by
        simp only [step]
        split
        · rename_i g g' hg hg'
          have := he _ (List.mem_of_getElem? hg)
          cases this
        · rfl
      rw [e1]; exact ih' s hcur hl he

/-- The code violates C48 when a session closes: every handler running at that moment never ends. Its goroutine is
lost for good, whatever happens afterwards. -/
theorem close_leaks_fails (W r : Nat) (hr : r ≤ W) (rest : List Step) (h : ∀ x ∈ rest, noLogin x = true) :
    (run (.login W :: fill r)).running = r ∧
    (run ((.login W :: fill r) ++ (.close :: rest))).ended = 0 ∧
    busy (run ((.login W :: fill r) ++ (.close :: rest))) = r := by
  have e0 : run [.login W] = { chans := [⟨W, 0, false⟩], cur := some 0 } := by
    simp only [run, List.foldl_cons, List.foldl_nil, step]
    rw [if_neg (by omega)]
    simp [closeCur]
  have e1 : run (.login W :: fill r) = { chans := [⟨W, r, false⟩], cur := some 0, running := r } := by
    have : run (.login W :: fill r) = (fill r).foldl step (run [.login W]) := rfl
    rw [this, e0, fill_run r _ [] ⟨W, 0, false⟩ rfl rfl rfl rfl (by simpa using hr)]
    simp
  rw [run_append, e1, List.foldl_cons]
  have := nil_stays h (step { chans := [⟨W, r, false⟩], cur := some 0, running := r } .close) rfl
    (by simp [step]) (by simp [step])
  refine ⟨rfl, this.1, ?_⟩
  unfold busy
  rw [this.2]
  simp [step]

/-- With window size 0 no handler of the session ever runs. -/
theorem zero_window_fails (rest : List Step) (h : ∀ x ∈ rest, noLogin x = true) :
    (run (.login 0 :: rest)).running = 0 := by
  have := window_bound_partial 0 rest h
  have e : run (.login ((0 : Nat) : Int) :: rest) = run (.login 0 :: rest) := rfl
  rw [e] at this
  omega

/-- A negative window size ends the process at the first login. -/
theorem negative_window_fails (steps : List Step) (size : Int) (h : size < 0) :
    (run (steps ++ [.login size])).crashed = true := by
  rw [run_append]
  simp only [List.foldl_cons, List.foldl_nil, step, if_pos h]

example : (run (List.replicate 3 (relogin 16)).flatten).running = 48 := by
  have := (relogin_window_fails 16 3).1
  simpa using this

/-- In every schedule, with any number of logins: each handler that was started is waiting for a slot, running, waiting to give
its slot back, ended or ended by a panic, and exactly one of these. -/
theorem handlers_accounted (steps : List Step) :
    (run steps).entering.length + (run steps).running + (run steps).leaving.length + (run steps).ended + (run steps).panicked =
      steps.count .start := by
  have key : ∀ (s : State) (x : Step),
      (step s x).entering.length + (step s x).running + (step s x).leaving.length + (step s x).ended + (step s x).panicked =
        s.entering.length + s.running + s.leaving.length + s.ended + s.panicked + if x = .start then 1 else 0 := by
    intro s x
    cases x with
    | login size => simp only [step]; split <;> simp
    | close => simp [step]
    | start => simp [step]; omega
    | send i =>
      simp only [step]
      split
      · rename_i g he
        have := length_eraseIdx_some he
        split
        · split
          · simp; omega
          · split
            · simp; omega
            · simp
        · simp
      · simp
    | finish =>
      simp only [step]
      split
      · simp; omega
      · simp
    | receive i =>
      simp only [step]
      split
      · rename_i g he
        have := length_eraseIdx_some he
        split
        · split
          · simp; omega
          · split
            · simp; omega
            · simp
        · simp
      · simp
    | handoff i j =>
      simp only [step]
      split
      · rename_i g g' he hl
        have := length_eraseIdx_some he
        have := length_eraseIdx_some hl
        split
        · split
          · simp; omega
          · simp
        · simp
      · simp
  have : ∀ (steps : List Step) (s : State),
      (steps.foldl step s).entering.length + (steps.foldl step s).running + (steps.foldl step s).leaving.length +
        (steps.foldl step s).ended + (steps.foldl step s).panicked =
      s.entering.length + s.running + s.leaving.length + s.ended + s.panicked + steps.count .start := by
    intro steps
    induction steps with
    | nil => intro s; simp
    | cons x steps ih =>
      intro s
      rw [List.foldl_cons, ih, key, List.count_cons]
      by_cases h : x = .start <;> simp [h]
      omega
  have := this steps {}
  simpa [run] using this

/-- Three handlers of a window of one; one is cut off by the closing. -/
example :
    let s := run [.login 1, .start, .send 0, .start, .finish, .receive 0, .start, .send 0, .close, .send 0]
    (s.entering.length, s.running, s.leaving.length, s.ended, s.panicked) = (0, 1, 0, 1, 1) := by decide

end Gosms.Window
