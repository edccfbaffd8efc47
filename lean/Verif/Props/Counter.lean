import Verif.Model.Counter
import Verif.Go.Bytes

/-!
# C47 with several event loops

`Quiet` states are those in which no callback is between two accesses: there the counter should be the number of
sessions.
-/

namespace Gosms.Counter

/-- No callback is in the middle of opening or closing. -/
def Quiet (s : State) : Prop := s.passed = 0 ∧ s.inc = none ∧ s.decs = []

theorem run_append (cap : Int) (a b : List Step) : run cap (a ++ b) = b.foldl (step cap) (run cap a) := by
  unfold run; rw [List.foldl_append]

theorem tests (cap : Int) (k : Nat) (s : State) (h : s.active < cap) :
    (List.replicate k Step.test).foldl (step cap) s = { s with passed := s.passed + k } := by
  induction k generalizing s with
  | zero => rfl
  | succ k ih =>
    rw [List.replicate_succ, List.foldl_cons]
    have : step cap s .test = { s with passed := s.passed + 1 } := by
      unfold step; rw [if_neg (by omega)]
    rw [this, ih { s with passed := s.passed + 1 } h]
    simp only [State.mk.injEq, true_and, and_true]
    omega

theorem incs (cap : Int) (k : Nat) (s : State) (hi : s.inc = none) (hp : s.passed = k) :
    (List.replicate k [Step.incRead, .incWrite]).flatten.foldl (step cap) s =
      { s with passed := 0, active := s.active + k, sessions := s.sessions + k } := by
  induction k generalizing s with
  | zero => cases s; simp_all
  | succ k ih =>
    rw [List.replicate_succ, List.flatten_cons, List.foldl_append]
    have : [Step.incRead, .incWrite].foldl (step cap) s =
        { s with passed := k, active := s.active + 1, sessions := s.sessions + 1 } := by
      simp only [List.foldl_cons, List.foldl_nil, step]
      rw [if_pos ⟨by omega, hi⟩]
      cases s
      simp_all
    rw [this, ih { s with passed := k, active := s.active + 1, sessions := s.sessions + 1 } hi rfl]
    simp only [State.mk.injEq, true_and, and_true]
    omega

/-- The code violates the bound of C47 with several event loops: whatever the (positive) maximum, `k` connections
opening at the same time on `k` event loops all get a session. -/
theorem cap_exceeded_fails (cap : Int) (hcap : 0 < cap) (k : Nat) :
    ∃ steps, Quiet (run cap steps) ∧ (run cap steps).sessions = k ∧ (run cap steps).active = k := by
  refine ⟨List.replicate k .test ++ (List.replicate k [Step.incRead, .incWrite]).flatten, ?_⟩
  rw [run_append]
  have h1 := tests cap k {} hcap
  have h2 : run cap (List.replicate k .test) = { passed := k } := by
    unfold run; rw [h1]; simp
  rw [h2, incs cap k _ rfl rfl]
  refine ⟨⟨rfl, rfl, rfl⟩, ?_, ?_⟩ <;> simp

/-- Two connections open and close; the decrement of the first falls between read and write of the increment of the
second. -/
def round : List Step :=
  [.test, .test, .incRead, .incWrite, .incRead, .decRead, .decWrite 0, .incWrite, .decRead, .decWrite 0]

theorem round_drift (cap : Int) (a : Int) (h : a < cap) :
    round.foldl (step cap) { active := a } = { active := a + 1 } := by
  have e1 : step cap { active := a } .test = { active := a, passed := 1 } := by
    unfold step; rw [if_neg (show ¬ a ≥ cap by omega)]
  have e2 : step cap { active := a, passed := 1 } .test = { active := a, passed := 2 } := by
    unfold step; rw [if_neg (show ¬ a ≥ cap by omega)]
  have e3 : ([.incRead, .incWrite, .incRead, .decRead, .decWrite 0, .incWrite, .decRead, .decWrite 0] :
      List Step).foldl (step cap) { active := a, passed := 2 } = { active := a + 1 + 1 - 1 } := rfl
  show ([.incRead, .incWrite, .incRead, .decRead, .decWrite 0, .incWrite, .decRead, .decWrite 0] :
      List Step).foldl (step cap) (step cap (step cap { active := a } .test) .test) = _
  rw [e1, e2, e3]
  simp only [State.mk.injEq, and_true]
  omega

/-- The code violates C47 with several event loops: after suitable histories all connections are closed, yet the
counter stands at any value up to the maximum. -/
theorem counter_drift_fails (cap : Int) (k : Nat) (hk : (k : Int) ≤ cap) :
    ∃ steps, Quiet (run cap steps) ∧ (run cap steps).sessions = 0 ∧ (run cap steps).active = k ∧
      (run cap steps).refused = 0 := by
  have : ∃ steps, run cap steps = { active := k } := by
    induction k with
    | zero => exact ⟨[], rfl⟩
    | succ k ih =>
      obtain ⟨steps, h⟩ := ih (by omega)
      refine ⟨steps ++ round, ?_⟩
      rw [run_append, h, round_drift cap k (by omega)]
      simp
  obtain ⟨steps, h⟩ := this
  exact ⟨steps, by rw [h]; exact ⟨rfl, rfl, rfl⟩, by rw [h], by rw [h], by rw [h]⟩

/-- So a server without a single open connection refuses all of them. -/
theorem empty_server_refuses_fails (cap : Nat) :
    ∃ steps, (run cap steps).sessions = 0 ∧ (run cap steps).refused = 0 ∧
      (run cap (steps ++ [.test])).refused = 1 ∧ (run cap (steps ++ [.test])).passed = 0 := by
  obtain ⟨steps, hq, hs, ha, hr⟩ := counter_drift_fails cap cap (by omega)
  refine ⟨steps, hs, hr, ?_⟩
  rw [run_append]
  simp only [List.foldl_cons, List.foldl_nil, step]
  rw [if_pos (by omega)]
  exact ⟨by simp only [hr], hq.1⟩

example : (run 3 round) = { active := 1 } := by decide

/-- Without overlap the counter is right: if every opening and closing runs to its end before the next starts. -/
inductive Whole where
  | opening
  | closing
deriving DecidableEq, Repr

def Whole.steps : Whole → List Step
  | .opening => [.test, .incRead, .incWrite]
  | .closing => [.decRead, .decWrite 0]

/-- C47 with several event loops, the part that holds. -/
theorem counter_exact_partial (cap : Int) (hcap : 0 ≤ cap) (ws : List Whole) :
    Quiet (run cap (ws.flatMap Whole.steps)) ∧
    (run cap (ws.flatMap Whole.steps)).active = (run cap (ws.flatMap Whole.steps)).sessions ∧
    (run cap (ws.flatMap Whole.steps)).active ≤ cap := by
  induction ws using snoc_induction with
  | nil => exact ⟨⟨rfl, rfl, rfl⟩, rfl, hcap⟩
  | snoc ws w ih =>
    rw [List.flatMap_append, run_append]
    generalize run cap (ws.flatMap Whole.steps) = s at *
    obtain ⟨⟨h1, h2, h3⟩, h4, h5⟩ := ih
    cases w with
    | opening =>
      simp only [List.flatMap_cons, List.flatMap_nil, List.append_nil, Whole.steps, List.foldl_cons, List.foldl_nil, step]
      by_cases hf : s.active ≥ cap
      · simp only [if_pos hf, h1, h2, Nat.lt_irrefl, false_and, if_false]
        exact ⟨⟨rfl, rfl, h3⟩, h4, h5⟩
      · simp only [if_neg hf, h1, h2, Nat.zero_add, Nat.lt_add_one, and_self, if_true]
        refine ⟨⟨rfl, rfl, h3⟩, ?_, ?_⟩
        · show s.active + 1 = ((s.sessions + 1 : Nat) : Int); omega
        · show s.active + 1 ≤ cap; omega
    | closing =>
      simp only [List.flatMap_cons, List.flatMap_nil, List.append_nil, Whole.steps, List.foldl_cons, List.foldl_nil, step]
      by_cases hf : 0 < s.sessions
      · simp only [if_pos hf, h3, List.nil_append, List.getElem?_cons_zero, List.eraseIdx_cons_zero]
        refine ⟨⟨h1, h2, rfl⟩, ?_, ?_⟩ <;> omega
      · simp only [if_neg hf, h3, List.getElem?_nil]
        exact ⟨⟨h1, h2, h3⟩, h4, h5⟩

example : (run 2 ([Whole.opening, .opening, .closing, .opening].flatMap Whole.steps)).active = 2 := by decide

end Gosms.Counter
