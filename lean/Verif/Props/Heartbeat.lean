import Verif.Spec.Heartbeat
import Verif.Go.Bytes

/-!
# C49, C68: termination for missing heartbeats and for inactivity
-/

namespace Gosms.Heartbeat
open Spec (unanswered unansweredFrom lastActivity)

theorem run_snoc (e : Env) (t0 : Int) (steps : List Step) (x : Step) :
    run e t0 (steps ++ [x]) = step e (run e t0 steps) x := by
  unfold run; rw [List.foldl_append]; rfl

theorem unansweredFrom_append (n : Nat) (a b : List Ev) :
    unansweredFrom n (a ++ b) = unansweredFrom (unansweredFrom n a) b := by
  induction a generalizing n with
  | nil => rfl
  | cons x a ih => cases x <;> simp only [List.cons_append, unansweredFrom, ih]

theorem lastActivity_append (t : Int) (a b : List Ev) :
    lastActivity t (a ++ b) = lastActivity (lastActivity t a) b := by
  induction a generalizing t with
  | nil => rfl
  | cons x a ih => cases x <;> simp only [List.cons_append, lastActivity, ih]

/-- The fields are what the history says. -/
structure Inv (t0 : Int) (s : State) : Prop where
  nAt : s.nAt.toNat = unanswered s.log % 256
  lastUse : s.lastUse = lastActivity t0 s.log
  ends : ∀ pre t post, s.log = pre ++ .endBeat t :: post → 3 ≤ unanswered pre

theorem ends_snoc {log : List Ev} {x : Ev} (h : ∀ pre t post, log = pre ++ .endBeat t :: post → 3 ≤ unanswered pre)
    (hx : ∀ t, x = .endBeat t → 3 ≤ unanswered log) :
    ∀ pre t post, log ++ [x] = pre ++ .endBeat t :: post → 3 ≤ unanswered pre := by
  intro pre t post he
  rcases List.eq_nil_or_concat post with hp | ⟨post', y, hp⟩
  · subst hp
    obtain ⟨rfl, hh⟩ := List.append_inj' he rfl
    rw [List.cons.injEq] at hh
    exact hx t hh.1
  · subst hp
    have e2 : pre ++ Ev.endBeat t :: (post'.concat y) = (pre ++ Ev.endBeat t :: post') ++ [y] := by simp
    rw [e2] at he
    exact h pre t post' (List.append_inj' he rfl).1

theorem unanswered_snoc (log : List Ev) (x : Ev) : unanswered (log ++ [x]) = unansweredFrom (unanswered log) [x] :=
  unansweredFrom_append 0 log [x]

theorem Inv.step {e : Env} {t0 : Int} {s : State} (h : Inv t0 s) (x : Step) : Inv t0 (step e s x) := by
  obtain ⟨h1, h2, h3⟩ := h
  cases x with
  | tick now =>
    simp only [Heartbeat.step, onTick]
    split
    · refine ⟨?_, ?_, ends_snoc h3 (by intro t h; cases h)⟩
      · simp only [unanswered_snoc, unansweredFrom]; exact h1
      · simp only [lastActivity_append, lastActivity]; exact h2
    · split
      · rename_i hn
        refine ⟨?_, ?_, ends_snoc h3 ?_⟩
        · simp only [unanswered_snoc, unansweredFrom]; exact h1
        · simp only [lastActivity_append, lastActivity]; exact h2
        · intro t _
          have hn : 2 < s.nAt.toNat := hn
          have := Nat.mod_le (unanswered s.log) 256
          omega
      · split <;> exact ⟨h1, h2, h3⟩
  | task now =>
    simp only [Heartbeat.step, onTask]
    split
    · exact ⟨h1, h2, h3⟩
    · split
      · refine ⟨?_, ?_, ends_snoc h3 (by intro t h; cases h)⟩
        · simp only [unanswered_snoc, unansweredFrom]
          rw [UInt8.toNat_add, h1]
          show (unanswered s.log % 256 + 1) % 256 = _
          omega
        · simp only [lastActivity_append, lastActivity]; exact h2
      · exact ⟨h1, h2, h3⟩
  | answer now =>
    simp only [Heartbeat.step]
    split
    · refine ⟨?_, ?_, ends_snoc h3 (by intro t h; cases h)⟩
      · simp only [unanswered_snoc, unansweredFrom]; rfl
      · simp only [lastActivity_append, lastActivity]
    · exact ⟨h1, h2, h3⟩
  | use now =>
    simp only [Heartbeat.step]
    refine ⟨?_, ?_, ends_snoc h3 (by intro t h; cases h)⟩
    · simp only [unanswered_snoc, unansweredFrom]; exact h1
    · simp only [lastActivity_append, lastActivity]
  | login now =>
    simp only [Heartbeat.step]
    refine ⟨?_, ?_, ends_snoc h3 (by intro t h; cases h)⟩
    · simp only [unanswered_snoc, unansweredFrom]; exact h1
    · simp only [lastActivity_append, lastActivity]

theorem inv_run (e : Env) (t0 : Int) (steps : List Step) : Inv t0 (run e t0 steps) := by
  induction steps using snoc_induction with
  | nil => exact ⟨rfl, rfl, by simp [run]⟩
  | snoc steps x ih => rw [run_snoc]; exact ih.step x

/-- C49, first part: in every history, a session is terminated for missing heartbeats only after three heartbeats in
a row went unanswered. -/
theorem terminated_after_three (e : Env) (t0 : Int) (steps : List Step) (pre post : List Ev) (t : Int)
    (h : (run e t0 steps).log = pre ++ .endBeat t :: post) : 3 ≤ unanswered pre :=
  (inv_run e t0 steps).ends pre t post h

/-- C49, second part: a peer that never leaves three in a row unanswered, in particular one that answers each
heartbeat before the next, is never terminated for that reason. -/
theorem answering_peer_kept (e : Env) (t0 : Int) (steps : List Step)
    (h : ∀ pre post, (run e t0 steps).log = pre ++ post → unanswered pre ≤ 2) (t : Int) :
    Ev.endBeat t ∉ (run e t0 steps).log := by
  intro hm
  obtain ⟨pre, post, he⟩ := List.append_of_mem hm
  have h1 := terminated_after_three e t0 steps pre post t he
  have h2 := h pre _ he
  omega

/-- The goroutine pool is not hopelessly behind: at each tick at most 252 heartbeat tasks are still waiting. (The
pool has one goroutine per CPU and takes no task when all are busy, server.go:65-73.) -/
def Timely (e : Env) (t0 : Int) (steps : List Step) : Prop :=
  ∀ pre t post, steps = pre ++ .tick t :: post → (run e t0 pre).tasks ≤ 252

theorem unanswered_bound (e : Env) (t0 : Int) (steps : List Step) (h : Timely e t0 steps) :
    unanswered (run e t0 steps).log + (run e t0 steps).tasks ≤ 255 := by
  induction steps using snoc_induction with
  | nil => show 0 + 0 ≤ 255; omega
  | snoc steps x ih =>
    have ih' := ih (by
      intro pre t post he
      exact h pre t (post ++ [x]) (by rw [he]; simp))
    have hi := (inv_run e t0 steps).nAt
    rw [run_snoc]
    have ht : ∀ t, x = .tick t → (run e t0 steps).tasks ≤ 252 := by
      intro t hx; exact h steps t [] (by rw [hx])
    generalize run e t0 steps = s at *
    cases x with
    | tick now =>
      have := ht now rfl
      simp only [step, onTick]
      split
      · simp only [unanswered_snoc, unansweredFrom]; exact ih'
      · split
        · simp only [unanswered_snoc, unansweredFrom]; exact ih'
        · rename_i hn
          have hn : ¬ 2 < s.nAt.toNat := hn
          split
          · show unanswered s.log + (s.tasks + 1) ≤ 255
            omega
          · exact ih'
    | task now =>
      simp only [step, onTask]
      split
      · exact ih'
      · rename_i hz
        split
        · simp only [unanswered_snoc, unansweredFrom]; omega
        · show unanswered s.log + (s.tasks - 1) ≤ 255; omega
    | answer now =>
      simp only [step]
      split
      · simp only [unanswered_snoc, unansweredFrom]; omega
      · exact ih'
    | use now => simp only [step, unanswered_snoc, unansweredFrom]; exact ih'
    | login now => simp only [step, unanswered_snoc, unansweredFrom]; exact ih'

/-- C49, third part, and C68: what a tick does, in terms of the history alone. The session is terminated for
inactivity exactly if the last activity is longer ago than the configured time; otherwise it is terminated for
missing heartbeats exactly if three or more in a row are unanswered; otherwise it is not terminated. -/
theorem tick_decision (e : Env) (t0 : Int) (steps : List Step) (h : Timely e t0 steps) (now : Int) :
    (run e t0 (steps ++ [.tick now])).log = (run e t0 steps).log ++
      (if lastActivity t0 (run e t0 steps).log + e.force < now then [.endIdle now]
       else if 3 ≤ unanswered (run e t0 steps).log then [.endBeat now] else []) := by
  have hb := unanswered_bound e t0 steps h
  have hi := inv_run e t0 steps
  rw [run_snoc]
  generalize run e t0 steps = s at *
  simp only [step, onTick, ← hi.lastUse]
  split
  · rfl
  · have h1 := hi.nAt
    have e1 : s.nAt > 2 ↔ 3 ≤ unanswered s.log := by
      have : s.nAt > 2 ↔ 2 < s.nAt.toNat := Iff.rfl
      rw [this]; omega
    by_cases hn : s.nAt > 2
    · rw [if_pos hn, if_pos (e1.1 hn)]
    · rw [if_neg hn, if_neg (fun h => hn (e1.2 h))]
      split <;> simp

/-- SGIP sessions are never sent heartbeats, nor terminated for lack of answers. -/
theorem sgip_no_heartbeat (e : Env) (he : e.proto = .sgip) (t0 : Int) (steps : List Step) (t : Int) :
    Ev.beat t ∉ (run e t0 steps).log ∧ Ev.endBeat t ∉ (run e t0 steps).log := by
  have key : (run e t0 steps).nAt = 0 ∧ ∀ t, Ev.beat t ∉ (run e t0 steps).log ∧ Ev.endBeat t ∉ (run e t0 steps).log := by
    induction steps using snoc_induction with
    | nil => exact ⟨rfl, by simp [run]⟩
    | snoc steps x ih =>
      rw [run_snoc]
      generalize run e t0 steps = s at *
      obtain ⟨h1, h2⟩ := ih
      cases x with
      | tick now =>
        simp only [step, onTick]
        split
        · exact ⟨h1, by simpa using h2⟩
        · rw [if_neg (by rw [h1]; decide)]
          split <;> exact ⟨h1, h2⟩
      | task now =>
        simp only [step, onTask, he, ne_eq, not_true, and_false, if_false]
        split <;> exact ⟨h1, h2⟩
      | answer now =>
        simp only [step, he, ne_eq, not_true, and_false, if_false]
        exact ⟨h1, h2⟩
      | use now => exact ⟨h1, by simpa [step] using h2⟩
      | login now => exact ⟨h1, by simpa [step] using h2⟩
  exact key.2 t

/-- What a heartbeat task does, in terms of the history: it sends a heartbeat exactly if the peer has been silent for more
than a minute (and the protocol has heartbeats). -/
theorem task_decision (e : Env) (t0 : Int) (steps : List Step) (now : Int) (hw : (run e t0 steps).tasks ≠ 0) :
    (run e t0 (steps ++ [.task now])).log = (run e t0 steps).log ++
      (if lastActivity t0 (run e t0 steps).log + 60 * 1000000000 < now ∧ e.proto ≠ .sgip then [.beat now] else []) := by
  have hi := (inv_run e t0 steps).lastUse
  rw [run_snoc]
  generalize run e t0 steps = s at *
  simp only [step, onTask, if_neg hw, hi, minute]
  have e60 : (60 * 1000000000 : Int) = 60000000000 := by decide
  rw [e60]
  split <;> simp

/-- Heartbeats go to logged-in peers only, and only after more than a minute of silence. -/
theorem heartbeat_only_when_silent (e : Env) (t0 : Int) (steps : List Step) (pre post : List Ev) (t : Int)
    (h : (run e t0 steps).log = pre ++ .beat t :: post) :
    lastActivity t0 pre + 60 * 1000000000 < t ∧ ∃ u, Step.login u ∈ steps := by
  have key : ((run e t0 steps).login = true ∨ (run e t0 steps).tasks ≠ 0 → ∃ u, Step.login u ∈ steps) ∧
      ∀ pre post t, (run e t0 steps).log = pre ++ .beat t :: post →
        lastActivity t0 pre + 60 * 1000000000 < t ∧ ∃ u, Step.login u ∈ steps := by
    clear h
    induction steps using snoc_induction with
    | nil =>
      refine ⟨fun h => ?_, fun pre post t h => ?_⟩
      · rcases h with h | h
        · cases h
        · exact absurd rfl h
      · simp [run] at h
    | snoc steps x ih =>
      obtain ⟨i1, i2⟩ := ih
      have old : ∀ {l : List Ev} (hl : (run e t0 (steps ++ [x])).log = (run e t0 steps).log ++ l)
          (hx : ∀ u v t', l = u ++ .beat t' :: v → lastActivity t0 ((run e t0 steps).log ++ u) + 60 * 1000000000 < t' ∧
            ∃ u, Step.login u ∈ steps) (pre post : List Ev) (t : Int),
          (run e t0 (steps ++ [x])).log = pre ++ .beat t :: post →
          lastActivity t0 pre + 60 * 1000000000 < t ∧ ∃ u, Step.login u ∈ steps ++ [x] := by
        intro l hl hx pre post t h
        rw [hl, List.append_eq_append_iff] at h
        have fin : (lastActivity t0 pre + 60 * 1000000000 < t ∧ ∃ u, Step.login u ∈ steps) →
            lastActivity t0 pre + 60 * 1000000000 < t ∧ ∃ u, Step.login u ∈ steps ++ [x] := by
          rintro ⟨a, u, hu⟩
          exact ⟨a, u, List.mem_append_left _ hu⟩
        rcases h with ⟨as, hpre, hbs⟩ | ⟨cs, hpre, hbs⟩
        · rw [hpre]
          rw [hpre] at fin
          exact fin (hx as post t hbs)
        · cases cs with
          | nil =>
            rw [List.nil_append] at hbs
            rw [List.append_nil] at hpre
            have := hx [] post t hbs.symm
            rw [List.append_nil, hpre] at this
            exact fin this
          | cons c cs =>
            rw [List.cons_append, List.cons.injEq] at hbs
            obtain ⟨rfl, hbs⟩ := hbs
            exact fin (i2 pre cs t hpre)
      have keep : ∀ u, Step.login u ∈ steps → ∃ u, Step.login u ∈ steps ++ [x] :=
        fun u hu => ⟨u, List.mem_append_left _ hu⟩
      cases x with
      | tick now =>
        have hs : run e t0 (steps ++ [Step.tick now]) = onTick e (run e t0 steps) now := run_snoc e t0 steps _
        rw [hs]
        rw [hs] at old
        generalize run e t0 steps = s at *
        unfold onTick at old ⊢
        split
        · rename_i h1
          rw [if_pos h1] at old
          refine ⟨fun h => (i1 h).elim keep, old rfl (fun u v t' hu => ?_)⟩
          cases u with
          | nil => cases hu
          | cons a u => cases u <;> simp at hu
        · rename_i h1
          rw [if_neg h1] at old
          split
          · rename_i h2
            rw [if_pos h2] at old
            refine ⟨fun h => (i1 h).elim keep, old rfl (fun u v t' hu => ?_)⟩
            cases u with
            | nil => cases hu
            | cons a u => cases u <;> simp at hu
          · rename_i h2
            rw [if_neg h2] at old
            split
            · rename_i h3
              rw [if_pos h3] at old
              exact ⟨fun _ => (i1 (Or.inl h3)).elim keep, old (List.append_nil _).symm (fun u v t' hu => by cases u <;> cases hu)⟩
            · rename_i h3
              rw [if_neg h3] at old
              exact ⟨fun h => (i1 h).elim keep, old (List.append_nil _).symm (fun u v t' hu => by cases u <;> cases hu)⟩
      | task now =>
        by_cases hw : (run e t0 steps).tasks = 0
        · have hs : run e t0 (steps ++ [Step.task now]) = run e t0 steps := by
            rw [run_snoc]; simp only [step, onTask, if_pos hw]
          refine ⟨fun h => (i1 (by rw [hs] at h; exact h)).elim keep, old (l := []) (by rw [hs, List.append_nil])
            (fun u v t' hu => by cases u <;> cases hu)⟩
        · refine ⟨fun _ => (i1 (Or.inr hw)).elim keep, old (task_decision e t0 steps now hw) (fun u v t' hu => ?_)⟩
          split at hu
          · rename_i hc
            cases u with
            | nil =>
              rw [List.nil_append, List.cons.injEq, Ev.beat.injEq] at hu
              rw [List.append_nil, ← hu.1]
              exact ⟨hc.1, i1 (Or.inr hw)⟩
            | cons a u => cases u <;> simp at hu
          · cases u <;> cases hu
      | answer now =>
        have hs : run e t0 (steps ++ [Step.answer now]) = step e (run e t0 steps) (.answer now) := run_snoc e t0 steps _
        rw [hs]
        rw [hs] at old
        generalize run e t0 steps = s at *
        unfold step at old ⊢
        simp only at old ⊢
        split
        · rename_i h1
          rw [if_pos h1] at old
          refine ⟨fun h => (i1 h).elim keep, old rfl (fun u v t' hu => ?_)⟩
          cases u with
          | nil => cases hu
          | cons a u => cases u <;> simp at hu
        · rename_i h1
          rw [if_neg h1] at old
          exact ⟨fun h => (i1 h).elim keep, old (List.append_nil _).symm (fun u v t' hu => by cases u <;> cases hu)⟩
      | use now =>
        have hs : run e t0 (steps ++ [Step.use now]) = step e (run e t0 steps) (.use now) := run_snoc e t0 steps _
        rw [hs]
        rw [hs] at old
        generalize run e t0 steps = s at *
        refine ⟨fun h => (i1 h).elim keep, old rfl (fun u v t' hu => ?_)⟩
        cases u with
        | nil => cases hu
        | cons a u => cases u <;> simp at hu
      | login now =>
        have hs : run e t0 (steps ++ [Step.login now]) = step e (run e t0 steps) (.login now) := run_snoc e t0 steps _
        rw [hs]
        rw [hs] at old
        generalize run e t0 steps = s at *
        refine ⟨fun _ => ⟨now, by simp⟩, old rfl (fun u v t' hu => ?_)⟩
        cases u with
        | nil => cases hu
        | cons a u => cases u <;> simp at hu
  exact key.2 pre post t h

/-- A peer that never answers: heartbeats at minutes 2, 3, 4, termination at minute 5. -/
example : (run ⟨.cmpp, 100 * minute⟩ 0 [.login 1, .tick (2 * minute), .task (2 * minute), .tick (3 * minute),
      .task (3 * minute), .tick (4 * minute), .task (4 * minute), .tick (5 * minute)]).log =
    [.use 1, .beat (2 * minute), .beat (3 * minute), .beat (4 * minute), .endBeat (5 * minute)] := by decide

/-- One that answers is kept until it has been inactive for the configured time. -/
example : (run ⟨.cmpp, 3 * minute⟩ 0 [.login 1, .tick (2 * minute), .task (2 * minute), .answer (2 * minute + 1),
      .tick (4 * minute), .tick (6 * minute)]).log =
    [.use 1, .beat (2 * minute), .answer (2 * minute + 1), .endIdle (6 * minute)] := by decide

example : Timely ⟨.cmpp, 3 * minute⟩ 0 [.login 1, .tick (2 * minute), .task (2 * minute)] := by
  intro pre t post h
  match pre, h with
  | [], h => cases h
  | [a], h => injection h with h1 h2; rw [← h1]; decide
  | [a, b], h => injection h with h1 h2; injection h2 with h2 h3; injection h3 with h3 h4; cases h3
  | a :: b :: c :: l, h =>
    injection h with h1 h2; injection h2 with h2 h3; injection h3 with h3 h4
    cases l <;> cases h4

end Gosms.Heartbeat
