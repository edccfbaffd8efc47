import Verif.Model.Shutdown
import Verif.Props.Events
import Verif.Model.Utils

/-!
# C83: a termination signal shuts the process down gracefully
-/

namespace Gosms.Shutdown
variable {E : Type} (hooks : List E) (panics : E → Bool)

theorem run_snoc (steps : List Step) (x : Step) :
    run hooks panics (steps ++ [x]) = step hooks panics (run hooks panics steps) x := by simp [run]

/-- What holds at each place of the goroutine. -/
def Inv (s : State E) : Prop :=
  (match s.g with
   | .start | .ready | .waiting => s.ran = []
   | .hooks rest => s.ran ++ rest = hooks ∧ ∀ h ∈ s.ran, panics h = false
   | .leaving p | .telling p | .done p => (p = false → s.ran = hooks ∧ ∀ h ∈ s.ran, panics h = false) ∧
      (p = true → ∃ pre h post, hooks = pre ++ h :: post ∧ s.ran = pre ++ [h] ∧ panics h = true ∧ ∀ x ∈ pre, panics x = false)) ∧
  (s.main = .leaving ↔ ∃ p, s.g = .done p) ∧ (s.ended = some .exit → s.main = .leaving) ∧
  (s.ended = some .killed → s.g = .start)

theorem inv_step {s : State E} (h : Inv hooks panics s) (x : Step) : Inv hooks panics (step hooks panics s x) := by
  unfold step
  split
  · exact h
  rename_i he
  have he' : s.ended = none := by cases hh : s.ended <;> simp_all
  obtain ⟨g, main, ran, ended⟩ := s
  simp only at he'
  subst he'
  obtain ⟨h1, h2, h3, h4⟩ := h
  cases x with
  | signal =>
    cases g <;> simp_all [onSignal, Inv]
  | g =>
    cases g with
    | start => simp_all [onG, Inv]
    | ready => simp_all [onG, Inv]
    | waiting => simp_all [onG, Inv]
    | hooks rest =>
      cases rest with
      | nil => simp_all [onG, Inv]
      | cons a rest =>
        simp only at h1
        obtain ⟨e1, e2⟩ := h1
        cases hp : panics a
        · simp_all [onG, Inv]
          rintro h (hh | rfl)
          · exact e2 h hh
          · exact hp
        · simp_all [onG, Inv]
          exact ⟨ran, a, ⟨rest, e1.symm⟩, ⟨rfl, rfl⟩, hp, e2⟩
    | leaving p => simp_all [onG, Inv]
    | telling p =>
      simp only [onG]
      split <;> simp_all [Inv]
    | done p =>
      cases p <;> simp_all [onG, Inv]
  | main =>
    cases main <;> simp_all [onMain, Inv]

theorem inv_run (steps : List Step) : Inv hooks panics (run hooks panics steps) := by
  induction steps using snoc_induction with
  | nil => simp [run, Inv]
  | snoc steps x ih => rw [run_snoc]; exact inv_step hooks panics ih x

/-- C83: whatever signals arrive and however the goroutines interleave, hooks run in order and at most once each: those that have run are
an initial part of the list of hooks. -/
theorem hooks_at_most_once (steps : List Step) : (run hooks panics steps).ran <+: hooks := by
  have h := (inv_run hooks panics steps).1
  split at h
  · rw [h]; exact List.nil_prefix
  · rw [h]; exact List.nil_prefix
  · rw [h]; exact List.nil_prefix
  · exact ⟨_, h.1⟩
  all_goals
    rename_i p _
    cases p with
    | false => rw [(h.1 rfl).1]; exact List.prefix_rfl
    | true =>
      obtain ⟨pre, x, post, e1, e2, _⟩ := h.2 rfl
      exact ⟨post, by rw [e2, e1]; simp⟩

/-- C83: if no hook panics, the process exits only after all hooks have run. -/
theorem exit_after_hooks_partial (hp : ∀ h ∈ hooks, panics h = false) (steps : List Step)
    (he : (run hooks panics steps).ended = some .exit) : (run hooks panics steps).ran = hooks := by
  obtain ⟨h1, h2, h3, _⟩ := inv_run hooks panics steps
  obtain ⟨p, hg⟩ := h2.1 (h3 he)
  rw [hg] at h1
  cases p with
  | false => exact (h1.1 rfl).1
  | true =>
    obtain ⟨pre, x, post, e1, _, e3, _⟩ := h1.2 rfl
    rw [hp x (by rw [e1]; simp)] at e3
    cases e3

/-- How far the goroutine and the main goroutine still have to go. -/
def distG : Pc E → Nat
  | .start => 0 | .ready => 0 | .waiting => 0
  | .hooks rest => rest.length + 3
  | .leaving _ => 2
  | .telling _ => 1
  | .done _ => 0

def distMain : Main → Nat
  | .busy => 2 | .waiting => 1 | .leaving => 1

def dist (s : State E) : Nat := if s.ended.isSome then 0 else distG s.g + distMain s.main

/-- On the way out: a signal has been received, no hook panics. -/
def Leaving (s : State E) : Prop := s.ended = some .exit ∨ (s.ended = none ∧
  ((∃ rest, s.g = .hooks rest ∧ ∀ h ∈ rest, panics h = false) ∧ s.main ≠ .leaving ∨
   s.g = .leaving false ∧ s.main ≠ .leaving ∨ s.g = .telling false ∧ s.main ≠ .leaving ∨
   s.g = .done false ∧ s.main = .leaving))

theorem leaving_step {s : State E} (h : Leaving panics s) {x : Step} (hx : x ≠ .signal) :
    Leaving panics (step hooks panics s x) ∧ dist (step hooks panics s x) ≤ dist s := by
  unfold step
  split
  · exact ⟨h, Nat.le_refl _⟩
  rename_i he
  have he' : s.ended = none := by cases hh : s.ended <;> simp_all
  obtain ⟨g, main, ran, ended⟩ := s
  simp only at he'
  subst he'
  rcases h with h | ⟨_, h⟩
  · cases h
  simp only at h
  cases x with
  | signal => exact absurd rfl hx
  | g =>
    rcases h with ⟨⟨rest, rfl, hr⟩, hm⟩ | ⟨rfl, hm⟩ | ⟨rfl, hm⟩ | ⟨rfl, hm⟩
    · cases rest with
      | nil => simp_all [onG, Leaving, dist, distG]
      | cons a rest =>
        have : panics a = false := hr a (by simp)
        simp_all [onG, Leaving, dist, distG]
    · simp_all [onG, Leaving, dist, distG]
    · cases main <;> simp_all [onG, Leaving, dist, distG, distMain]
    · simp_all [onG, Leaving, dist, distG]
  | main =>
    rcases h with ⟨⟨rest, rfl, hr⟩, hm⟩ | ⟨rfl, hm⟩ | ⟨rfl, hm⟩ | ⟨rfl, hm⟩
    · cases main <;> simp_all [onMain, Leaving, dist, distG, distMain]
    · cases main <;> simp_all [onMain, Leaving, dist, distG, distMain]
    · cases main <;> simp_all [onMain, Leaving, dist, distG, distMain]
    · simp_all [onMain, Leaving, dist, distG, distMain]

theorem leaving_run {s : State E} (h : Leaving panics s) {r : List Step} (hr : Step.signal ∉ r) :
    Leaving panics (r.foldl (step hooks panics) s) ∧ dist (r.foldl (step hooks panics) s) ≤ dist s := by
  induction r generalizing s with
  | nil => exact ⟨h, Nat.le_refl _⟩
  | cons x r ih =>
    obtain ⟨h1, h2⟩ := leaving_step hooks panics h (x := x) (fun hh => hr (hh ▸ List.mem_cons_self))
    obtain ⟨i1, i2⟩ := ih h1 (fun hh => hr (List.mem_cons_of_mem _ hh))
    exact ⟨i1, Nat.le_trans i2 h2⟩

/-- A step that gets the process nearer to its end exists, and stays possible until it is taken. -/
theorem dist_g {s : State E} (h : Leaving panics s) (hd : dist s ≠ 0) :
    (s.main = .waiting ∨ ∃ r, s.g = .hooks r) ∨ s.g = .leaving false → s.g ≠ .done false →
    dist (step hooks panics s .g) < dist s := by
  intro hc hnd
  unfold step
  split
  · rename_i he
    simp only [dist, he, if_true] at hd
    exact absurd rfl hd
  rename_i he
  have he' : s.ended = none := by cases hh : s.ended <;> simp_all
  obtain ⟨g, main, ran, ended⟩ := s
  simp only at he'
  subst he'
  rcases h with h | ⟨_, h⟩
  · cases h
  simp only at h
  rcases h with ⟨⟨rest, rfl, hr⟩, hm⟩ | ⟨rfl, hm⟩ | ⟨rfl, hm⟩ | ⟨rfl, hm⟩
  · cases rest with
    | nil => simp_all [onG, dist, distG]
    | cons a rest =>
      have : panics a = false := hr a (by simp)
      simp_all [onG, dist, distG]
  · simp_all [onG, dist, distG]
  · cases main <;> simp_all [onG, dist, distG, distMain]
  · exact absurd rfl hnd

theorem dist_main {s : State E} (hd : dist s ≠ 0) (hc : s.main ≠ .waiting) :
    dist (step hooks panics s .main) < dist s := by
  unfold step
  split
  · rename_i he
    simp only [dist, he, if_true] at hd
    exact absurd rfl hd
  rename_i he
  have he' : s.ended = none := by cases hh : s.ended <;> simp_all
  obtain ⟨g, main, ran, ended⟩ := s
  simp only at he'
  subst he'
  cases main <;> simp_all [onMain, dist, distMain]

/-- After a round in which both goroutines got to run the end is nearer. -/
theorem round_progress {s : State E} (h : Leaving panics s) (hd : dist s ≠ 0) {r : List Step} (hs : Step.signal ∉ r)
    (hg : Step.g ∈ r) (hm : Step.main ∈ r) : dist (r.foldl (step hooks panics) s) < dist s := by
  by_cases hw : s.main = .waiting
  · -- the goroutine has to move; until it does nothing changes
    have hnd : s.g ≠ .done false := by
      intro hh
      rcases h with h | ⟨he, h⟩
      · simp [dist, h] at hd
      · rcases h with ⟨⟨_, e, _⟩, _⟩ | ⟨e, _⟩ | ⟨e, _⟩ | ⟨_, e⟩
        · rw [hh] at e; cases e
        · rw [hh] at e; cases e
        · rw [hh] at e; cases e
        · rw [hw] at e; cases e
    induction r with
    | nil => cases hg
    | cons x r ih =>
      cases x with
      | signal => exact absurd List.mem_cons_self hs
      | g =>
        have h1 := dist_g hooks panics h hd (.inl (.inl hw)) hnd
        have h2 := leaving_step hooks panics h (x := .g) (by simp)
        exact Nat.lt_of_le_of_lt (leaving_run hooks panics h2.1 (fun hh => hs (List.mem_cons_of_mem _ hh))).2 h1
      | main =>
        have hsame : step hooks panics s .main = s := by
          unfold step
          split
          · rfl
          · simp [onMain, hw]
        rw [List.foldl_cons, hsame]
        have hs' : Step.signal ∉ r := fun hh => hs (List.mem_cons_of_mem _ hh)
        have hg' : Step.g ∈ r := by simpa using hg
        by_cases hm' : Step.main ∈ r
        · exact ih hs' hg' hm'
        · clear ih hm
          -- only g steps are left
          cases r with
          | nil => cases hg'
          | cons y r =>
            cases y with
            | signal => exact absurd List.mem_cons_self hs'
            | main => exact absurd List.mem_cons_self hm'
            | g =>
              have h1 := dist_g hooks panics h hd (.inl (.inl hw)) hnd
              have h2 := leaving_step hooks panics h (x := .g) (by simp)
              exact Nat.lt_of_le_of_lt (leaving_run hooks panics h2.1 (fun hh => hs' (List.mem_cons_of_mem _ hh))).2 h1
  · -- the main goroutine moves at its first step, unless the end came nearer before
    induction r generalizing s with
    | nil => cases hg
    | cons x r ih =>
      have hs' : Step.signal ∉ r := fun hh => hs (List.mem_cons_of_mem _ hh)
      cases x with
      | signal => exact absurd List.mem_cons_self hs
      | main =>
        have h1 := dist_main hooks panics hd hw
        have h2 := leaving_step hooks panics h (x := .main) (by simp)
        exact Nat.lt_of_le_of_lt (leaving_run hooks panics h2.1 hs').2 h1
      | g =>
        have hm' : Step.main ∈ r := by simpa using hm
        have h2 := leaving_step hooks panics h (x := .g) (by simp)
        have h3 := (leaving_run hooks panics h2.1 hs').2
        rcases Nat.lt_or_eq_of_le h2.2 with hlt | heq
        · exact Nat.lt_of_le_of_lt h3 hlt
        · rw [List.foldl_cons]
          have hd2 : dist (step hooks panics s .g) ≠ 0 := by rw [heq]; exact hd
          have hw2 : (step hooks panics s .g).main ≠ .waiting := by
            intro hh
            apply hw
            unfold step at hh
            split at hh
            · exact hh
            · simp only at hh
              unfold onG at hh
              split at hh <;> try exact hh
              split at hh
              · rename_i hmw; exact hmw
              · exact hh
          rw [← heq]
          by_cases hg' : Step.g ∈ r
          · exact ih h2.1 hd2 hs' hg' hm' hw2
          · cases r with
            | nil => cases hm'
            | cons y r =>
              cases y with
              | signal => exact absurd List.mem_cons_self hs'
              | g => exact absurd List.mem_cons_self hg'
              | main =>
                have h5 := dist_main hooks panics hd2 hw2
                have h6 := leaving_step hooks panics h2.1 (x := .main) (by simp)
                exact Nat.lt_of_le_of_lt (leaving_run hooks panics h6.1 (fun hh => hs' (List.mem_cons_of_mem _ hh))).2 h5

/-- C83: if a signal arrives while the goroutine is waiting for one, no hook panics and no further signal comes, then the process ends by
`os.Exit(0)` after running all hooks - in every schedule that lets both goroutines run again and again (`rounds`: stretches in which
each of them gets at least one step). -/
theorem graceful_partial (hp : ∀ h ∈ hooks, panics h = false) (before : List Step)
    (hw : (run hooks panics before).g = .waiting) (he : (run hooks panics before).ended = none)
    (rounds : List (List Step)) (hr : ∀ r ∈ rounds, .g ∈ r ∧ .main ∈ r ∧ .signal ∉ r) (hn : hooks.length + 5 ≤ rounds.length) :
    (run hooks panics (before ++ .signal :: rounds.flatten)).ended = some .exit ∧
    (run hooks panics (before ++ .signal :: rounds.flatten)).ran = hooks := by
  have hrun : run hooks panics (before ++ .signal :: rounds.flatten) =
      rounds.flatten.foldl (step hooks panics) (step hooks panics (run hooks panics before) .signal) := by
    simp [run]
  have key : (run hooks panics (before ++ .signal :: rounds.flatten)).ended = some .exit := by
    rw [hrun]
    have hinv := inv_run hooks panics before
    generalize run hooks panics before = s0 at *
    obtain ⟨g, main, ran, ended⟩ := s0
    simp only at hw he
    subst hw he
    obtain ⟨_, h2, _, _⟩ := hinv
    have hml : main ≠ .leaving := fun hh => by
      obtain ⟨p, hp⟩ := h2.1 hh
      cases hp
    have hL : Leaving panics (step hooks panics ⟨.waiting, main, ran, none⟩ .signal) := by
      simp only [step, onSignal, Option.isSome_none, Bool.false_eq_true, if_false]
      exact .inr ⟨rfl, .inl ⟨⟨hooks, rfl, hp⟩, hml⟩⟩
    have hD : dist (step hooks panics ⟨.waiting, main, ran, none⟩ .signal) ≤ rounds.length := by
      have : distMain main ≤ 2 := by cases main <;> decide
      simp only [step, onSignal, dist, distG, Option.isSome_none, Bool.false_eq_true, if_false]
      omega
    generalize step hooks panics ⟨.waiting, main, ran, none⟩ .signal = s at *
    clear hn hrun
    have fin : ∀ s : State E, Leaving panics s → dist s = 0 → s.ended = some .exit := by
      intro s h hd
      rcases h with h | ⟨he, h⟩
      · exact h
      · simp only [dist, he, Option.isSome_none, Bool.false_eq_true, if_false] at hd
        have : 0 < distMain s.main := by cases s.main <;> decide
        omega
    induction rounds generalizing s with
    | nil => exact fin s hL (by simpa using hD)
    | cons r rounds ih =>
      rw [List.flatten_cons, List.foldl_append]
      obtain ⟨q1, q2, q3⟩ := hr r (by simp)
      obtain ⟨l1, l2⟩ := leaving_run hooks panics hL q3
      refine ih (fun r hr' => hr r (List.mem_cons_of_mem _ hr')) _ l1 ?_
      · by_cases hz : dist s = 0
        · omega
        · have := round_progress hooks panics hL hz q3 q1 q2
          simp only [List.length_cons] at hD
          omega
  exact ⟨key, exit_after_hooks_partial hooks panics hp _ key⟩

theorem distinct_of_run {m m' : Events.Registry E} {h : List (Events.Op E × Events.Out E)} (hd : Events.Distinct m)
    (hr : Events.Run m h m') : Events.Distinct m' := by
  induction hr with
  | nil => exact hd
  | cons hs _ ih => exact ih (Events.step_refines hd hs).2

/-- The functions `GracefullyShutdown` runs: those of all entries registered as shutdown hooks, each once. -/
theorem gracefullyShutdown_perm {m : Events.Registry E} (hd : Events.Distinct m) {order : List Bytes}
    (ho : Events.RangeOrder m order) :
    (Events.gracefullyShutdown m order).Perm ((m.filter fun p => Events.shutdownPrefix.isPrefixOf p.1).flatMap Prod.snd) := by
  unfold Events.gracefullyShutdown Events.fuzzyCall
  refine (List.Perm.flatMap_right _ ho).trans ?_
  rw [List.flatMap_map]
  have key : ∀ l : Events.Registry E, (∀ p ∈ l, Events.load m p.1 = some p.2) →
      (l.flatMap fun p => if Events.shutdownPrefix.isPrefixOf p.1 then Events.call m Events.shutdownPrefix p.1 else []) =
      (l.filter fun p => Events.shutdownPrefix.isPrefixOf p.1).flatMap Prod.snd := by
    intro l hl
    induction l with
    | nil => rfl
    | cons p l ih =>
      rw [List.flatMap_cons, ih (fun q hq => hl q (List.mem_cons_of_mem _ hq))]
      by_cases hp : Events.shutdownPrefix.isPrefixOf p.1 = true
      · rw [if_pos hp, List.filter_cons, if_pos hp, List.flatMap_cons]
        congr 1
        have hk := Events.fullKey_of_prefix (pre := Events.shutdownPrefix) (key := p.1) (by simpa using hp)
        simp only [Events.call, Events.get, hk, hl p (by simp)]
      · rw [if_neg hp, List.filter_cons, if_neg hp, List.nil_append]
  rw [key m ?_]
  intro p hp
  unfold Events.load
  clear ho key
  induction m with
  | nil => cases hp
  | cons q m ih =>
    unfold Events.Distinct at hd
    rw [List.map_cons, List.nodup_cons] at hd
    rcases List.mem_cons.1 hp with rfl | hp'
    · simp
    · have hne : q.1 ≠ p.1 := fun he => hd.1 (he ▸ List.mem_map_of_mem hp')
      rw [List.find?_cons_of_neg (by simpa using hne)]
      exact ih hd.2 hp'

/-- C83 for the registry of hooks: after any history of registrations and deletions, a signal to a waiting process whose hooks do not
panic makes every function registered as a shutdown hook run exactly once before the process exits. -/
theorem registered_hooks_run_partial {m : Events.Registry E} {hist : List (Events.Op E × Events.Out E)} (hreg : Events.Run [] hist m)
    {order : List Bytes} (ho : Events.RangeOrder m order)
    (hp : ∀ h ∈ Events.gracefullyShutdown m order, panics h = false) (before : List Step)
    (hw : (run (Events.gracefullyShutdown m order) panics before).g = .waiting)
    (he : (run (Events.gracefullyShutdown m order) panics before).ended = none)
    (rounds : List (List Step)) (hr : ∀ r ∈ rounds, .g ∈ r ∧ .main ∈ r ∧ .signal ∉ r)
    (hn : (Events.gracefullyShutdown m order).length + 5 ≤ rounds.length) :
    (run (Events.gracefullyShutdown m order) panics (before ++ .signal :: rounds.flatten)).ended = some .exit ∧
    (run (Events.gracefullyShutdown m order) panics (before ++ .signal :: rounds.flatten)).ran.Perm
      ((m.filter fun p => ascii "graceful_shutdown_hooker_" <+: p.1).flatMap Prod.snd) := by
  obtain ⟨h1, h2⟩ := graceful_partial _ panics hp before hw he rounds hr hn
  refine ⟨h1, ?_⟩
  rw [h2]
  have e : (fun p : Bytes × List E => decide (ascii "graceful_shutdown_hooker_" <+: p.1)) = fun p => Events.shutdownPrefix.isPrefixOf p.1 := by
    funext p
    rw [Bool.eq_iff_iff, decide_eq_true_iff, List.isPrefixOf_iff_prefix]
    rfl
  rw [e]
  exact gracefullyShutdown_perm (distinct_of_run (m := []) List.nodup_nil hreg) ho

/-- C83 fails (1): a signal that arrives after the goroutine asked for signals and before it waits for one is lost. Whatever happens
afterwards, without a further signal the process never ends and no hook ever runs. -/
theorem signal_lost_fails (a b : List Step) (ha : (run hooks panics a).g = .ready)
    (hs : Step.signal ∉ b) (hna : Step.signal ∉ a) :
    (run hooks panics (a ++ .signal :: b)).ended = none ∧ (run hooks panics (a ++ .signal :: b)).ran = [] := by
  have key : ∀ s : State E, (s.g = .start ∨ s.g = .ready ∨ s.g = .waiting) → s.ended = none → s.ran = [] → s.main ≠ .leaving →
      ∀ b : List Step, Step.signal ∉ b → (b.foldl (step hooks panics) s).ended = none ∧ (b.foldl (step hooks panics) s).ran = [] ∧
        (b.foldl (step hooks panics) s).main ≠ .leaving := by
    intro s h1 h2 h3 h4 b hb
    induction b generalizing s with
    | nil => exact ⟨h2, h3, h4⟩
    | cons x b ih =>
      obtain ⟨g, main, ran, ended⟩ := s
      simp only at h1 h2 h3 h4
      subst h2 h3
      rw [List.foldl_cons]
      have hb' : Step.signal ∉ b := fun hh => hb (List.mem_cons_of_mem _ hh)
      cases x with
      | signal => exact absurd List.mem_cons_self hb
      | g =>
        rcases h1 with rfl | rfl | rfl
        · exact ih _ (by simp [step, onG]) (by simp [step, onG]) (by simp [step, onG]) (by simpa [step, onG] using h4) hb'
        · exact ih _ (by simp [step, onG]) (by simp [step, onG]) (by simp [step, onG]) (by simpa [step, onG] using h4) hb'
        · exact ih _ (by simp [step, onG]) (by simp [step, onG]) (by simp [step, onG]) (by simpa [step, onG] using h4) hb'
      | main =>
        cases main with
        | busy => exact ih _ (by simpa [step, onMain] using h1) (by simp [step, onMain]) (by simp [step, onMain]) (by simp [step, onMain]) hb'
        | waiting => exact ih _ (by simpa [step, onMain] using h1) (by simp [step, onMain]) (by simp [step, onMain]) (by simp [step, onMain]) hb'
        | leaving => exact absurd rfl h4
  have h0 := key {} (.inl rfl) rfl rfl (by simp) a hna
  have hrun : run hooks panics (a ++ .signal :: b) =
      b.foldl (step hooks panics) (step hooks panics (run hooks panics a) .signal) := by simp [run]
  have hsame : step hooks panics (run hooks panics a) .signal = run hooks panics a := by
    unfold step
    split
    · rfl
    · simp [onSignal, ha]
  rw [hrun, hsame]
  have := key (run hooks panics a) (.inr (.inl ha)) h0.1 h0.2.1 h0.2.2 b hs
  exact ⟨this.1, this.2.1⟩

/-- C83 fails (2): a hook that panics keeps all hooks after it from running, in every schedule. -/
theorem panic_skips_fails (pre post : List E) (h : E) (hh : hooks = pre ++ h :: post) (hpan : panics h = true)
    (steps : List Step) : (run hooks panics steps).ran <+: pre ++ [h] := by
  have hpre := hooks_at_most_once hooks panics steps
  have hi := (inv_run hooks panics steps).1
  have hlt : (run hooks panics steps).ran <+: pre ++ [h] ∨ pre ++ [h] <+: (run hooks panics steps).ran := by
    apply List.prefix_or_prefix_of_prefix hpre
    exact ⟨post, by rw [hh]; simp⟩
  rcases hlt with hlt | ⟨t, ht⟩
  · exact hlt
  · -- the panicking hook ran, so it was the last one
    have hmem : h ∈ (run hooks panics steps).ran := by rw [← ht]; simp
    generalize run hooks panics steps = s at *
    split at hi
    · rw [hi] at hmem; cases hmem
    · rw [hi] at hmem; cases hmem
    · rw [hi] at hmem; cases hmem
    · rw [hi.2 h hmem] at hpan; cases hpan
    all_goals
      rename_i p _
      cases p with
      | false => rw [(hi.1 rfl).2 h hmem] at hpan; cases hpan
      | true =>
        obtain ⟨pre', x, post', e1, e2, e3, e4⟩ := hi.2 rfl
        cases t with
        | nil => rw [List.append_nil] at ht; rw [← ht]; exact List.prefix_rfl
        | cons y t =>
          exfalso
          rw [e2] at ht
          have : h ∈ pre' := by
            have h1 : (pre ++ h :: (y :: t)).dropLast = pre' := by
              have : pre ++ [h] ++ y :: t = pre ++ h :: y :: t := by simp
              rw [this] at ht
              rw [ht, List.dropLast_concat]
            rw [← h1, List.dropLast_append_of_ne_nil (by simp)]
            simp
          rw [e4 h this] at hpan
          cases hpan

/-- C83 fails (3): a signal before the goroutine has asked for signals ends the process without running any hook. -/
theorem early_signal_fails (b : List Step) :
    (run hooks panics (.signal :: b)).ended = some .killed ∧ (run hooks panics (.signal :: b)).ran = [] := by
  have : ∀ s : State E, s.ended = some .killed → s.ran = [] → (b.foldl (step hooks panics) s).ended = some .killed ∧
      (b.foldl (step hooks panics) s).ran = [] := by
    intro s h1 h2
    induction b generalizing s with
    | nil => exact ⟨h1, h2⟩
    | cons x b ih =>
      rw [List.foldl_cons]
      have : step hooks panics s x = s := by simp [step, h1]
      rw [this]; exact ih s h1 h2
  exact this _ rfl rfl

/-- C83 fails (4): a second signal that arrives while the process is leaving makes it end by a panic (the channel is closed already). -/
theorem second_signal_fails (a : List Step) (p : Bool) (ha : (run hooks panics a).g = .telling p)
    (he : (run hooks panics a).ended = none) : (run hooks panics (a ++ [.signal])).ended = some .panic := by
  rw [run_snoc]
  simp [step, he, onSignal, ha]

/-- Two hooks (1 and 2). Normal shutdown; a lost signal; a panicking first hook; a second signal. -/
example : let ok : Nat → Bool := fun _ => false
    (run [1, 2] ok [.g, .g, .main, .signal, .g, .g, .g, .g, .g, .main]).ended = some .exit ∧
    (run [1, 2] ok [.g, .g, .main, .signal, .g, .g, .g, .g, .g, .main]).ran = [1, 2] ∧
    (run [1, 2] ok [.g, .signal, .g, .main, .g, .main]).ended = none ∧
    (run [1, 2] (· == 1) [.g, .g, .main, .signal, .g, .g, .g, .main]).ran = [1] ∧
    (run [1, 2] ok [.g, .g, .main, .signal, .g, .g, .g, .g, .signal]).ended = some .panic := by decide

/-- The hypotheses of `graceful_partial` are met: the goroutine waits after two steps. -/
example : (run [1, 2] (fun _ => false) [.g, .g]).g = .waiting ∧ (run [1, 2] (fun _ => false) [.g]).g = .ready := by decide

end Gosms.Shutdown
