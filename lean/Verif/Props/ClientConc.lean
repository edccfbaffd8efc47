import Verif.Model.ClientConc
import Verif.Go.Bytes

/-!
# C61: closing a client session; C70: sending and receiving while it closes
-/

namespace Gosms.ClientConc
open Gosms.ClientLogin (Stat)

theorem run_snoc (role : Nat → Role) (sched : List (Nat × Bool)) (x : Nat × Bool) :
    run role (sched ++ [x]) = step role (run role sched) x := by
  unfold run; rw [List.foldl_append]; rfl

/-- The goroutine holds the mutex. -/
def Holds : Pc → Prop
  | .c2 | .c3 | .c4 | .c5 | .c6 => True
  | _ => False

instance (p : Pc) : Decidable (Holds p) := by cases p <;> unfold Holds <;> infer_instance

structure Inv (s : State) : Prop where
  holder : ∀ t, Holds (s.pc t) → s.lock = some t
  held : ∀ t, s.lock = some t → Holds (s.pc t)
  conTrue : s.con = true → s.closes = 0 ∨ ∃ t, s.pc t = .c4 ∨ s.pc t = .c5
  fresh : ∀ t, s.pc t = .c4 ∨ s.pc t = .c5 → s.con = true ∧ s.closes = 1
  conFalse : s.con = false → s.closes = 1
  sent : 0 < s.cancel → s.closes = 1 ∧ ∀ t, s.pc t ≠ .c4
  statAfter : s.closes = 1 ∨ (∃ t, s.pc t = .c3) → s.stat = .closing

theorem inv_goto_other {s s' : State} {t : Nat} {p : Pc} (h : Inv s) (hs : s' = s.goto t p)
    (h1 : ¬ Holds (s.pc t)) (h2 : ¬ Holds p) : Inv s' := by
  subst hs
  have pcs : ∀ u, (s.goto t p).pc u = if u = t then p else s.pc u := fun _ => rfl
  have lk : (s.goto t p).lock = s.lock := rfl
  constructor
  · intro u hu
    rw [pcs] at hu
    split at hu
    · exact absurd hu h2
    · exact h.holder u hu
  · intro u hu
    rw [pcs]
    have := h.held u hu
    split
    · rename_i e; rw [e] at this; exact absurd this h1
    · exact this
  · intro hc
    rcases h.conTrue hc with h3 | ⟨u, h3⟩
    · exact Or.inl h3
    · right
      refine ⟨u, ?_⟩
      rw [pcs, if_neg]
      · exact h3
      · intro e; subst e; rcases h3 with h3 | h3 <;> rw [h3] at h1 <;> exact h1 trivial
  · intro u hu
    rw [pcs] at hu
    split at hu
    · rcases hu with hu | hu <;> rw [hu] at h2 <;> exact absurd trivial h2
    · exact h.fresh u hu
  · exact h.conFalse
  · intro hc
    refine ⟨(h.sent hc).1, ?_⟩
    intro u hu
    rw [pcs] at hu
    split at hu
    · rw [hu] at h2; exact h2 trivial
    · exact (h.sent hc).2 u hu
  · intro hc
    apply h.statAfter
    rcases hc with hc | ⟨u, hu⟩
    · exact Or.inl hc
    · right
      rw [pcs] at hu
      split at hu
      · rw [hu] at h2; exact absurd trivial h2
      · exact ⟨u, hu⟩

theorem enterClose_inv {s : State} {t : Nat} (h : Inv s) (h1 : ¬ Holds (s.pc t)) : Inv (enterClose s t) := by
  unfold enterClose
  split
  · exact inv_goto_other h rfl h1 (fun h => h)
  · exact inv_goto_other h rfl h1 (fun h => h)

theorem inv_panic {s : State} (h : Inv s) : Inv s.panic :=
  ⟨h.holder, h.held, h.conTrue, h.fresh, h.conFalse, h.sent, h.statAfter⟩

theorem inv_step (role : Nat → Role) {s : State} (h : Inv s) (x : Nat × Bool) : Inv (step role s x) := by
  obtain ⟨t, fail⟩ := x
  unfold step
  dsimp only
  by_cases hp : s.panicked = true
  · rw [if_pos hp]; exact h
  rw [if_neg hp]
  have only : ∀ u, Holds (s.pc t) → Holds (s.pc u) → u = t := by
    intro u ht hu
    have h1 := h.holder t ht
    have h2 := h.holder u hu
    rw [h1] at h2
    injection h2 with h2
    exact h2.symm
  cases hpc : s.pc t with
  | start =>
    have hn : ¬ Holds (s.pc t) := by rw [hpc]; exact fun h => h
    dsimp only
    cases role t with
    | close => exact enterClose_inv h hn
    | recv =>
      dsimp only
      split
      · rename_i hc
        refine inv_goto_other (s := { s with cancel := s.cancel - 1 }) ?_ rfl hn (fun h => h)
        refine ⟨h.holder, h.held, h.conTrue, h.fresh, h.conFalse, ?_, h.statAfter⟩
        intro _
        exact h.sent hc
      · exact inv_goto_other h rfl hn (fun h => h)
    | send =>
      dsimp only
      split
      · exact inv_goto_other h rfl hn (fun h => h)
      · exact inv_goto_other h rfl hn (fun h => h)
  | r1 =>
    have hn : ¬ Holds (s.pc t) := by rw [hpc]; exact fun h => h
    dsimp only
    split
    · exact inv_goto_other h rfl hn (fun h => h)
    · exact inv_goto_other h rfl hn (fun h => h)
  | r2 =>
    have hn : ¬ Holds (s.pc t) := by rw [hpc]; exact fun h => h
    dsimp only
    split
    · split
      · exact enterClose_inv h hn
      · exact inv_goto_other h rfl hn (fun h => h)
    · exact inv_panic h
  | s1 =>
    have hn : ¬ Holds (s.pc t) := by rw [hpc]; exact fun h => h
    dsimp only
    split
    · exact inv_goto_other h rfl hn (fun h => h)
    · exact inv_panic h
  | s2 =>
    have hn : ¬ Holds (s.pc t) := by rw [hpc]; exact fun h => h
    dsimp only
    split
    · split
      · exact enterClose_inv h hn
      · exact inv_goto_other h rfl hn (fun h => h)
    · exact inv_panic h
  | done => exact h
  | c1 =>
    dsimp only
    split
    · rename_i hl
      have hnone : ∀ u, ¬ Holds (s.pc u) := by
        intro u hu
        have := h.holder u hu
        rw [hl] at this
        cases this
      have pcs : ∀ u, ({ s with lock := some t }.goto t .c2).pc u = if u = t then .c2 else s.pc u := fun _ => rfl
      constructor
      · intro u hu
        rw [pcs] at hu
        split at hu
        · rename_i e; rw [e]; rfl
        · exact absurd hu (hnone u)
      · intro u hu
        injection hu with hu
        rw [pcs, if_pos hu.symm]
        trivial
      · intro hc
        rcases h.conTrue hc with h3 | ⟨u, h3⟩
        · exact Or.inl h3
        · exfalso; apply hnone u; rcases h3 with h3 | h3 <;> rw [h3] <;> trivial
      · intro u hu
        rw [pcs] at hu
        split at hu
        · rcases hu with hu | hu <;> cases hu
        · exact h.fresh u hu
      · exact h.conFalse
      · intro hc
        refine ⟨(h.sent hc).1, ?_⟩
        intro u hu
        rw [pcs] at hu
        split at hu
        · cases hu
        · exact (h.sent hc).2 u hu
      · intro hc
        apply h.statAfter
        rcases hc with hc | ⟨u, hu⟩
        · exact Or.inl hc
        · right
          rw [pcs] at hu
          split at hu
          · cases hu
          · exact ⟨u, hu⟩
    · exact h
  | c2 =>
    dsimp only
    have hH : Holds (s.pc t) := by rw [hpc]; trivial
    have pcs : ∀ u, ({ s with stat := .closing }.goto t .c3).pc u = if u = t then .c3 else s.pc u := fun _ => rfl
    constructor
    · intro u hu
      rw [pcs] at hu
      split at hu
      · rename_i e; rw [e]; exact h.holder t hH
      · exact h.holder u hu
    · intro u hu
      rw [pcs]
      split
      · trivial
      · exact h.held u hu
    · intro hc
      rcases h.conTrue hc with h3 | ⟨u, h3⟩
      · exact Or.inl h3
      · right
        refine ⟨u, ?_⟩
        rw [pcs, if_neg]
        · exact h3
        · intro e; subst e; rw [hpc] at h3; rcases h3 with h3 | h3 <;> cases h3
    · intro u hu
      rw [pcs] at hu
      split at hu
      · rcases hu with hu | hu <;> cases hu
      · exact h.fresh u hu
    · exact h.conFalse
    · intro hc
      refine ⟨(h.sent hc).1, ?_⟩
      intro u hu
      rw [pcs] at hu
      split at hu
      · cases hu
      · exact (h.sent hc).2 u hu
    · intro _; rfl
  | c3 =>
    dsimp only
    have hH : Holds (s.pc t) := by rw [hpc]; trivial
    split
    · rename_i hcon
      have h0 : s.closes = 0 := by
        rcases h.conTrue hcon with h3 | ⟨u, h3⟩
        · exact h3
        · have : u = t := only u hH (by rcases h3 with h3 | h3 <;> rw [h3] <;> trivial)
          subst this
          rw [hpc] at h3
          rcases h3 with h3 | h3 <;> cases h3
      have pcs : ∀ u, ({ s with closes := s.closes + 1 }.goto t .c4).pc u = if u = t then .c4 else s.pc u := fun _ => rfl
      constructor
      · intro u hu
        rw [pcs] at hu
        split at hu
        · rename_i e; rw [e]; exact h.holder t hH
        · exact h.holder u hu
      · intro u hu
        rw [pcs]
        split
        · trivial
        · exact h.held u hu
      · intro _
        right
        exact ⟨t, by rw [pcs, if_pos rfl]; exact Or.inl rfl⟩
      · intro u hu
        refine ⟨hcon, ?_⟩
        show s.closes + 1 = 1
        omega
      · intro hc
        have : s.con = false := hc
        rw [hcon] at this
        cases this
      · intro hc
        have := (h.sent hc).1
        omega
      · intro _
        exact h.statAfter (Or.inr ⟨t, hpc⟩)
    · exact inv_panic h
  | c4 =>
    dsimp only
    have hH : Holds (s.pc t) := by rw [hpc]; trivial
    have hf := h.fresh t (Or.inl hpc)
    split
    · have pcs : ∀ u, ({ s with cancel := s.cancel + 1 }.goto t .c5).pc u = if u = t then .c5 else s.pc u := fun _ => rfl
      constructor
      · intro u hu
        rw [pcs] at hu
        split at hu
        · rename_i e; rw [e]; exact h.holder t hH
        · exact h.holder u hu
      · intro u hu
        rw [pcs]
        split
        · trivial
        · exact h.held u hu
      · intro _
        right
        exact ⟨t, by rw [pcs, if_pos rfl]; exact Or.inr rfl⟩
      · intro u hu
        exact hf
      · intro hc
        have : s.con = false := hc
        rw [hf.1] at this
        cases this
      · intro hc
        refine ⟨hf.2, ?_⟩
        intro u hu
        rw [pcs] at hu
        split at hu
        · cases hu
        · rename_i e; exact e (only u hH (by rw [hu]; trivial))
      · intro _
        exact h.statAfter (Or.inl hf.2)
    · exact h
  | c5 =>
    dsimp only
    have hH : Holds (s.pc t) := by rw [hpc]; trivial
    have hf := h.fresh t (Or.inr hpc)
    have pcs : ∀ u, ({ s with con := false }.goto t .c6).pc u = if u = t then .c6 else s.pc u := fun _ => rfl
    constructor
    · intro u hu
      rw [pcs] at hu
      split at hu
      · rename_i e; rw [e]; exact h.holder t hH
      · exact h.holder u hu
    · intro u hu
      rw [pcs]
      split
      · trivial
      · exact h.held u hu
    · intro hc
      cases hc
    · intro u hu
      rw [pcs] at hu
      split at hu
      · rcases hu with hu | hu <;> cases hu
      · rename_i e
        exact absurd (only u hH (by rcases hu with hu | hu <;> rw [hu] <;> trivial)) e
    · intro _; exact hf.2
    · intro hc
      refine ⟨hf.2, ?_⟩
      intro u hu
      rw [pcs] at hu
      split at hu
      · cases hu
      · rename_i e; exact e (only u hH (by rw [hu]; trivial))
    · intro _
      exact h.statAfter (Or.inl hf.2)
  | c6 =>
    dsimp only
    have hH : Holds (s.pc t) := by rw [hpc]; trivial
    have pcs : ∀ u, ({ s with auth := false, lock := none }.goto t .done).pc u = if u = t then .done else s.pc u := fun _ => rfl
    constructor
    · intro u hu
      rw [pcs] at hu
      split at hu
      · cases hu
      · rename_i e; exact absurd (only u hH hu) e
    · intro u hu
      cases hu
    · intro hc
      rcases h.conTrue hc with h3 | ⟨u, h3⟩
      · exact Or.inl h3
      · right
        refine ⟨u, ?_⟩
        rw [pcs, if_neg]
        · exact h3
        · intro e; subst e; rw [hpc] at h3; rcases h3 with h3 | h3 <;> cases h3
    · intro u hu
      rw [pcs] at hu
      split at hu
      · rcases hu with hu | hu <;> cases hu
      · exact h.fresh u hu
    · exact h.conFalse
    · intro hc
      refine ⟨(h.sent hc).1, ?_⟩
      intro u hu
      rw [pcs] at hu
      split at hu
      · cases hu
      · exact (h.sent hc).2 u hu
    · intro hc
      apply h.statAfter
      rcases hc with hc | ⟨u, hu⟩
      · exact Or.inl hc
      · right
        rw [pcs] at hu
        split at hu
        · cases hu
        · exact ⟨u, hu⟩

theorem inv_run (role : Nat → Role) (sched : List (Nat × Bool)) : Inv (run role sched) := by
  induction sched using snoc_induction with
  | nil =>
    constructor
    · intro t h; cases h
    · intro t h; cases h
    · intro _; exact Or.inl rfl
    · intro t h; rcases h with h | h <;> cases h
    · intro h; cases h
    · intro h; cases h
    · intro h
      rcases h with h | ⟨t, h⟩
      · cases h
      · cases h
  | snoc sched x ih => rw [run_snoc]; exact inv_step role ih x

/-- C61, first part, in every interleaving of any number of goroutines that close, send and receive: the connection
is closed at most once. -/
theorem closed_at_most_once (role : Nat → Role) (sched : List (Nat × Bool)) : (run role sched).closes ≤ 1 := by
  have h := inv_run role sched
  cases hc : (run role sched).con with
  | false => rw [h.conFalse hc]; exact Nat.le_refl 1
  | true =>
    rcases h.conTrue hc with h1 | ⟨t, h1⟩
    · omega
    · rw [(h.fresh t h1).2]; exact Nat.le_refl 1

/-- A goroutine that holds the mutex is never stuck: its next step takes it further, or ends the process. -/
theorem close_never_blocks (role : Nat → Role) (sched : List (Nat × Bool)) (t : Nat) (fail : Bool)
    (hl : (run role sched).lock = some t) (hp : (run role sched).panicked = false) :
    (run role (sched ++ [(t, fail)])).panicked = true ∨
    (run role (sched ++ [(t, fail)])).pc t ≠ (run role sched).pc t := by
  have h := inv_run role sched
  have hh := h.held t hl
  rw [run_snoc]
  unfold step
  simp only [hp, Bool.false_eq_true, if_false]
  cases hpc : (run role sched).pc t with
  | c2 => right; simp [State.goto]
  | c3 =>
    dsimp only
    split
    · right; simp [State.goto]
    · left; rfl
  | c4 =>
    dsimp only
    have : (run role sched).cancel = 0 := by
      cases hc : (run role sched).cancel with
      | zero => rfl
      | succ n => exact absurd hpc ((h.sent (by omega)).2 t)
    rw [if_pos (by omega)]
    right; simp [State.goto]
  | c5 => right; simp [State.goto]
  | c6 => right; simp [State.goto]
  | start => rw [hpc] at hh; cases hh
  | c1 => rw [hpc] at hh; cases hh
  | r1 => rw [hpc] at hh; cases hh
  | r2 => rw [hpc] at hh; cases hh
  | s1 => rw [hpc] at hh; cases hh
  | s2 => rw [hpc] at hh; cases hh
  | done => rw [hpc] at hh; cases hh

/-! ## Calls of `Close` one after the other -/

/-- No call of `Close` begins while another one is under way. -/
def NoOverlap (sched : List (Nat × Bool)) : Prop :=
  ∀ pre x post, sched = pre ++ x :: post → (run (fun _ => .close) pre).pc x.1 = .start →
    ∀ u, (run (fun _ => .close) pre).pc u = .start ∨ (run (fun _ => .close) pre).pc u = .done

theorem NoOverlap.init {sched : List (Nat × Bool)} {x : Nat × Bool} (h : NoOverlap (sched ++ [x])) : NoOverlap sched := by
  intro pre y post e hs
  exact h pre y (post ++ [x]) (by rw [e]; simp) hs

structure SeqInv (s : State) : Prop where
  noPanic : s.panicked = false
  pcs : ∀ t, s.pc t ≠ .r1 ∧ s.pc t ≠ .r2 ∧ s.pc t ≠ .s1 ∧ s.pc t ≠ .s2
  early : ∀ t, s.pc t = .c1 ∨ s.pc t = .c2 ∨ s.pc t = .c3 → s.con = true ∧ s.closes = 0
  fin : ∀ t, s.pc t = .c6 ∨ s.pc t = .done → s.con = false ∧ s.closes = 1
  one : ∀ t u, s.pc t ≠ .start → s.pc t ≠ .done → s.pc u ≠ .start → s.pc u ≠ .done → t = u
  quiet : (∀ t, s.pc t = .start ∨ s.pc t = .done) →
    (s.con = true ∧ s.closes = 0 ∧ s.stat ≠ .closing) ∨ (s.con = false ∧ s.closes = 1 ∧ s.stat = .closing)

/-- A step that moves goroutine `t` from one place inside `Close` to the next. -/
theorem SeqInv.move {s s' : State} {t : Nat} {p : Pc} (h : SeqInv s) (hpc : s'.pc = (s.goto t p).pc)
    (hin : s.pc t ≠ .start ∧ s.pc t ≠ .done) (hp : p ≠ .start ∧ p ≠ .done)
    (hpp : p ≠ .r1 ∧ p ≠ .r2 ∧ p ≠ .s1 ∧ p ≠ .s2)
    (hpan : s'.panicked = false)
    (he : p = .c1 ∨ p = .c2 ∨ p = .c3 → s'.con = true ∧ s'.closes = 0)
    (hf : p = .c6 → s'.con = false ∧ s'.closes = 1)
    (hd : ∀ u, s.pc u = .done → s'.con = false ∧ s'.closes = 1) : SeqInv s' := by
  have pcs : ∀ u, s'.pc u = if u = t then p else s.pc u := by intro u; rw [hpc]; rfl
  constructor
  · exact hpan
  · intro u
    rw [pcs]
    split
    · exact hpp
    · exact h.pcs u
  · intro u hu
    rw [pcs] at hu
    split at hu
    · exact he hu
    · rename_i e
      exact absurd (h.one u t (by rcases hu with hu | hu | hu <;> rw [hu] <;> exact fun h => by cases h)
        (by rcases hu with hu | hu | hu <;> rw [hu] <;> exact fun h => by cases h) hin.1 hin.2) e
  · intro u hu
    rw [pcs] at hu
    split at hu
    · rcases hu with hu | hu
      · exact hf hu
      · exact absurd hu hp.2
    · rename_i e
      rcases hu with hu | hu
      · exact absurd (h.one u t (by rw [hu]; exact fun h => by cases h) (by rw [hu]; exact fun h => by cases h) hin.1 hin.2) e
      · exact hd u hu
  · intro u v hu1 hu2 hv1 hv2
    rw [pcs] at hu1 hu2 hv1 hv2
    split at hu1
    · rename_i e1
      split at hv1
      · rename_i e2; rw [e1, e2]
      · rename_i e2
        rw [if_neg e2] at hv2
        exact absurd (h.one v t hv1 hv2 hin.1 hin.2) e2
    · rename_i e1
      rw [if_neg e1] at hu2
      exact absurd (h.one u t hu1 hu2 hin.1 hin.2) e1
  · intro hq
    have := hq t
    rw [pcs, if_pos rfl] at this
    rcases this with h1 | h1
    · exact absurd h1 hp.1
    · exact absurd h1 hp.2

theorem seq_inv (sched : List (Nat × Bool)) (hn : NoOverlap sched) : SeqInv (run (fun _ => .close) sched) := by
  induction sched using snoc_induction with
  | nil =>
    constructor
    · rfl
    · intro t; exact ⟨fun h => (by cases h), fun h => (by cases h), fun h => (by cases h), fun h => (by cases h)⟩
    · intro t h; rcases h with h | h | h <;> cases h
    · intro t h; rcases h with h | h <;> cases h
    · intro t u h; exact absurd rfl h
    · intro _; exact Or.inl ⟨rfl, rfl, fun h => (by cases h)⟩
  | snoc sched x ih =>
    have h := ih hn.init
    have g := inv_run (fun _ => .close) sched
    have hstart := hn sched x [] rfl
    rw [run_snoc]
    generalize run (fun _ => .close) sched = s at h g hstart
    obtain ⟨t, fail⟩ := x
    unfold step
    dsimp only
    rw [if_neg (by rw [h.noPanic]; exact fun h => by cases h)]
    have np := h.pcs t
    cases hpc : s.pc t with
    | r1 => exact absurd hpc np.1
    | r2 => exact absurd hpc np.2.1
    | s1 => exact absurd hpc np.2.2.1
    | s2 => exact absurd hpc np.2.2.2
    | done => exact h
    | start =>
      have hq := hstart hpc
      dsimp only
      unfold enterClose
      have pcs : ∀ p u, (s.goto t p).pc u = if u = t then p else s.pc u := fun _ _ => rfl
      rcases h.quiet hq with ⟨c1, c2, c3⟩ | ⟨c1, c2, c3⟩
      · rw [if_neg c3]
        have nodone : ∀ u, s.pc u ≠ .done := by
          intro u hu
          have := (h.fin u (Or.inr hu)).2
          omega
        have allstart : ∀ u, s.pc u = .start := by
          intro u
          rcases hq u with h1 | h1
          · exact h1
          · exact absurd h1 (nodone u)
        constructor
        · exact h.noPanic
        · intro u
          rw [pcs]
          split
          · exact ⟨fun h => (by cases h), fun h => (by cases h), fun h => (by cases h), fun h => (by cases h)⟩
          · exact h.pcs u
        · intro u _; exact ⟨c1, c2⟩
        · intro u hu
          rw [pcs] at hu
          split at hu
          · rcases hu with hu | hu <;> cases hu
          · rw [allstart u] at hu; rcases hu with hu | hu <;> cases hu
        · intro u v hu1 _ hv1 _
          rw [pcs] at hu1 hv1
          split at hu1
          · rename_i e1
            split at hv1
            · rename_i e2; rw [e1, e2]
            · exact absurd (allstart v) hv1
          · exact absurd (allstart u) hu1
        · intro hq'
          have := hq' t
          rw [pcs, if_pos rfl] at this
          rcases this with h1 | h1 <;> cases h1
      · rw [if_pos c3]
        constructor
        · exact h.noPanic
        · intro u
          rw [pcs]
          split
          · exact ⟨fun h => (by cases h), fun h => (by cases h), fun h => (by cases h), fun h => (by cases h)⟩
          · exact h.pcs u
        · intro u hu
          rw [pcs] at hu
          split at hu
          · rcases hu with hu | hu | hu <;> cases hu
          · exact h.early u hu
        · intro _ _; exact ⟨c1, c2⟩
        · intro u v hu1 hu2 _ _
          rw [pcs] at hu1 hu2
          split at hu1
          · rename_i e; rw [if_pos e] at hu2; exact absurd rfl hu2
          · rename_i e
            rw [if_neg e] at hu2
            rcases hq u with h1 | h1
            · exact absurd h1 hu1
            · exact absurd h1 hu2
        · intro _; exact Or.inr ⟨c1, c2, c3⟩
    | c1 =>
      dsimp only
      have hE := h.early t (Or.inl hpc)
      split
      · refine h.move (p := .c2) rfl ?_ ?_ ?_ h.noPanic ?_ ?_ ?_
        · rw [hpc]; exact ⟨fun h => (by cases h), fun h => (by cases h)⟩
        · exact ⟨fun h => (by cases h), fun h => (by cases h)⟩
        · exact ⟨fun h => (by cases h), fun h => (by cases h), fun h => (by cases h), fun h => (by cases h)⟩
        · intro _; exact hE
        · intro h; cases h
        · intro u hu; exact h.fin u (Or.inr hu)
      · exact h
    | c2 =>
      dsimp only
      have hE := h.early t (Or.inr (Or.inl hpc))
      refine h.move (p := .c3) rfl ?_ ?_ ?_ h.noPanic ?_ ?_ ?_
      · rw [hpc]; exact ⟨fun h => (by cases h), fun h => (by cases h)⟩
      · exact ⟨fun h => (by cases h), fun h => (by cases h)⟩
      · exact ⟨fun h => (by cases h), fun h => (by cases h), fun h => (by cases h), fun h => (by cases h)⟩
      · intro _; exact hE
      · intro h; cases h
      · intro u hu; exact h.fin u (Or.inr hu)
    | c3 =>
      dsimp only
      have hE := h.early t (Or.inr (Or.inr hpc))
      rw [if_pos hE.1]
      refine h.move (p := .c4) rfl ?_ ?_ ?_ h.noPanic ?_ ?_ ?_
      · rw [hpc]; exact ⟨fun h => (by cases h), fun h => (by cases h)⟩
      · exact ⟨fun h => (by cases h), fun h => (by cases h)⟩
      · exact ⟨fun h => (by cases h), fun h => (by cases h), fun h => (by cases h), fun h => (by cases h)⟩
      · intro h; rcases h with h | h | h <;> cases h
      · intro h; cases h
      · intro u hu
        have := (h.fin u (Or.inr hu)).2
        omega
    | c4 =>
      dsimp only
      split
      · refine h.move (p := .c5) rfl ?_ ?_ ?_ h.noPanic ?_ ?_ ?_
        · rw [hpc]; exact ⟨fun h => (by cases h), fun h => (by cases h)⟩
        · exact ⟨fun h => (by cases h), fun h => (by cases h)⟩
        · exact ⟨fun h => (by cases h), fun h => (by cases h), fun h => (by cases h), fun h => (by cases h)⟩
        · intro h; rcases h with h | h | h <;> cases h
        · intro h; cases h
        · intro u hu; exact h.fin u (Or.inr hu)
      · exact h
    | c5 =>
      dsimp only
      have hf := g.fresh t (Or.inr hpc)
      refine h.move (p := .c6) rfl ?_ ?_ ?_ h.noPanic ?_ ?_ ?_
      · rw [hpc]; exact ⟨fun h => (by cases h), fun h => (by cases h)⟩
      · exact ⟨fun h => (by cases h), fun h => (by cases h)⟩
      · exact ⟨fun h => (by cases h), fun h => (by cases h), fun h => (by cases h), fun h => (by cases h)⟩
      · intro h; rcases h with h | h | h <;> cases h
      · intro _; exact ⟨rfl, hf.2⟩
      · intro u hu; exact ⟨rfl, (h.fin u (Or.inr hu)).2⟩
    | c6 =>
      dsimp only
      have hf := h.fin t (Or.inl hpc)
      have pcs : ∀ u, ({ s with auth := false, lock := none }.goto t .done).pc u = if u = t then .done else s.pc u := fun _ => rfl
      have rest : ∀ u, u ≠ t → s.pc u = .start ∨ s.pc u = .done := by
        intro u hu
        by_cases h1 : s.pc u = .start
        · exact Or.inl h1
        by_cases h2 : s.pc u = .done
        · exact Or.inr h2
        exact absurd (h.one u t h1 h2 (by rw [hpc]; exact fun h => by cases h) (by rw [hpc]; exact fun h => by cases h)) hu
      constructor
      · exact h.noPanic
      · intro u
        rw [pcs]
        split
        · exact ⟨fun h => (by cases h), fun h => (by cases h), fun h => (by cases h), fun h => (by cases h)⟩
        · exact h.pcs u
      · intro u hu
        rw [pcs] at hu
        split at hu
        · rcases hu with hu | hu | hu <;> cases hu
        · exact h.early u hu
      · intro _ _; exact hf
      · intro u v hu1 hu2 _ _
        rw [pcs] at hu1 hu2
        split at hu1
        · rename_i e; rw [if_pos e] at hu2; exact absurd rfl hu2
        · rename_i e
          rw [if_neg e] at hu2
          rcases rest u e with h1 | h1
          · exact absurd h1 hu1
          · exact absurd h1 hu2
      · intro _; exact Or.inr ⟨hf.1, hf.2, g.statAfter (Or.inl hf.2)⟩

/-- C61, the part that holds: if no call of `Close` begins while another is under way, then no call panics, and once a
call has returned the connection has been closed exactly once and the session no longer has it. Missing: overlapping
calls (`close_concurrent_fails`). -/
theorem close_partial (sched : List (Nat × Bool)) (hn : NoOverlap sched) :
    (run (fun _ => .close) sched).panicked = false ∧
    ∀ t, (run (fun _ => .close) sched).pc t = .done →
      (run (fun _ => .close) sched).closes = 1 ∧ (run (fun _ => .close) sched).con = false := by
  have h := seq_inv sched hn
  exact ⟨h.noPanic, fun t ht => ⟨(h.fin t (Or.inr ht)).2, (h.fin t (Or.inr ht)).1⟩⟩

/-- The steps of one call of `Close` by goroutine `t`. -/
def callOf (t : Nat) : List (Nat × Bool) := List.replicate 7 (t, false)

/-- C61 refuted: two overlapping calls. Whenever two different goroutines have both passed the unsynchronised test of
the state, the first call runs to its end and the second one then calls a method of a nil connection. -/
theorem close_concurrent_fails (t u : Nat) (h : t ≠ u) :
    (run (fun _ => .close) ((t, false) :: (u, false) :: (List.replicate 6 (t, false) ++ List.replicate 3 (u, false)))).panicked
      = true := by
  have h' : u ≠ t := fun e => h e.symm
  simp [run, List.replicate, step, enterClose, State.goto, State.panic, h, h']

/-- Non-vacuity of `close_partial`: two goroutines, one call after the other; the second one returns at once. -/
example : (run (fun _ => .close) (callOf 0 ++ callOf 1)).pc 0 = .done ∧ (run (fun _ => .close) (callOf 0 ++ callOf 1)).pc 1 = .done ∧
    (run (fun _ => .close) (callOf 0 ++ callOf 1)).closes = 1 := by decide

/-- A goroutine that is not scheduled stays at its start. -/
theorem pc_of_not_scheduled (role : Nat → Role) (sched : List (Nat × Bool)) (u : Nat) (h : ∀ x ∈ sched, x.1 ≠ u) :
    (run role sched).pc u = .start := by
  induction sched using snoc_induction with
  | nil => rfl
  | snoc sched x ih =>
    have hx : u ≠ x.1 := fun e => h x (by simp) e.symm
    have ih := ih (fun y hy => h y (by simp [hy]))
    rw [run_snoc]
    generalize run role sched = s at ih
    have key : ∀ (s' : State) (p : Pc), s'.pc = s.pc → (s'.goto x.1 p).pc u = .start := by
      intro s' p e
      show (if u = x.1 then p else s'.pc u) = .start
      rw [if_neg hx, e]; exact ih
    have key2 : (enterClose s x.1).pc u = .start := by
      unfold enterClose; split <;> exact key s _ rfl
    unfold step
    dsimp only
    split
    · exact ih
    · split
      · split
        · exact key2
        · split <;> exact key _ _ rfl
        · split <;> exact key _ _ rfl
      · split
        · exact key _ _ rfl
        · exact ih
      · exact key _ _ rfl
      · split
        · exact key _ _ rfl
        · exact ih
      · split
        · exact key _ _ rfl
        · exact ih
      · exact key _ _ rfl
      · exact key _ _ rfl
      · split <;> exact key _ _ rfl
      · split
        · split
          · exact key2
          · exact key _ _ rfl
        · exact ih
      · split
        · exact key _ _ rfl
        · exact ih
      · split
        · split
          · exact key2
          · exact key _ _ rfl
        · exact ih
      · exact ih

/-- Non-vacuity of `close_partial`: the schedule above is one without overlap. -/
example : NoOverlap (callOf 0 ++ callOf 1) := by
  intro pre x post e hs u
  have h1 : pre = (callOf 0 ++ callOf 1).take pre.length := by rw [e]; simp
  have h2 : (callOf 0 ++ callOf 1)[pre.length]? = some x := by rw [e]; simp
  have hlen : pre.length < 14 := by
    have := congrArg List.length e
    simp [callOf] at this
    omega
  have check : ∀ n, n < 14 → ∀ y, (callOf 0 ++ callOf 1)[n]? = some y →
      (run (fun _ => .close) ((callOf 0 ++ callOf 1).take n)).pc y.1 = .start →
      ∀ v, v < 2 → (run (fun _ => .close) ((callOf 0 ++ callOf 1).take n)).pc v = .start ∨
        (run (fun _ => .close) ((callOf 0 ++ callOf 1).take n)).pc v = .done := by
    intro n hn y hy
    have : y = ((callOf 0 ++ callOf 1)[n]?).getD (0, false) := by rw [hy]; rfl
    subst this
    revert n
    decide
  by_cases hu : u < 2
  · have := check pre.length hlen x h2
    rw [← h1] at this
    exact this hs u hu
  · left
    apply pc_of_not_scheduled
    intro y hy
    have : y ∈ callOf 0 ++ callOf 1 := by rw [e]; simp [hy]
    simp [callOf, List.replicate] at this
    rcases this with h | h <;> rw [h] <;> simp <;> omega

/-! ## C70 -/

/-- C70 refuted for senders: a goroutine found the session healthy, another one closes it, and the first one then reads
the account settings, now nil. Any two goroutines. -/
theorem send_while_closing_fails (role : Nat → Role) (t u : Nat) (ht : role t = .send) (hu : role u = .close) :
    (run role ((t, false) :: (callOf u ++ [(t, false)]))).panicked = true := by
  have h : t ≠ u := fun e => by rw [e, hu] at ht; cases ht
  have h' : u ≠ t := fun e => h e.symm
  simp [run, callOf, List.replicate, step, enterClose, State.goto, State.panic, State.healthy, ht, hu, h, h']

/-- C70 refuted for a sender that got further: its write goes to a nil connection. -/
theorem write_while_closing_fails (role : Nat → Role) (t u : Nat) (ht : role t = .send) (hu : role u = .close) :
    (run role ((t, false) :: (t, false) :: (callOf u ++ [(t, false)]))).panicked = true := by
  have h : t ≠ u := fun e => by rw [e, hu] at ht; cases ht
  have h' : u ≠ t := fun e => h e.symm
  simp [run, callOf, List.replicate, step, enterClose, State.goto, State.panic, State.healthy, ht, hu, h, h']

/-- C70 refuted for the receiver: between its test and its read the session is closed. -/
theorem receive_while_closing_fails (role : Nat → Role) (t u : Nat) (ht : role t = .recv) (hu : role u = .close) :
    (run role ((t, false) :: (t, false) :: (callOf u ++ [(t, false)]))).panicked = true := by
  have h : t ≠ u := fun e => by rw [e, hu] at ht; cases ht
  have h' : u ≠ t := fun e => h e.symm
  simp [run, callOf, List.replicate, step, enterClose, State.goto, State.panic, State.healthy, ht, hu, h, h']

/-- C70 refuted without anybody calling `Close`: two senders found the session healthy, the write of the first one fails,
which closes the session, and the second one panics. -/
theorem send_failure_fails (role : Nat → Role) (t u : Nat) (ht : role t = .send) (hu : role u = .send) (h : t ≠ u) :
    (run role ((t, false) :: (u, false) :: (u, false) :: (u, true) :: (List.replicate 6 (u, false) ++ [(t, false)]))).panicked
      = true := by
  have h' : u ≠ t := fun e => h e.symm
  simp [run, List.replicate, step, enterClose, State.goto, State.panic, State.healthy, ht, hu, h, h']

/-- C70, the part that holds: as long as nobody calls `Close` and no operation on the connection fails, nothing panics
and the session stays open, for any number of senders and receivers. Missing: the session is closed meanwhile
(`send_while_closing_fails`, `receive_while_closing_fails`, `send_failure_fails`). -/
theorem no_close_no_crash_partial (role : Nat → Role) (hr : ∀ t, role t ≠ .close) (sched : List (Nat × Bool))
    (hf : ∀ x ∈ sched, x.2 = false) :
    (run role sched).panicked = false ∧ (run role sched).closes = 0 ∧ (run role sched).healthy = true := by
  have main : (run role sched).panicked = false ∧ (run role sched).closes = 0 ∧ (run role sched).con = true ∧
      (run role sched).auth = true ∧ (run role sched).stat = .login ∧ (run role sched).cancel = 0 ∧
      ∀ t, (run role sched).pc t = .start ∨ (run role sched).pc t = .r1 ∨ (run role sched).pc t = .r2 ∨
        (run role sched).pc t = .s1 ∨ (run role sched).pc t = .s2 ∨ (run role sched).pc t = .done := by
    induction sched using snoc_induction with
    | nil => exact ⟨rfl, rfl, rfl, rfl, rfl, rfl, fun t => Or.inl rfl⟩
    | snoc sched x ih =>
      have hx := hf x (by simp)
      have ih := ih (fun y hy => hf y (by simp [hy]))
      rw [run_snoc]
      generalize run role sched = s at ih
      obtain ⟨i1, i2, i3, i4, i5, i6, i7⟩ := ih
      obtain ⟨t, fail⟩ := x
      dsimp only at hx
      subst hx
      have hh : s.healthy = true := by simp [State.healthy, i3, i4, i5]
      have key : ∀ p, (p = .start ∨ p = .r1 ∨ p = .r2 ∨ p = .s1 ∨ p = .s2 ∨ p = .done) →
          (s.goto t p).panicked = false ∧ (s.goto t p).closes = 0 ∧ (s.goto t p).con = true ∧ (s.goto t p).auth = true ∧
          (s.goto t p).stat = .login ∧ (s.goto t p).cancel = 0 ∧
          ∀ u, (s.goto t p).pc u = .start ∨ (s.goto t p).pc u = .r1 ∨ (s.goto t p).pc u = .r2 ∨
            (s.goto t p).pc u = .s1 ∨ (s.goto t p).pc u = .s2 ∨ (s.goto t p).pc u = .done := by
        intro p hp
        refine ⟨i1, i2, i3, i4, i5, i6, ?_⟩
        intro u
        by_cases e : u = t
        · have : (s.goto t p).pc u = p := if_pos e
          rw [this]; exact hp
        · have : (s.goto t p).pc u = s.pc u := if_neg e
          rw [this]; exact i7 u
      unfold step
      dsimp only
      rw [if_neg (by rw [i1]; exact fun h => by cases h)]
      rcases i7 t with h | h | h | h | h | h
      · rw [h]
        dsimp only
        have := hr t
        cases hrole : role t with
        | close => exact absurd hrole this
        | recv => dsimp only; rw [if_neg (by omega)]; exact key _ (by simp)
        | send => dsimp only; rw [if_pos hh]; exact key _ (by simp)
      · rw [h]; dsimp only; rw [if_pos hh]; exact key _ (by simp)
      · rw [h]; dsimp only; rw [if_pos i3, if_neg (fun h => by cases h)]; exact key _ (by simp)
      · rw [h]; dsimp only; rw [if_pos i4]; exact key _ (by simp)
      · rw [h]; dsimp only; rw [if_pos i3, if_neg (fun h => by cases h)]; exact key _ (by simp)
      · rw [h]; exact ⟨i1, i2, i3, i4, i5, i6, i7⟩
  obtain ⟨h1, h2, h3, h4, h5, _, _⟩ := main
  refine ⟨h1, h2, ?_⟩
  simp [State.healthy, h3, h4, h5]

/-- Non-vacuity: a sender and a receiver, interleaved. -/
example : (run (fun t => if t = 0 then .recv else .send) [(0, false), (1, false), (0, false), (1, false), (0, false), (1, false)]).pc 1
    = .done := by decide

/-- The account settings go after the connection. -/
theorem auth_after_con (role : Nat → Role) (sched : List (Nat × Bool)) :
    ((run role sched).auth = false → (run role sched).con = false) ∧
    (∀ t, (run role sched).pc t = .c6 → (run role sched).con = false) := by
  induction sched using snoc_induction with
  | nil => exact ⟨fun h => (by cases h), fun t h => (by cases h)⟩
  | snoc sched x ih =>
    rw [run_snoc]
    generalize run role sched = s at ih
    have key : ∀ (s' : State) (p : Pc), s'.auth = s.auth → s'.con = s.con → s'.pc = s.pc → p ≠ .c6 →
        ((s'.goto x.1 p).auth = false → (s'.goto x.1 p).con = false) ∧
        (∀ t, (s'.goto x.1 p).pc t = .c6 → (s'.goto x.1 p).con = false) := by
      intro s' p h1 h2 h3 h4
      refine ⟨fun h => h2.trans (ih.1 (h1.symm.trans h)), fun t ht => h2.trans (ih.2 t ?_)⟩
      have : (if t = x.1 then p else s'.pc t) = .c6 := ht
      split at this
      · exact absurd this h4
      · rw [← h3]; exact this
    have key2 : ((enterClose s x.1).auth = false → (enterClose s x.1).con = false) ∧
        (∀ t, (enterClose s x.1).pc t = .c6 → (enterClose s x.1).con = false) := by
      unfold enterClose; split <;> exact key s _ rfl rfl rfl (by simp)
    unfold step
    dsimp only
    split
    · exact ih
    · split
      · split
        · exact key2
        · split <;> exact key _ _ rfl rfl rfl (by simp)
        · split <;> exact key _ _ rfl rfl rfl (by simp)
      · split
        · exact key _ _ rfl rfl rfl (by simp)
        · exact ih
      · exact key _ _ rfl rfl rfl (by simp)
      · split
        · exact key _ _ rfl rfl rfl (by simp)
        · exact ih
      · split
        · exact key _ _ rfl rfl rfl (by simp)
        · exact ih
      · exact ⟨fun _ => rfl, fun _ _ => rfl⟩
      · rename_i h6
        exact ⟨fun _ => ih.2 _ h6, fun _ _ => ih.2 _ h6⟩
      · split <;> exact key _ _ rfl rfl rfl (by simp)
      · split
        · split
          · exact key2
          · exact key _ _ rfl rfl rfl (by simp)
        · exact ih
      · split
        · exact key _ _ rfl rfl rfl (by simp)
        · exact ih
      · split
        · split
          · exact key2
          · exact key _ _ rfl rfl rfl (by simp)
        · exact ih
      · exact ih

/-- In every interleaving the session passes for healthy exactly until `Close` begins. -/
theorem healthy_iff (role : Nat → Role) (sched : List (Nat × Bool)) :
    (run role sched).healthy = true ↔ (run role sched).stat = .login := by
  have h := inv_run role sched
  have ha := (auth_after_con role sched).1
  unfold State.healthy
  constructor
  · intro hh
    simp only [Bool.and_eq_true, beq_iff_eq] at hh
    exact hh.1.1
  · intro hl
    have hc : (run role sched).con = true := by
      cases hc : (run role sched).con with
      | true => rfl
      | false =>
        have := h.statAfter (Or.inl (h.conFalse hc))
        rw [hl] at this; cases this
    have hau : (run role sched).auth = true := by
      cases hau : (run role sched).auth with
      | true => rfl
      | false => rw [ha hau] at hc; cases hc
    simp [hl, hc, hau]

/-- C70: whoever comes after `Close` has begun leaves the session alone: a new sender returns without having touched it, and the
receiver ends at its next test; nothing else changes. And a session nobody has begun to close is used. In every interleaving. -/
theorem latecomers_leave (role : Nat → Role) (sched : List (Nat × Bool)) (t : Nat) (fail : Bool)
    (hp : (run role sched).panicked = false)
    (ht : (role t = .send ∧ (run role sched).pc t = .start) ∨ (run role sched).pc t = .r1) :
    let s := run role sched
    let s' := run role (sched ++ [(t, fail)])
    (s.stat = .closing → s'.pc t = .done) ∧ (s.stat = .login → s'.pc t = .s1 ∨ s'.pc t = .r2) ∧
    s'.panicked = false ∧ s'.stat = s.stat ∧ s'.con = s.con ∧ s'.auth = s.auth ∧ s'.cancel = s.cancel ∧ s'.closes = s.closes ∧
    ∀ u, u ≠ t → s'.pc u = s.pc u := by
  intro s s'
  have hh := healthy_iff role sched
  have hs' : s' = step role (run role sched) (t, fail) := run_snoc role sched _
  change s.healthy = true ↔ s.stat = .login at hh
  rw [show run role sched = s from rfl] at hs' hp ht
  have hstep : s' = if s.healthy then s.goto t (if s.pc t = .r1 then .r2 else .s1) else s.goto t .done := by
    rw [hs']
    unfold step
    simp only [hp, Bool.false_eq_true, if_false]
    rcases ht with ⟨h1, h2⟩ | h2
    · rw [h2]; simp [h1]
    · rw [h2]; simp
  have pcs : ∀ p u, (s.goto t p).pc u = if u = t then p else s.pc u := fun _ _ => rfl
  by_cases hl : s.stat = .login
  · rw [if_pos (hh.2 hl)] at hstep
    rw [hstep]
    refine ⟨fun h => ?_, fun _ => ?_, hp, rfl, rfl, rfl, rfl, rfl, fun u hu => ?_⟩
    · have : s.stat = .closing := h
      rw [hl] at this; cases this
    · rw [pcs, if_pos rfl]; split
      · exact Or.inr rfl
      · exact Or.inl rfl
    · rw [pcs, if_neg hu]
  · rw [if_neg (fun h => hl (hh.1 h))] at hstep
    rw [hstep]
    refine ⟨fun _ => ?_, fun h => absurd h hl, hp, rfl, rfl, rfl, rfl, rfl, fun u hu => ?_⟩
    · rw [pcs, if_pos rfl]
    · rw [pcs, if_neg hu]

/-- Non-vacuity: a sender that comes when another goroutine is in the middle of `Close`. -/
example : (run (fun t => if t = 0 then .close else .send) [(0, false), (0, false), (0, false)]).stat = .closing ∧
    (run (fun t => if t = 0 then .close else .send) [(0, false), (0, false), (0, false)]).auth = true := by decide

end Gosms.ClientConc
