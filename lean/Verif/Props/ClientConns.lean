import Verif.Model.ClientConns
import Verif.Props.ClientLogin

/-!
# C111 — every connection the client opens is used or closed
-/

namespace Gosms.ClientConns
open Gosms.ClientLogin

/-! ## Specification -/

namespace Spec

/-- The carrier refused: it could not be written to, or the read failed, or the answer is not an acceptance. -/
def Refused (p : Proto) (version : UInt8) (x : Step) : Prop :=
  ∃ w got, x = .dial w got ∧ newSession p version w got = none

/-- How many connections a history opened. -/
def dials (steps : List Step) : Nat := steps.countP fun | .dial .. => true | _ => false

end Spec

variable (p : Proto) (v : UInt8)

theorem run_snoc (a : List Step) (x : Step) : run p v (a ++ [x]) = step p v (run p v a) x := by
  unfold run; rw [List.foldl_append]; rfl

theorem opened_eq (steps : List Step) : (run p v steps).opened = Spec.dials steps := by
  induction steps using snoc_induction with
  | nil => rfl
  | snoc a x ih =>
    rw [run_snoc]
    unfold Spec.dials at *
    rw [List.countP_append, ← ih]
    cases x with
    | dial w got => simp only [step]; split <;> simp
    | lost i => simp only [step]; split <;> simp
    | collect i => simp only [step]; split <;> simp
    | _ => simp [step]

theorem close_sub (alive : List Nat) (x : Nat × Stat) (i : Nat) (h : i ∈ close alive x) : i ∈ alive := by
  unfold close at h
  split at h
  · exact h
  · exact (List.mem_filter.1 h).1

theorem close_other (alive : List Nat) (x : Nat × Stat) (i : Nat) (hi : i ≠ x.1) : i ∈ close alive x ↔ i ∈ alive := by
  unfold close
  split
  · rfl
  · simp [hi]

theorem foldl_close_sub (xs : List (Nat × Stat)) (alive : List Nat) (i : Nat) (h : i ∈ xs.foldl close alive) : i ∈ alive := by
  induction xs generalizing alive with
  | nil => exact h
  | cons x r ih => exact close_sub _ _ _ (ih _ h)

theorem foldl_close_other (xs : List (Nat × Stat)) (alive : List Nat) (i : Nat) (hi : ∀ x ∈ xs, i ≠ x.1) :
    i ∈ xs.foldl close alive ↔ i ∈ alive := by
  induction xs generalizing alive with
  | nil => rfl
  | cons x r ih =>
    rw [List.foldl_cons, ih _ fun y hy => hi y (List.mem_cons_of_mem _ hy)]
    exact close_other _ _ _ (hi x (List.mem_cons_self ..))

theorem foldl_close_gone (xs : List (Nat × Stat)) (alive : List Nat) (x : Nat × Stat) (hx : x ∈ xs) (hs : x.2 ≠ .closing) :
    x.1 ∉ xs.foldl close alive := by
  induction xs generalizing alive with
  | nil => cases hx
  | cons y r ih =>
    rw [List.foldl_cons]
    rcases List.mem_cons.1 hx with rfl | hx
    · intro h
      have := foldl_close_sub _ _ _ h
      unfold close at this
      rw [if_neg hs] at this
      simp at this
    · exact ih _ hx

/-- The pool and the connections: sessions are numbered below `opened`, once each; exactly those that are not closing are open. -/
theorem pool_alive (steps : List Step) :
    (∀ i ∈ (run p v steps).alive, i < (run p v steps).opened) ∧
    (∀ x ∈ (run p v steps).pool, x.1 < (run p v steps).opened) ∧
    ((run p v steps).pool.map Prod.fst).Nodup ∧
    (∀ x ∈ (run p v steps).pool, x.1 ∈ (run p v steps).alive ↔ x.2 ≠ .closing) := by
  induction steps using snoc_induction with
  | nil => refine ⟨?_, ?_, ?_, ?_⟩ <;> simp [run]
  | snoc a x ih =>
    rw [run_snoc]
    generalize run p v a = s at *
    obtain ⟨h1, h2, h3, h4⟩ := ih
    cases x with
    | unreachable => exact ⟨h1, h2, h3, h4⟩
    | dial w got =>
      have fresh : s.opened ∉ s.pool.map Prod.fst := by
        intro h
        obtain ⟨y, hy, he⟩ := List.mem_map.1 h
        have := h2 y hy
        omega
      simp only [step]
      split
      · refine ⟨?_, fun y hy => Nat.lt_succ_of_lt (h2 y hy), h3, fun y hy => ?_⟩
        · intro i hi
          rcases List.mem_cons.1 hi with rfl | hi
          · exact Nat.lt_succ_self _
          · exact Nat.lt_succ_of_lt (h1 i hi)
        · have := h2 y hy
          rw [← h4 y hy, List.mem_cons]
          exact ⟨fun h => h.resolve_left (by omega), .inr⟩
      · rename_i stat hst
        have hne : stat ≠ .closing := by
          intro h
          subst h
          unfold newSession at hst
          split at hst
          · cases hst
          · rename_i st hl
            have hst' : st = .closing := by simpa using hst
            subst hst'
            unfold login at hl
            split at hl
            · cases hl
            · split at hl
              · split at hl <;> cases hl
              · split at hl
                · cases hl
                · unfold decide' at hl
                  simp only at hl
                  split at hl <;> (split at hl; · cases hl) <;> split at hl <;> first | cases hl | (split at hl <;> cases hl)
        refine ⟨?_, ?_, ?_, ?_⟩
        · intro i hi
          rcases List.mem_cons.1 hi with rfl | hi
          · exact Nat.lt_succ_self _
          · exact Nat.lt_succ_of_lt (h1 i hi)
        · intro y hy
          rcases List.mem_append.1 hy with hy | hy
          · exact Nat.lt_succ_of_lt (h2 y hy)
          · rw [List.mem_singleton.1 hy]; exact Nat.lt_succ_self _
        · simp only [List.map_append, List.map_cons, List.map_nil]
          rw [List.nodup_append]
          refine ⟨h3, by simp, ?_⟩
          intro b hb c hc
          rw [List.mem_singleton.1 hc]
          exact fun h => fresh (h ▸ hb)
        · intro y hy
          rcases List.mem_append.1 hy with hy | hy
          · have := h2 y hy
            rw [← h4 y hy]
            simp only [List.mem_cons]
            exact ⟨fun h => h.resolve_left (by omega), .inr⟩
          · rw [List.mem_singleton.1 hy]
            simp [hne]
    | lost i =>
      simp only [step]
      split
      · rename_i y hf
        have hy := List.mem_of_find?_eq_some hf
        have hyi : y.1 = i := by simpa using List.find?_some hf
        have hmap : (s.pool.map fun z => if z.1 = i then (i, Stat.closing) else z).map Prod.fst = s.pool.map Prod.fst := by
          rw [List.map_map]
          apply List.map_congr_left
          intro z _
          simp only [Function.comp]
          split
          · rename_i h; rw [h]
          · rfl
        refine ⟨fun j hj => h1 j (close_sub _ _ _ hj), ?_, by rw [hmap]; exact h3, ?_⟩
        · intro z hz
          obtain ⟨w, hw, rfl⟩ := List.mem_map.1 hz
          split
          · rw [← hyi]; exact h2 y hy
          · exact h2 w hw
        · intro z hz
          obtain ⟨w, hw, rfl⟩ := List.mem_map.1 hz
          by_cases hwi : w.1 = i
          · rw [if_pos hwi]
            simp only [ne_eq, not_true_eq_false, iff_false]
            unfold close
            split
            · rename_i hc
              intro hal
              rw [← hyi] at hal
              exact (h4 y hy).1 hal hc
            · simp [hyi]
          · rw [if_neg hwi, close_other _ _ _ (by rw [hyi]; exact hwi)]
            exact h4 w hw
      · exact ⟨h1, h2, h3, h4⟩
    | tick =>
      refine ⟨fun i hi => h1 i (foldl_close_sub _ _ _ hi), fun y hy => h2 y (List.mem_filter.1 hy).1,
        h3.sublist (List.filter_sublist.map _), ?_⟩
      intro y hy
      obtain ⟨hy, hh⟩ := List.mem_filter.1 hy
      rw [← h4 y hy]
      refine foldl_close_other _ _ _ fun z hz he => ?_
      obtain ⟨hz, hzn⟩ := List.mem_filter.1 hz
      have hyz : y = z := by
        revert h3 hy hz
        generalize s.pool = l
        clear h4 h2 hh hzn h1
        intro h3 hy hz
        induction l with
        | nil => cases hy
        | cons b r ih =>
          rw [List.map_cons, List.nodup_cons] at h3
          rcases List.mem_cons.1 hy with hy1 | hy1
          · rcases List.mem_cons.1 hz with hz1 | hz1
            · rw [hy1, hz1]
            · exact absurd (hy1 ▸ he ▸ List.mem_map_of_mem hz1) h3.1
          · rcases List.mem_cons.1 hz with hz1 | hz1
            · exact absurd (hz1 ▸ he.symm ▸ List.mem_map_of_mem hy1) h3.1
            · exact ih h3.2 hy1 hz1
      rw [hyz] at hh
      rw [hh] at hzn
      cases hzn
    | collect i =>
      simp only [step]
      split
      · exact ⟨h1, h2, h3, h4⟩
      · rename_i hn
        refine ⟨fun j hj => h1 j (List.mem_filter.1 hj).1, h2, h3, fun y hy => ?_⟩
        rw [← h4 y hy, List.mem_filter]
        refine ⟨fun h => h.1, fun h => ⟨h, ?_⟩⟩
        have : y.1 ≠ i := fun h => hn (by rw [List.any_eq_true]; exact ⟨y, hy, by simpa using h⟩)
        simpa using this

/-! ## Theorems -/

/-- C111: if every carrier asked for a connection accepted the login (or answered too little, all at once), every connection ever opened is
closed or belongs to a session of the pool, which will use it or close it. -/
theorem used_or_closed_partial (steps : List Step) (hr : ∀ x ∈ steps, ¬ Spec.Refused p v x) (i : Nat) (hi : i < Spec.dials steps) :
    i ∉ (run p v steps).alive ∨ ∃ stat, (i, stat) ∈ (run p v steps).pool ∧ stat ≠ .closing := by
  rw [← opened_eq p v] at hi
  by_cases ha : i ∈ (run p v steps).alive
  · right
    suffices h : ∀ i ∈ (run p v steps).alive, ∃ stat, (i, stat) ∈ (run p v steps).pool by
      obtain ⟨stat, hs⟩ := h i ha
      exact ⟨stat, hs, ((pool_alive p v steps).2.2.2 (i, stat) hs).1 ha⟩
    clear hi ha i
    induction steps using snoc_induction with
    | nil => intro i hi; cases hi
    | snoc a x ih =>
      have ih := ih fun y hy => hr y (List.mem_append_left _ hy)
      have inv := pool_alive p v a
      have hx := hr x (List.mem_append_right _ (List.mem_singleton.2 rfl))
      rw [run_snoc]
      generalize run p v a = s at *
      obtain ⟨h1, h2, h3, h4⟩ := inv
      intro i hi
      cases x with
      | unreachable => exact ih i hi
      | dial w got =>
        simp only [step] at hi ⊢
        split at hi
        · rename_i hn
          exact absurd ⟨w, got, rfl, hn⟩ hx
        · rename_i stat hst
          rcases List.mem_cons.1 hi with rfl | hi
          · exact ⟨stat, List.mem_append_right _ (by simp)⟩
          · obtain ⟨t, ht⟩ := ih i hi
            exact ⟨t, List.mem_append_left _ ht⟩
      | lost j =>
        simp only [step] at hi ⊢
        split at hi
        · obtain ⟨t, ht⟩ := ih i (close_sub _ _ _ hi)
          by_cases hij : i = j
          · exact ⟨.closing, List.mem_map.2 ⟨(i, t), ht, by simp [hij]⟩⟩
          · exact ⟨t, List.mem_map.2 ⟨(i, t), ht, by simp [hij]⟩⟩
        · exact ih i hi
      | tick =>
        obtain ⟨t, ht⟩ := ih i (foldl_close_sub _ _ _ hi)
        refine ⟨t, List.mem_filter.2 ⟨ht, ?_⟩⟩
        cases hh : healthy t with
        | true => rfl
        | false =>
          exfalso
          refine foldl_close_gone _ s.alive (i, t) (List.mem_filter.2 ⟨ht, by simp [hh]⟩) ?_ hi
          exact (h4 (i, t) ht).1 (foldl_close_sub _ _ _ hi)
      | collect j =>
        have hp : (step p v s (.collect j)).pool = s.pool := by simp only [step]; split <;> rfl
        rw [hp]
        simp only [step] at hi
        split at hi
        · exact ih i hi
        · exact ih i (List.mem_filter.1 hi).1
  · exact .inl ha

/-- C111: after a run of the ticker the pool holds logged-in sessions with open connections, and the connections of all sessions it
dropped are closed. -/
theorem dropped_closed (steps : List Step) (x : Nat × Stat) (hx : x ∈ (run p v steps).pool) :
    (x ∈ (run p v (steps ++ [.tick])).pool ∧ x.2 = .login ∧ x.1 ∈ (run p v (steps ++ [.tick])).alive) ∨
    (x ∉ (run p v (steps ++ [.tick])).pool ∧ x.2 ≠ .login ∧ x.1 ∉ (run p v (steps ++ [.tick])).alive) := by
  have inv := pool_alive p v steps
  have inv' := pool_alive p v (steps ++ [.tick])
  rw [run_snoc] at *
  generalize run p v steps = s at *
  by_cases hl : x.2 = .login
  · have hm : x ∈ (step p v s .tick).pool := List.mem_filter.2 ⟨hx, by simp [healthy, hl]⟩
    exact .inl ⟨hm, hl, (inv'.2.2.2 x hm).2 (by rw [hl]; decide)⟩
  · have hh : healthy x.2 = false := by cases h : x.2 <;> simp_all [healthy]
    refine .inr ⟨fun h => ?_, hl, fun h => ?_⟩
    · have := (List.mem_filter.1 h).2
      rw [hh] at this; cases this
    · have h' := foldl_close_sub _ _ _ h
      exact foldl_close_gone _ s.alive x (List.mem_filter.2 ⟨hx, by simp [hh]⟩) ((inv.2.2.2 x hx).1 h') h

/-- C111: a connection of the pool is never closed by the collector. -/
theorem pool_not_collected (steps : List Step) (i j : Nat) (stat : Stat) (hj : (j, stat) ∈ (run p v steps).pool) :
    j ∈ (run p v (steps ++ [.collect i])).alive ↔ j ∈ (run p v steps).alive := by
  rw [run_snoc]
  simp only [step]
  split
  · rfl
  · rename_i hn
    have : j ≠ i := fun h => hn (by rw [List.any_eq_true]; exact ⟨_, hj, by simpa using h⟩)
    simp [this]

theorem step_keeps (s : State) (x : Step) (i : Nat) (ha : i ∈ s.alive) (hp : ∀ y ∈ s.pool, i ≠ y.1) (hi : i < s.opened)
    (hx : x ≠ .collect i) :
    i ∈ (step p v s x).alive ∧ (∀ y ∈ (step p v s x).pool, i ≠ y.1) ∧ i < (step p v s x).opened := by
  cases x with
  | unreachable => exact ⟨ha, hp, hi⟩
  | dial w got =>
    simp only [step]
    split
    · exact ⟨List.mem_cons_of_mem _ ha, hp, Nat.lt_succ_of_lt hi⟩
    · refine ⟨List.mem_cons_of_mem _ ha, fun y hy => ?_, Nat.lt_succ_of_lt hi⟩
      rcases List.mem_append.1 hy with hy | hy
      · exact hp y hy
      · rw [List.mem_singleton.1 hy]; exact Nat.ne_of_lt hi
  | lost j =>
    simp only [step]
    split
    · rename_i y hf
      have hy := List.mem_of_find?_eq_some hf
      have hyj : y.1 = j := by simpa using List.find?_some hf
      refine ⟨(close_other _ _ _ (hp y hy)).2 ha, fun z hz => ?_, hi⟩
      obtain ⟨w, hw, rfl⟩ := List.mem_map.1 hz
      split
      · rw [← hyj]; exact hp y hy
      · exact hp w hw
    · exact ⟨ha, hp, hi⟩
  | tick =>
    refine ⟨(foldl_close_other _ _ _ fun y hy => hp y (List.mem_filter.1 hy).1).2 ha, fun y hy => hp y (List.mem_filter.1 hy).1, hi⟩
  | collect j =>
    simp only [step]
    split
    · exact ⟨ha, hp, hi⟩
    · refine ⟨List.mem_filter.2 ⟨ha, ?_⟩, hp, hi⟩
      have : i ≠ j := fun h => hx (by rw [h])
      simpa using this

/-- C111 fails: the connection of a login that was refused is never closed by the client: whatever happens afterwards, it stays open unless
the garbage collector happens to find it. -/
theorem refused_left_open_fails (steps more : List Step) (w : Bool) (got : Got) (href : newSession p v w got = none)
    (hgc : Step.collect (Spec.dials steps) ∉ more) :
    Spec.dials steps ∈ (run p v (steps ++ .dial w got :: more)).alive ∧
    ∀ stat, (Spec.dials steps, stat) ∉ (run p v (steps ++ .dial w got :: more)).pool := by
  rw [← opened_eq p v] at hgc ⊢
  have e : run p v (steps ++ .dial w got :: more) = more.foldl (step p v) (step p v (run p v steps) (.dial w got)) := by
    unfold run; rw [List.foldl_append]; rfl
  rw [e]
  have inv := pool_alive p v steps
  generalize run p v steps = s at *
  have hstart : step p v s (.dial w got) = { s with opened := s.opened + 1, alive := s.opened :: s.alive } := by
    simp only [step, href]
  rw [hstart]
  have key : ∀ (more : List Step) (t : State) (i : Nat), Step.collect i ∉ more → i ∈ t.alive → (∀ y ∈ t.pool, i ≠ y.1) → i < t.opened →
      i ∈ (more.foldl (step p v) t).alive ∧ ∀ y ∈ (more.foldl (step p v) t).pool, i ≠ y.1 := by
    intro more
    induction more with
    | nil => intro t i _ ha hp _; exact ⟨ha, hp⟩
    | cons x r ih =>
      intro t i hg ha hp hi
      have := step_keeps p v t x i ha hp hi (fun h => hg (h ▸ List.mem_cons_self ..))
      exact ih _ i (fun h => hg (List.mem_cons_of_mem _ h)) this.1 this.2.1 this.2.2
  have := key more { s with opened := s.opened + 1, alive := s.opened :: s.alive } s.opened hgc (List.mem_cons_self ..)
    (fun y hy => (Nat.ne_of_lt (inv.2.1 y hy)).symm) (Nat.lt_succ_self _)
  exact ⟨this.1, fun stat h => this.2 _ h rfl⟩

/-- C111 fails: while a carrier refuses the login, the client opens one connection after the other and keeps them all, without bound, though
its pool is empty. -/
theorem refused_piles_up_fails (n : Nat) (w : Bool) (got : Got) (href : newSession p v w got = none) :
    (run p v (List.replicate n (.dial w got))).alive.length = n ∧ (run p v (List.replicate n (.dial w got))).pool = [] := by
  induction n with
  | zero => exact ⟨rfl, rfl⟩
  | succ n ih =>
    rw [List.replicate_succ', run_snoc]
    simp only [step, href, List.length_cons]
    exact ⟨by rw [ih.1], ih.2⟩

/-! ## Examples -/

/-- An SGIP answer: accepted (status 0) or not. -/
def exResp (status : UInt8) : Got :=
  ⟨be32 21 ++ be32 Sgip.BIND_RESP ++ [0,0,0,1] ++ [0,0,0,1] ++ [0,0,0,1] ++ [status], false⟩

example : newSession .sgip 0 false (exResp 0) = some .login ∧ newSession .sgip 0 false (exResp 1) = none ∧
    newSession .sgip 0 false ⟨[0,0], false⟩ = some .connect ∧ newSession .sgip 0 false ⟨[], true⟩ = none := by
  decide +kernel

def exSteps : List Step :=
  [.dial false (exResp 0), .dial false ⟨[0,0], false⟩, .unreachable, .dial false (exResp 0), .lost 2, .tick, .dial false (exResp 0)]

example : (∀ x ∈ exSteps, ¬ Spec.Refused .sgip 0 x) ∧ Spec.dials exSteps = 4 ∧ (run .sgip 0 exSteps).alive = [3, 0] ∧
    (run .sgip 0 exSteps).pool = [(0, .login), (3, .login)] := by
  refine ⟨?_, by decide +kernel, by decide +kernel, by decide +kernel⟩
  rintro x hx ⟨w, got, rfl, hn⟩
  have : ∀ x ∈ exSteps, (match x with | .dial w got => (newSession .sgip 0 w got).isSome | _ => true) = true := by decide +kernel
  have := this _ hx
  simp only [hn] at this
  cases this

example : (run .sgip 0 (exSteps ++ .dial false (exResp 1) :: [.tick, .tick, .lost 0, .tick])).alive = [4, 3] := by decide +kernel

end Gosms.ClientConns
