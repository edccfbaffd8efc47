import Verif.Model.LiveConfig
import Verif.Props.Random

/-!
C123: a configuration that is replaced while the process runs takes effect, and replacing a valid one by a valid one breaks nothing.
-/

namespace Gosms.LiveConfig

/-- A range of processing times is valid if there is something in it. -/
def Spec.Valid (m : Mock) : Prop := m.minMs < m.maxMs

/-! ## The processing time -/

theorem intn_some (r : Nat) {n : Int} (h : 0 < n) : ∃ v, Random.intn r n = some v ∧ 0 ≤ v ∧ v < n := by
  have hn : 0 < n.toNat := by omega
  refine ⟨((r % n.toNat : Nat) : Int), ?_, by omega, ?_⟩
  · unfold Random.intn
    rw [if_neg (by omega)]
  · have := Nat.mod_lt r hn
    omega

/-- **C123 (partial): no panic, and a time in the range,** while no new maximum at or below the old minimum comes between the two reads: the time is
at least the minimum read and below the maximum read. In particular if the configuration is the same, and valid, at both. -/
theorem process_time_partial (cfg : Nat → Mock) (r t1 t2 : Nat) (h : (cfg t1).minMs < (cfg t2).maxMs) :
    ∃ v, processTime cfg r t1 t2 = some v ∧ (cfg t1).minMs ≤ v ∧ v < (cfg t2).maxMs := by
  obtain ⟨v, h1, h2, h3⟩ := intn_some r (n := (cfg t2).maxMs - (cfg t1).minMs) (by omega)
  refine ⟨v + (cfg t1).minMs, ?_, by omega, by omega⟩
  unfold processTime Random.processTime Random.randNum
  rw [h1]
  rfl

example : (⟨1, 3⟩ : Mock).minMs < (⟨5, 9⟩ : Mock).maxMs ∧ processTime (fun t => if t < 7 then ⟨1, 3⟩ else ⟨5, 9⟩) 4 6 7 = some 5 := by decide

/-- The panic comes exactly then. -/
theorem process_time_panics_iff (cfg : Nat → Mock) (r t1 t2 : Nat) :
    processTime cfg r t1 t2 = none ↔ (cfg t2).maxMs ≤ (cfg t1).minMs := by
  constructor
  · intro h
    rcases Int.lt_or_le (cfg t1).minMs (cfg t2).maxMs with h' | h'
    · obtain ⟨v, hv, _⟩ := process_time_partial cfg r t1 t2 h'
      rw [h] at hv; cases hv
    · exact h'
  · intro h
    unfold processTime Random.processTime Random.randNum Random.intn
    rw [if_pos (by omega)]
    rfl

/-- **C123 fails: a valid range replaced by a valid one.** Whatever two valid ranges, the new one below the old one: a submit whose first read comes
before the change and whose second read comes after it panics, whatever number is drawn. -/
theorem replaced_range_fails (old new : Mock) (_ho : Spec.Valid old) (_hn : Spec.Valid new) (hb : new.maxMs ≤ old.minMs) (change : Nat) :
    ∃ t1 t2, t1 < change + 1 ∧ change + 1 ≤ t2 ∧ t2 = t1 + 1 ∧
      ∀ r, processTime (fun t => if t < change + 1 then old else new) r t1 t2 = none := by
  refine ⟨change, change + 1, by omega, by omega, rfl, fun r => ?_⟩
  rw [process_time_panics_iff]
  simp only [Nat.lt_irrefl, if_false, Nat.lt_succ_self, if_true]
  exact hb

example : Spec.Valid ⟨1000, 3000⟩ ∧ Spec.Valid ⟨1, 3⟩ ∧ (3 : Int) ≤ 1000 := by unfold Spec.Valid; decide

/-! ## The number of connections -/

theorem wanted_pos (c : Int) : 1 ≤ wanted c := by unfold wanted; split <;> omega

/-- The number of connections a value of `max-conns` stands for: itself, or two if it is not positive. -/
def Spec.number (maxConns : Int) : Int := if 0 < maxConns then maxConns else 2

theorem wanted_eq (c : Int) : (wanted c : Int) = Spec.number c := by
  unfold wanted Spec.number
  split <;> split <;> omega

/-- The values of `max-conns` during a history. -/
def Spec.settings (first : Int) : List Step → List Int
  | [] => [first]
  | .set c :: steps => first :: Spec.settings c steps
  | _ :: steps => Spec.settings first steps

theorem settings_first (c : Int) (steps : List Step) : c ∈ Spec.settings c steps := by
  induction steps with
  | nil => simp [Spec.settings]
  | cons x steps ih => cases x <;> simp [Spec.settings, ih]

theorem goOn_some {w v : Nat} {pool : List Nat} (h : goOn w pool = some v) : v = w ∧ pool.length < w := by
  unfold goOn at h
  split at h
  · exact ⟨(Option.some.inj h).symm, ‹_›⟩
  · cases h

theorem goOn_none {w : Nat} {pool : List Nat} (h : goOn w pool = none) : w ≤ pool.length := by
  unfold goOn at h
  split at h
  · cases h
  · omega

theorem step_tick (s : State) (kept : List Nat) : step s (.tick kept) =
    if s.filling = none ∧ kept.isPerm (s.pool.filter fun i => !s.dead.contains i) then
      { s with pool := kept, filling := goOn (wanted s.maxConns) kept } else s := rfl

theorem run_bounded (N : Nat) (steps : List Step) (s : State) (hp : s.pool.length ≤ N)
    (hf : ∀ w, s.filling = some w → w ≤ N ∧ s.pool.length < w)
    (hN : ∀ c ∈ Spec.settings s.maxConns steps, wanted c ≤ N) : (run s steps).pool.length ≤ N := by
  induction steps generalizing s with
  | nil => exact hp
  | cons x steps ih =>
    show (run (step s x) steps).pool.length ≤ N
    have h0 : wanted s.maxConns ≤ N := hN _ (settings_first _ _)
    cases x with
    | set c => exact ih { s with maxConns := c } hp hf (fun c' hc => hN c' (by simp [Spec.settings]; exact .inr hc))
    | breaks i => exact ih { s with dead := i :: s.dead } hp hf hN
    | tick kept =>
      rw [step_tick]
      split
      · rename_i hc
        have hlen : kept.length ≤ N := by
          have := (List.isPerm_iff.1 hc.2).length_eq
          have := List.length_filter_le (fun i => !s.dead.contains i) s.pool
          omega
        exact ih _ hlen (fun w hw => by
          obtain ⟨rfl, h⟩ := goOn_some hw
          exact ⟨h0, h⟩) hN
      · exact ih s hp hf hN
    | dial r =>
      cases hfl : s.filling with
      | none =>
        have : step s (.dial r) = s := by simp only [step, hfl]
        rw [this]
        exact ih s hp hf hN
      | some want =>
        have : step s (.dial r) = { s with pool := s.pool ++ r.toList, filling := goOn want (s.pool ++ r.toList) } := by
          simp only [step, hfl]
        rw [this]
        obtain ⟨h1, h2⟩ := hf want hfl
        refine ih _ ?_ (fun w hw => ?_) hN
        · simp only [List.length_append]
          cases r <;> simp <;> omega
        · obtain ⟨rfl, h⟩ := goOn_some hw
          exact ⟨h1, h⟩

/-- **C123 (partial): never more connections than the largest number configured so far.** Missing: than the number configured now
(`lowered_fails`). -/
theorem pool_bounded_partial (c : Int) (first : Option Nat) (steps : List Step) (N : Nat)
    (hN' : ∀ c' ∈ Spec.settings c steps, Spec.number c' ≤ N) : (run (start c first) steps).pool.length ≤ N := by
  have hN : ∀ c' ∈ Spec.settings c steps, wanted c' ≤ N := fun c' h => by have := hN' c' h; rw [← wanted_eq] at this; omega
  refine run_bounded N steps (start c first) ?_ (fun w h => by cases h) hN
  have h1 := wanted_pos c
  have h2 := hN c (settings_first c steps)
  cases first <;> simp [start] <;> omega

/-- Satisfiable: 1, then 3 connections configured; the pool gets the third one too. -/
example : (run (start 1 (some 0)) [.tick [0], .set 3, .tick [0], .dial (some 1), .dial none, .dial (some 2), .dial (some 9)]).pool = [0, 1, 2] ∧
    ∀ c' ∈ Spec.settings 1 [.tick [0], .set 3, .tick [0], .dial (some 1), .dial none, .dial (some 2), .dial (some 9)], Spec.number c' ≤ 3 := by
  decide

theorem fill_end (w : Nat) (more : List Step) (hm : ∀ k, Step.tick k ∉ more) (s : State)
    (h : s.filling = some w ∨ (s.filling = none ∧ w ≤ s.pool.length)) (he : (run s more).filling = none) :
    w ≤ (run s more).pool.length := by
  induction more generalizing s with
  | nil =>
    rcases h with h | h
    · have he' : s.filling = none := he
      rw [h] at he'; cases he'
    · exact h.2
  | cons x more ih =>
    have hm' : ∀ k, Step.tick k ∉ more := fun k hk => hm k (by simp [hk])
    cases x with
    | set c => exact ih hm' { s with maxConns := c } h he
    | breaks i => exact ih hm' { s with dead := i :: s.dead } h he
    | tick k => exact absurd (by simp) (hm k)
    | dial r =>
      refine ih hm' (step s (.dial r)) ?_ he
      rcases h with h | h
      · simp only [step, h]
        cases hg : goOn w (s.pool ++ r.toList) with
        | none => exact .inr ⟨rfl, goOn_none hg⟩
        | some v => exact .inl (by rw [(goOn_some hg).1])
      · have : step s (.dial r) = s := by simp only [step, h.1]
        rw [this]
        exact .inr h

/-- **C123: a number raised takes effect at the next tick.** Whatever was configured before and is configured afterwards: when the run of the ticker
that read the number ends, there are that many connections. -/
theorem raised_reached (c : Int) (first : Option Nat) (before more : List Step) (kept : List Nat)
    (hidle : (run (start c first) before).filling = none)
    (hk : kept.Perm ((run (start c first) before).pool.filter fun i => !(run (start c first) before).dead.contains i))
    (hm : ∀ k, Step.tick k ∉ more) (he : (run (start c first) (before ++ .tick kept :: more)).filling = none) :
    Spec.number (run (start c first) before).maxConns ≤ (run (start c first) (before ++ .tick kept :: more)).pool.length := by
  rw [← wanted_eq]
  apply Int.ofNat_le.2
  have e : run (start c first) (before ++ .tick kept :: more) = run (step (run (start c first) before) (.tick kept)) more := by
    unfold run; rw [List.foldl_append, List.foldl_cons]
  rw [e] at he ⊢
  generalize run (start c first) before = s at *
  refine fill_end _ more hm _ ?_ he
  have : step s (.tick kept) = { s with pool := kept, filling := goOn (wanted s.maxConns) kept } := by
    rw [step_tick]
    rw [if_pos ⟨hidle, List.isPerm_iff.2 hk⟩]
  rw [this]
  cases hg : goOn (wanted s.maxConns) kept with
  | none => exact .inr ⟨rfl, goOn_none hg⟩
  | some v => exact .inl (by rw [(goOn_some hg).1])

/-- Satisfiable: raised from 1 to 3. -/
example : (run (start 1 (some 0)) [.tick [0], .set 3]).filling = none ∧
    (run (start 1 (some 0)) ([.tick [0], .set 3] ++ .tick [0] :: [.dial (some 1), .dial (some 2)])).filling = none ∧
    Spec.number (run (start 1 (some 0)) [.tick [0], .set 3]).maxConns = 3 := by decide

theorem isPerm_filter_all {s : State} {kept : List Nat} (hh : ∀ i ∈ s.pool, i ∉ s.dead)
    (h : kept.isPerm (s.pool.filter fun i => !s.dead.contains i) = true) : kept.Perm s.pool := by
  have e : s.pool.filter (fun i => !s.dead.contains i) = s.pool := by
    rw [List.filter_eq_self]
    intro i hi
    simpa using hh i hi
  rw [e] at h
  exact List.isPerm_iff.1 h

/-- **C123 fails: a number lowered has no effect while the connections work.** Whatever the pool: with the ticker at rest and the number lowered, to
whatever values and however often, every connection stays, through any number of ticks, as long as none breaks. -/
theorem lowered_fails (s : State) (steps : List Step) (hidle : s.filling = none) (hh : ∀ i ∈ s.pool, i ∉ s.dead)
    (hlow' : ∀ c ∈ Spec.settings s.maxConns (steps : List Step), Spec.number c < s.pool.length) (hb : ∀ i, Step.breaks i ∉ steps) :
    (run s steps).pool.Perm s.pool ∧ Spec.number (run s steps).maxConns < (run s steps).pool.length := by
  have hlow : ∀ c ∈ Spec.settings s.maxConns steps, wanted c < s.pool.length := fun c' h => by have := hlow' c' h; rw [← wanted_eq] at this; omega
  have key : ∀ (steps : List Step) (t : State), t.filling = none → t.pool.Perm s.pool → t.dead = s.dead →
      (∀ c ∈ Spec.settings t.maxConns steps, wanted c < s.pool.length) → (∀ i, Step.breaks i ∉ steps) →
      (run t steps).pool.Perm s.pool ∧ wanted (run t steps).maxConns < s.pool.length := by
    intro steps
    induction steps with
    | nil => intro t _ hp _ hl _; exact ⟨hp, hl _ (settings_first _ _)⟩
    | cons x steps ih =>
      intro t hf hp hd hl hbr
      have hbr' : ∀ i, Step.breaks i ∉ steps := fun i hi => hbr i (by simp [hi])
      show (run (step t x) steps).pool.Perm s.pool ∧ wanted (run (step t x) steps).maxConns < s.pool.length
      cases x with
      | set c => exact ih { t with maxConns := c } hf hp hd (fun c' hc => hl c' (by simp [Spec.settings]; exact .inr hc)) hbr'
      | breaks i => exact absurd (by simp) (hbr i)
      | tick kept =>
        rw [step_tick]
        split
        · rename_i hc
          have hk : kept.Perm t.pool := isPerm_filter_all (fun i hi => by rw [hd]; exact hh i (hp.mem_iff.1 hi)) hc.2
          have hg : goOn (wanted t.maxConns) kept = none := by
            unfold goOn
            have := hl _ (settings_first t.maxConns _)
            have := (hk.trans hp).length_eq
            rw [if_neg (by omega)]
          exact ih _ hg (hk.trans hp) hd hl hbr'
        · exact ih t hf hp hd hl hbr'
      | dial r =>
        have : step t (.dial r) = t := by simp only [step, hf]
        rw [this]
        exact ih t hf hp hd hl hbr'
  obtain ⟨h1, h2⟩ := key steps s hidle (List.Perm.refl _) rfl hlow hb
  exact ⟨h1, by rw [h1.length_eq, ← wanted_eq]; exact Int.ofNat_lt.2 h2⟩

/-- Satisfiable: 3 connections, lowered to 1. -/
example : ∃ s, s = run (start 3 (some 0)) [.tick [0], .dial (some 1), .dial (some 2)] ∧ s.filling = none ∧ (∀ i ∈ s.pool, i ∉ s.dead) ∧
    (∀ c ∈ Spec.settings s.maxConns [.tick [2, 0, 1], .tick [0, 1, 2]], Spec.number c < s.pool.length + 1) ∧
    (run s [.set 1, .tick [2, 0, 1], .tick [0, 1, 2]]).pool = [0, 1, 2] := by
  refine ⟨_, rfl, ?_⟩
  decide

/-- **C123 fails: a run of the ticker does not notice that the number was lowered.** Whatever the pool, wherever the run stands: with the number
lowered to any value it goes on to the number it read, if the connections can be made. -/
theorem lowered_while_filling_fails (s : State) (want : Nat) (c : Int) (new : List Nat) (hf : s.filling = some want)
    (hlen : s.pool.length + new.length = want) (hne : new ≠ []) :
    (run s (.set c :: new.map fun i => .dial (some i))).pool = s.pool ++ new ∧
    (run s (.set c :: new.map fun i => .dial (some i))).pool.length = want ∧
    (run s (.set c :: new.map fun i => .dial (some i))).maxConns = c := by
  have key : ∀ (new : List Nat) (t : State), t.filling = some want → t.pool.length + new.length = want → new ≠ [] →
      (run t (new.map fun i => .dial (some i))).pool = t.pool ++ new ∧
      (run t (new.map fun i => .dial (some i))).maxConns = t.maxConns := by
    intro new
    induction new with
    | nil => intro t _ _ h; exact absurd rfl h
    | cons i new ih =>
      intro t hf hl _
      rw [List.map_cons]
      show (run (step t (.dial (some i))) _).pool = _ ∧ (run (step t (.dial (some i))) _).maxConns = _
      have e : step t (.dial (some i)) = { t with pool := t.pool ++ [i], filling := goOn want (t.pool ++ [i]) } := by
        simp only [step, hf, Option.toList]
      rw [e]
      cases new with
      | nil => exact ⟨rfl, rfl⟩
      | cons j new =>
        have hg : goOn want (t.pool ++ [i]) = some want := by
          unfold goOn
          rw [if_pos]
          simp only [List.length_append, List.length_cons, List.length_nil] at hl ⊢
          omega
        obtain ⟨h1, h2⟩ := ih { t with pool := t.pool ++ [i], filling := goOn want (t.pool ++ [i]) } hg
          (by simp only [List.length_append, List.length_cons, List.length_nil] at hl ⊢; omega) (by simp)
        exact ⟨by rw [h1]; simp, h2⟩
  obtain ⟨h1, h2⟩ := key new { s with maxConns := c } hf hlen hne
  have e : run s (.set c :: new.map fun i => .dial (some i)) = run { s with maxConns := c } (new.map fun i => .dial (some i)) := rfl
  rw [e]
  exact ⟨h1, by rw [h1]; simpa using hlen, h2⟩

example : (run (start 3 (some 0)) [.tick [0]]).filling = some 3 ∧ (run (start 3 (some 0)) [.tick [0]]).pool.length + [1, 2].length = 3 := by decide

end Gosms.LiveConfig
