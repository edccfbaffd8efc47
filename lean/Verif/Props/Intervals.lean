import Verif.Model.Intervals
import Verif.Props.Heartbeat

/-!
# C131: the intervals of periodic work
-/

namespace Gosms.Spec.Intervals
open Gosms.Intervals

/-- The interval `d` is over, counted from `t0`, at some moment after `last` and not after `now`. -/
def Due (t0 d last now : Int) : Prop := ∃ k : Int, 1 ≤ k ∧ last < t0 + k * d ∧ t0 + k * d ≤ now

/-- What a user expects the interval of a job to be: the one configured, else five minutes for the reload of accounts and a second for the others. -/
def Expected (j : Job) (configured d : Int) : Prop :=
  (0 < configured ∧ d = configured) ∨ (configured = 0 ∧ d = if j = .reload then 300 * 1000000000 else 1000000000)

/-- When the job last ran, or its start. -/
def last (t0 : Int) : List Int → Int
  | [] => t0
  | t :: _ => t

/-- What may follow on what in the calls of `OnTick`. -/
def Follows : Ev → Ev → Prop
  | .began t, .ended t' _ => t ≤ t'
  | .ended t delay, .began t' => t + delay ≤ t'
  | _, _ => False

end Gosms.Spec.Intervals

namespace Gosms.Intervals
open Spec.Intervals

theorem run_snoc (s : State) (l : List Step) (x : Step) : run s (l ++ [x]) = step (run s l) x := by
  unfold run; rw [List.foldl_append]; rfl

theorem start_expected (j : Job) (c t0 : Int) (s : State) (h : start j c t0 = some s) :
    Expected j c s.d ∧ 0 < s.d ∧ s.now = t0 ∧ s.next = t0 + s.d ∧ s.full = false ∧ s.runs = [] := by
  unfold start at h
  dsimp only at h
  split at h
  · cases h
  · rename_i hd
    cases h
    refine ⟨?_, by dsimp only; omega, rfl, rfl, rfl, rfl⟩
    unfold Expected
    cases j <;> simp only [interval, orDefault, second] at hd ⊢ <;> split at hd <;> rename_i hc
    · exact .inr ⟨hc, by simp [hc]⟩
    · exact .inl ⟨by omega, by simp [hc]⟩
    · exact .inr ⟨hc, by simp [hc]⟩
    · exact .inl ⟨by omega, by simp [hc]⟩
    · exact .inr ⟨hc, by simp [hc]⟩
    · exact .inl ⟨by omega, by simp [hc]⟩

/-- What holds of a job that started at `t0`. -/
structure Inv (t0 d : Int) (s : State) (k : Int) : Prop where
  d_eq : s.d = d
  pos : 1 ≤ k
  next_eq : s.next = t0 + k * d
  lo : s.next - d ≤ s.now
  hi : s.now < s.next
  start_le : t0 ≤ last t0 s.runs
  last_le : last t0 s.runs ≤ s.now
  full_iff : s.full = true ↔ last t0 s.runs < s.next - d
  count : (s.runs.length : Int) + (if s.full then 1 else 0) ≤ k - 1

theorem inv_run (j : Job) (c t0 : Int) (s : State) (h : start j c t0 = some s) (steps : List Step) :
    ∃ k, Inv t0 s.d (run s steps) k := by
  obtain ⟨-, hd, h1, h2, h3, h4⟩ := start_expected j c t0 s h
  induction steps using snoc_induction with
  | nil =>
    refine ⟨1, rfl, Int.le_refl _, ?_, ?_, ?_, ?_, ?_, ?_, ?_⟩ <;> simp only [run, List.foldl_nil, h1, h2, h3, h4, last] <;> try omega
    · simp
    · simp
  | snoc l x ih =>
    obtain ⟨k, hk⟩ := ih
    rw [run_snoc]
    generalize run s l = u at *
    obtain ⟨e, i1, i2, i3, i4, i5, i6, i7, i8⟩ := hk
    cases x with
    | receive =>
      unfold step
      dsimp only
      split
      · rename_i hf
        refine ⟨k, e, i1, i2, i3, i4, ?_, ?_, ?_, ?_⟩
        · show t0 ≤ u.now; omega
        · exact Int.le_refl _
        · show false = true ↔ u.now < _
          dsimp only
          constructor
          · intro h; cases h
          · intro h; omega
        · simp only [hf, if_true] at i8
          simp only [List.length_cons]
          push_cast
          simp
          omega
      · exact ⟨k, e, i1, i2, i3, i4, i5, i6, i7, i8⟩
    | pass t =>
      unfold step
      dsimp only
      split
      · exact ⟨k, e, i1, i2, i3, i4, i5, i6, i7, i8⟩
      · split
        · exact ⟨k, e, i1, i2, by dsimp only; omega, by dsimp only; omega, i5, by dsimp only; omega, i7, i8⟩
        · rename_i ht hn
          have hq0 : 0 ≤ (t - u.next) / u.d := Int.ediv_nonneg (by omega) (by omega)
          have hq1 := Int.mul_ediv_self_le (x := t - u.next) (k := u.d) (by omega)
          have hq2 := Int.lt_mul_ediv_self_add (x := t - u.next) (k := u.d) (by omega)
          have hm : u.d * ((t - u.next) / u.d + 1) = u.d * ((t - u.next) / u.d) + u.d := by rw [Int.mul_add, Int.mul_one]
          have hp : 0 ≤ u.d * ((t - u.next) / u.d) := Int.mul_nonneg (by omega) hq0
          refine ⟨k + ((t - u.next) / u.d + 1), e, by omega, ?_, ?_, ?_, i5, ?_, ?_, ?_⟩
          · show u.next + u.d * ((t - u.next) / u.d + 1) = _
            rw [i2, Int.add_mul, e, Int.mul_comm s.d]; omega
          · show u.next + u.d * ((t - u.next) / u.d + 1) - s.d ≤ t
            omega
          · show t < u.next + u.d * ((t - u.next) / u.d + 1)
            omega
          · show last t0 u.runs ≤ t; omega
          · show true = true ↔ last t0 u.runs < u.next + u.d * ((t - u.next) / u.d + 1) - s.d
            simp only [true_iff]
            omega
          · show (u.runs.length : Int) + (if true = true then 1 else 0) ≤ _
            have : (0 : Int) ≤ if u.full = true then 1 else 0 := by split <;> omega
            rw [if_pos rfl]
            omega

theorem due_iff {t0 d : Int} {s : State} {k : Int} (hd : 0 < d) (h : Inv t0 d s k) :
    Due t0 d (last t0 s.runs) s.now ↔ s.full = true := by
  rw [h.full_iff]
  have hn := h.next_eq
  have hlo := h.lo
  have hhi := h.hi
  have hsl := h.start_le
  constructor
  · rintro ⟨q, hq, h1, h2⟩
    have hlt : q * d < k * d := by omega
    have : q < k := Int.lt_of_mul_lt_mul_right hlt (by omega)
    have : q * d ≤ (k - 1) * d := Int.mul_le_mul_of_nonneg_right (by omega) (by omega)
    rw [Int.sub_mul, Int.one_mul] at this
    omega
  · intro hl
    refine ⟨k - 1, ?_, ?_, ?_⟩
    · have hp := h.pos
      by_cases hk : k = 1
      · subst hk; omega
      · omega
    · rw [Int.sub_mul, Int.one_mul]; omega
    · rw [Int.sub_mul, Int.one_mul]; omega

/-- C131: a job whose interval is not configured negative starts, with the interval the user expects; and at whatever moment of whatever history
it is ready to run, it runs exactly if the interval was over since it last ran (counted from its start). -/
theorem job_runs_when_due_partial (j : Job) (c t0 : Int) (hc : 0 ≤ c) :
    ∃ s, start j c t0 = some s ∧ Expected j c s.d ∧ ∀ steps,
      (Due t0 s.d (last t0 (run s steps).runs) (run s steps).now → (run s (steps ++ [.receive])).runs = (run s steps).now :: (run s steps).runs) ∧
      (¬ Due t0 s.d (last t0 (run s steps).runs) (run s steps).now → (run s (steps ++ [.receive])).runs = (run s steps).runs) := by
  have hne : start j c t0 ≠ none := by
    unfold start
    dsimp only
    rw [if_neg]
    · simp
    · cases j <;> simp only [interval, orDefault, second] <;> split <;> omega
  cases hs : start j c t0 with
  | none => exact absurd hs hne
  | some s =>
    obtain ⟨he, hd, -⟩ := start_expected j c t0 s hs
    refine ⟨s, rfl, he, fun steps => ?_⟩
    obtain ⟨k, hk⟩ := inv_run j c t0 s hs steps
    rw [due_iff hd hk, run_snoc]
    generalize run s steps = u at *
    constructor
    · intro h; simp only [step, h, if_true]
    · intro h; simp only [step, if_neg h]

/-- C131: never more often: the number of runs times the interval fits into the time since the start. -/
theorem job_not_more_often (j : Job) (c t0 : Int) (s : State) (h : start j c t0 = some s) (steps : List Step) :
    ((run s steps).runs.length : Int) * s.d ≤ (run s steps).now - t0 := by
  obtain ⟨k, hk⟩ := inv_run j c t0 s h steps
  obtain ⟨-, hd, -⟩ := start_expected j c t0 s h
  have h1 := hk.count
  have h2 : (0 : Int) ≤ if (run s steps).full = true then 1 else 0 := by split <;> omega
  have h3 : ((run s steps).runs.length : Int) * s.d ≤ (k - 1) * s.d := Int.mul_le_mul_of_nonneg_right (by omega) (by omega)
  rw [Int.sub_mul, Int.one_mul] at h3
  have h4 := hk.next_eq
  have h5 := hk.lo
  omega

/-- C131 fails: an interval configured below zero ends the process when the job starts, for each of the three jobs. -/
theorem negative_interval_fails (j : Job) (c t0 : Int) (hc : c < 0) : start j c t0 = none := by
  unfold start
  dsimp only
  rw [if_pos]
  cases j <;> simp only [interval, orDefault, second] <;> split <;> omega

/-! ## The server's ticker -/

theorem srun_append (t0 : Int) (a b : List SStep) : srun t0 (a ++ b) = b.foldl sstep (srun t0 a) := by
  unfold srun; rw [List.foldl_append]

theorem srun_snoc (t0 : Int) (l : List SStep) (x : SStep) : srun t0 (l ++ [x]) = sstep (srun t0 l) x := by
  rw [srun_append]; rfl

theorem snoc_pair {α : Type} {l pre post : List α} {x y z : α} (h : l ++ [z] = pre ++ x :: y :: post) :
    (∃ post', post = post' ++ [z] ∧ l = pre ++ x :: y :: post') ∨ (post = [] ∧ z = y ∧ l = pre ++ [x]) := by
  rcases List.eq_nil_or_concat post with hp | ⟨post', w, hp⟩
  · subst hp
    have : l ++ [z] = (pre ++ [x]) ++ [y] := by rw [h]; simp
    obtain ⟨h1, h2⟩ := List.append_inj' this rfl
    cases h2
    exact .inr ⟨rfl, rfl, h1⟩
  · rw [List.concat_eq_append] at hp
    subst hp
    have : l ++ [z] = (pre ++ x :: y :: post') ++ [w] := by rw [h]; simp
    obtain ⟨h1, h2⟩ := List.append_inj' this rfl
    cases h2
    exact .inl ⟨post', rfl, h1⟩

/-- What holds of the server's ticker. -/
structure SInv (s : Server) : Prop where
  follows : ∀ pre x y post, s.log = pre ++ x :: y :: post → Follows x y
  idle : s.busy = false → ∀ pre x, s.log = pre ++ [x] → ∃ t delay, x = .ended t delay ∧ s.due = t + delay
  busy : s.busy = true → ∃ pre t, s.log = pre ++ [.began t] ∧ t ≤ s.now

theorem sinv_run (t0 : Int) (steps : List SStep) : SInv (srun t0 steps) := by
  induction steps using snoc_induction with
  | nil =>
    refine ⟨?_, ?_, ?_⟩
    · intro pre x y post h; simp [srun] at h
    · intro _ pre x h; simp [srun] at h
    · intro h; cases h
  | snoc l x ih =>
    rw [srun_snoc]
    generalize srun t0 l = u at *
    obtain ⟨h1, h2, h3⟩ := ih
    cases x with
    | pass t =>
      unfold sstep
      dsimp only
      split
      · exact ⟨h1, h2, h3⟩
      · refine ⟨h1, h2, fun h => ?_⟩
        obtain ⟨pre, b, e, hb⟩ := h3 h
        exact ⟨pre, b, e, by dsimp only; omega⟩
    | begin =>
      unfold sstep
      dsimp only
      split
      · rename_i hc
        refine ⟨?_, fun h => (by cases h), fun _ => ⟨u.log, u.now, rfl, Int.le_refl _⟩⟩
        intro pre x y post h
        rcases snoc_pair h with ⟨post', -, hl⟩ | ⟨-, rfl, hl⟩
        · exact h1 _ _ _ _ hl
        · obtain ⟨t, delay, rfl, hd⟩ := h2 hc.1 _ _ hl
          show t + delay ≤ u.now
          omega
      · exact ⟨h1, h2, h3⟩
    | finish delay =>
      unfold sstep
      dsimp only
      split
      · rename_i hc
        obtain ⟨pre0, b, hb, hbn⟩ := h3 hc
        refine ⟨?_, ?_, fun h => by cases h⟩
        · intro pre x y post h
          rcases snoc_pair h with ⟨post', -, hl⟩ | ⟨-, rfl, hl⟩
          · exact h1 _ _ _ _ hl
          · rw [hb] at hl
            obtain ⟨-, h5⟩ := List.append_inj' hl rfl
            cases h5
            exact hbn
        · intro _ pre x h
          obtain ⟨-, h5⟩ := List.append_inj' h rfl
          cases h5
          exact ⟨_, _, rfl, rfl⟩
      · exact ⟨h1, h2, h3⟩

/-- C131: two ticks of the server never overlap, and each begins no earlier than the delay, which the one before read from the configuration,
after that one's end. -/
theorem server_ticks_spaced (t0 : Int) (steps : List SStep) (pre post : List Ev) (x y : Ev) (h : (srun t0 steps).log = pre ++ x :: y :: post) :
    Follows x y :=
  (sinv_run t0 steps).follows _ _ _ _ h

/-- C131: and it does tick: when the delay is over, the next call begins. -/
theorem server_ticks_on_time (t0 : Int) (steps : List SStep) (t delay : Int) (pre : List Ev) (hl : (srun t0 steps).log = pre ++ [.ended t delay])
    (hd : t + delay ≤ (srun t0 steps).now) :
    (srun t0 (steps ++ [.begin])).log = (srun t0 steps).log ++ [.began (srun t0 steps).now] := by
  obtain ⟨-, h2, h3⟩ := sinv_run t0 steps
  rw [srun_snoc]
  generalize srun t0 steps = u at *
  have hb : u.busy = false := by
    cases hb : u.busy with
    | false => rfl
    | true =>
      obtain ⟨pre', b, e, -⟩ := h3 hb
      rw [hl] at e
      obtain ⟨-, h5⟩ := List.append_inj' e rfl
      cases h5
  obtain ⟨t', delay', e, hdue⟩ := h2 hb _ _ hl
  cases e
  simp only [sstep]
  rw [if_pos ⟨hb, by omega⟩]

/-- `n` calls of `OnTick` with the interval missing (or not positive). -/
def spin (delay : Int) : Nat → List SStep
  | 0 => []
  | n + 1 => [.begin, .finish delay] ++ spin delay n

theorem spin_run (delay : Int) (hd : delay ≤ 0) (n : Nat) (u : Server) (hb : u.busy = false) (hdue : u.due ≤ u.now) :
    ((spin delay n).foldl sstep u).log = u.log ++ (List.replicate n [Ev.began u.now, Ev.ended u.now delay]).flatten ∧
    ((spin delay n).foldl sstep u).now = u.now := by
  induction n generalizing u with
  | zero => simp [spin]
  | succ n ih =>
    show ((spin delay n).foldl sstep (sstep (sstep u .begin) (.finish delay))).log = _ ∧
      ((spin delay n).foldl sstep (sstep (sstep u .begin) (.finish delay))).now = _
    have h1 : sstep u .begin = { u with busy := true, log := u.log ++ [.began u.now] } := by
      simp only [sstep]; rw [if_pos ⟨hb, hdue⟩]
    have h2 : sstep (sstep u .begin) (.finish delay) = { u with busy := false, due := u.now + delay, log := u.log ++ [.began u.now, .ended u.now delay] } := by
      rw [h1]; simp [sstep]
    rw [h2]
    obtain ⟨h3, h4⟩ := ih { u with busy := false, due := u.now + delay, log := u.log ++ [.began u.now, .ended u.now delay] } rfl
      (by dsimp only; omega)
    rw [h3, h4]
    simp [List.replicate_succ]

/-- C131 fails: without `Server.TickDuration` in the configuration there is no default and no pause: once the ticker waits with its time over,
as it does at the start, any number of ticks follow one another at one moment. -/
theorem missing_tick_duration_fails (t0 delay : Int) (hd : delay ≤ 0) (steps : List SStep) (hb : (srun t0 steps).busy = false)
    (hdue : (srun t0 steps).due ≤ (srun t0 steps).now) (n : Nat) :
    (srun t0 (steps ++ spin delay n)).log =
      (srun t0 steps).log ++ (List.replicate n [Ev.began (srun t0 steps).now, Ev.ended (srun t0 steps).now delay]).flatten := by
  rw [srun_append]
  exact (spin_run delay hd n _ hb hdue).1

/-- C131 fails: so a client that was silent for more than a minute is not given the time to answer. Whatever happened before on a
connection of CMPP or SMGP that is logged in: four ticks at one moment, with the heartbeats they send, end it. -/
theorem no_pause_cuts_off_fails (e : Heartbeat.Env) (he : e.proto ≠ .sgip) (t0 now : Int) (steps : List Heartbeat.Step)
    (hl : (Heartbeat.run e t0 steps).login = true) (hs : (Heartbeat.run e t0 steps).lastUse + 60 * 1000000000 < now)
    (hf : now ≤ (Heartbeat.run e t0 steps).lastUse + e.force) :
    Heartbeat.Ev.endBeat now ∈ (Heartbeat.run e t0 (steps ++ [.tick now, .task now, .tick now, .task now, .tick now, .task now, .tick now])).log := by
  have hra : Heartbeat.run e t0 (steps ++ [.tick now, .task now, .tick now, .task now, .tick now, .task now, .tick now]) =
      [Heartbeat.Step.tick now, .task now, .tick now, .task now, .tick now, .task now, .tick now].foldl (Heartbeat.step e) (Heartbeat.run e t0 steps) := by
    unfold Heartbeat.run; rw [List.foldl_append]
  rw [hra]
  generalize Heartbeat.run e t0 steps = u at *
  -- a tick with too many heartbeats unanswered
  have cut : ∀ v : Heartbeat.State, v.lastUse = u.lastUse → v.nAt > 2 → Heartbeat.Ev.endBeat now ∈ (Heartbeat.step e v (.tick now)).log := by
    intro v h1 h2
    simp only [Heartbeat.step, Heartbeat.onTick]
    rw [if_neg (by rw [h1]; omega), if_pos h2]
    simp
  -- one tick and one heartbeat
  have beat : ∀ v : Heartbeat.State, v.lastUse = u.lastUse → v.login = true → ¬ v.nAt > 2 →
      ((Heartbeat.step e (Heartbeat.step e v (.tick now)) (.task now)).nAt = v.nAt + 1 ∧
       (Heartbeat.step e (Heartbeat.step e v (.tick now)) (.task now)).lastUse = u.lastUse ∧
       (Heartbeat.step e (Heartbeat.step e v (.tick now)) (.task now)).login = true) := by
    intro v h1 h2 h3
    have : Heartbeat.step e v (.tick now) = { v with tasks := v.tasks + 1 } := by
      simp only [Heartbeat.step, Heartbeat.onTick]
      rw [if_neg (by rw [h1]; omega), if_neg h3, if_pos h2]
    rw [this]
    simp only [Heartbeat.step, Heartbeat.onTask]
    rw [if_neg (by omega), if_pos ⟨by show v.lastUse + Heartbeat.minute < now; rw [h1]; unfold Heartbeat.minute; omega, he⟩]
    exact ⟨rfl, h1, h2⟩
  have keep : ∀ (v : Heartbeat.State) (x : Heartbeat.Step) (y : Heartbeat.Ev), y ∈ v.log → y ∈ (Heartbeat.step e v x).log := by
    intro v x y h
    cases x with
    | tick t => simp only [Heartbeat.step, Heartbeat.onTick]; split; · simp [h]
                split; · simp [h]
                split <;> exact h
    | task t =>
      simp only [Heartbeat.step, Heartbeat.onTask]
      split
      · exact h
      · split
        · simp [h]
        · exact h
    | answer t => simp only [Heartbeat.step]; split <;> simp [h]
    | use t => simp [Heartbeat.step, h]
    | login t => simp [Heartbeat.step, h]
  have keepAll : ∀ (l : List Heartbeat.Step) (v : Heartbeat.State) (y : Heartbeat.Ev), y ∈ v.log → y ∈ (l.foldl (Heartbeat.step e) v).log := by
    intro l
    induction l with
    | nil => intro v y h; exact h
    | cons x l ih => intro v y h; exact ih _ _ (keep v x y h)
  show _ ∈ (List.foldl (Heartbeat.step e) (Heartbeat.step e u (.tick now)) [.task now, .tick now, .task now, .tick now, .task now, .tick now]).log
  by_cases h0 : u.nAt > 2
  · exact keepAll _ _ _ (cut u rfl h0)
  obtain ⟨a1, a2, a3⟩ := beat u rfl hl h0
  show _ ∈ (List.foldl (Heartbeat.step e) (Heartbeat.step e (Heartbeat.step e u (.tick now)) (.task now)) [.tick now, .task now, .tick now, .task now, .tick now]).log
  generalize Heartbeat.step e (Heartbeat.step e u (.tick now)) (.task now) = u1 at *
  by_cases h1 : u1.nAt > 2
  · exact keepAll [.task now, .tick now, .task now, .tick now] _ _ (cut u1 a2 h1)
  obtain ⟨b1, b2, b3⟩ := beat u1 a2 a3 h1
  show _ ∈ (List.foldl (Heartbeat.step e) (Heartbeat.step e (Heartbeat.step e u1 (.tick now)) (.task now)) [.tick now, .task now, .tick now]).log
  generalize Heartbeat.step e (Heartbeat.step e u1 (.tick now)) (.task now) = u2 at *
  by_cases h2 : u2.nAt > 2
  · exact keepAll [.task now, .tick now] _ _ (cut u2 b2 h2)
  obtain ⟨c1, c2, c3⟩ := beat u2 b2 b3 h2
  show _ ∈ (Heartbeat.step e (Heartbeat.step e (Heartbeat.step e u2 (.tick now)) (.task now)) (.tick now)).log
  generalize Heartbeat.step e (Heartbeat.step e u2 (.tick now)) (.task now) = u3 at *
  refine cut u3 c2 ?_
  rw [c1, b1, a1]
  rw [b1, a1] at h2
  rw [a1] at h1
  have e0 : u.nAt.toNat ≤ 2 := by simpa [UInt8.lt_iff_toNat_lt] using h0
  have e2 : (u.nAt + 1 + 1).toNat ≤ 2 := by simpa [UInt8.lt_iff_toNat_lt] using h2
  show (2 : UInt8) < _
  rw [UInt8.lt_iff_toNat_lt]
  simp only [UInt8.toNat_add] at e2 ⊢
  simp at e2 ⊢
  omega

/-! ## Examples -/

/-- The accounts are reloaded every five minutes if nothing is configured: at 299 s not yet, at 300 s, not again at 599 s; the tick at 600 s waits until the
job, busy up to 700 s, is ready; and then nothing up to 899 s. -/
example : ∃ s, start .reload 0 0 = some s ∧
    (run s [.pass (299 * second), .receive, .pass (300 * second), .receive, .pass (599 * second), .receive, .pass (700 * second), .receive,
      .pass (899 * second), .receive]).runs = [700 * second, 300 * second] := ⟨_, rfl, by decide⟩

example : ∃ s, start .expire (3 * second) 0 = some s ∧ Expected .expire (3 * second) s.d ∧
    Due 0 s.d (last 0 (run s [.pass (4 * second)]).runs) (run s [.pass (4 * second)]).now :=
  ⟨_, rfl, .inl ⟨by decide, rfl⟩, 1, by decide, by decide, by decide⟩

example : start .sort (-1) 0 = none := negative_interval_fails _ _ _ (by decide)

/-- Three ticks at the very start; with ten seconds configured the second begins at 10 s. -/
example : (srun 0 ([] ++ spin 0 3)).log = [.began 0, .ended 0 0, .began 0, .ended 0 0, .began 0, .ended 0 0] :=
  missing_tick_duration_fails 0 0 (by decide) [] rfl (by decide) 3

example : (srun 0 [.begin, .finish (10 * second), .pass (9 * second), .begin, .pass (10 * second), .begin]).log =
    [.began 0, .ended 0 (10 * second), .began (10 * second)] := by decide

example : Heartbeat.Ev.endBeat (70 * second) ∈ (Heartbeat.run { proto := .cmpp, force := 100 * second } 0 ([.login (5 * second)] ++
    [.tick (70 * second), .task (70 * second), .tick (70 * second), .task (70 * second), .tick (70 * second), .task (70 * second), .tick (70 * second)])).log :=
  no_pause_cuts_off_fails _ (by decide) _ _ _ (by decide) (by decide) (by decide)

end Gosms.Intervals
