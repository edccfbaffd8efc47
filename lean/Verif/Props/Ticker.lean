import Verif.Model.Ticker
import Verif.Go.Bytes

/-!
# Closing connections and the server process

The property: whatever connections open, log in, fail and close, and whenever they do so relative to the server's periodic
check, the server process goes on. It is false of the code. Proved: from every state in which the process runs and a client is connected
there is a schedule that ends the process, without the client sending anything (`closing_ends_server_fails`), and likewise for a client
that is logged in, through its goroutine pool (`pool_ends_server_fails`), and, if the library runs callbacks of failed writes, whenever writing a termination
fails (`termination_write_ends_server_fails`). Conversely the process goes on if no connection is closed or logs in while the check is at it
and no callback of a failed write is run (`server_survives_partial`), so these are the only causes in the modelled code.
-/

namespace Gosms.Ticker

/-- The client of `n` is connected: the server has accepted the connection and has not begun to close it. -/
def Connected (s : State) (n : Nat) : Prop :=
  (s.sess n).conn = true ∧ (s.sess n).stored = true ∧ (s.sess n).stage = 0 ∧ (s.sess n).renewing = false

/-- A step by which an event loop begins or goes on to close session `n`, or completes a login on it. -/
def Touches (s : State) (n : Nat) : Step → Prop
  | .open m | .login m | .renew m | .close m | .closing m => m = n
  | .write i _ => s.queue[i]? = some n
  | _ => False

/-- The ticker is at session `n`. -/
def Visiting (s : State) (n : Nat) : Prop := ∃ todo, s.pc = .visit n todo

/-- No connection is closed or logs in while the ticker is at it. -/
def Apart (late : Bool) (steps : List Step) : Prop :=
  ∀ a x b n, steps = a ++ x :: b → Visiting (run late a) n → ¬ Touches (run late a) n x

theorem run_append (late : Bool) (a b : List Step) : run late (a ++ b) = b.foldl (step late) (run late a) := by
  simp [run]

theorem run_snoc (late : Bool) (a : List Step) (x : Step) : run late (a ++ [x]) = step late (run late a) x := by
  simp [run]

theorem set_same (f : Nat → Sess) (n : Nat) (x : Sess) : set f n x n = x := by simp [set]

theorem set_other (f : Nat → Sess) (n m : Nat) (x : Sess) (h : m ≠ n) : set f n x m = f m := by simp [set, h]

/-- Finishing the visit under way, in a state where nothing else happens: enough ticks lead to an idle ticker or a crash. -/
theorem ticks_idle (late : Bool) : ∀ (k : Nat) (s : State) (n : Nat) (todo : List Instr), s.pc = .visit n todo → todo.length ≤ k →
    ∃ m, let t := (List.replicate m Step.tick).foldl (step late) s
      t.crashed = true ∨ (t.pc = .idle ∧ t.sess = s.sess ∧ t.queue = s.queue) := by
  intro k
  induction k with
  | zero =>
    intro s n todo hp hl
    have : todo = [] := List.length_eq_zero_iff.mp (Nat.le_zero.mp hl)
    subst this
    by_cases hc : s.crashed = true
    · exact ⟨0, Or.inl hc⟩
    · exact ⟨1, Or.inr (by simp [step, onTick, hp, hc])⟩
  | succ k ih =>
    intro s n todo hp hl
    by_cases hc : s.crashed = true
    · exact ⟨0, Or.inl hc⟩
    · have go : ∀ t : State, step late s .tick = t → (t.crashed = true ∨ (t.sess = s.sess ∧ t.queue = s.queue ∧
          (t.pc = .idle ∨ ∃ todo', t.pc = .visit n todo' ∧ todo'.length ≤ k))) →
          ∃ m, let t := (List.replicate m Step.tick).foldl (step late) s
            t.crashed = true ∨ (t.pc = .idle ∧ t.sess = s.sess ∧ t.queue = s.queue) := by
        intro t ht h
        rcases h with h | ⟨h1, h2, h | ⟨todo', h3, h4⟩⟩
        · exact ⟨1, Or.inl (by simpa [ht] using h)⟩
        · exact ⟨1, Or.inr (by simp [ht, h, h1, h2])⟩
        · obtain ⟨m, hm⟩ := ih t n todo' h3 h4
          refine ⟨m + 1, ?_⟩
          simp only [List.replicate_succ, List.foldl_cons, ht]
          rw [h1, h2] at hm
          exact hm
      refine go _ rfl ?_
      cases todo with
      | nil => simp [step, onTick, hp, hc]
      | cons i todo =>
        simp only [List.length_cons] at hl
        cases i with
        | checkConn =>
          refine Or.inr ⟨by simp [step, onTick, hp, hc], by simp [step, onTick, hp, hc], Or.inr ⟨_, by simp [step, onTick, hp, hc]; rfl, ?_⟩⟩
          split
          · omega
          · simp; omega
        | checkPool =>
          refine Or.inr ⟨by simp [step, onTick, hp, hc], by simp [step, onTick, hp, hc], Or.inr ⟨_, by simp [step, onTick, hp, hc]; rfl, ?_⟩⟩
          split
          · omega
          · simp; omega
        | useConn =>
          by_cases hx : (s.sess n).conn = true
          · exact Or.inr ⟨by simp [step, onTick, hp, hc, hx], by simp [step, onTick, hp, hc, hx],
              Or.inr ⟨todo, by simp [step, onTick, hp, hc, hx], by omega⟩⟩
          · exact Or.inl (by simp [step, onTick, hp, hc, hx])
        | usePool =>
          by_cases hx : (s.sess n).pool = true
          · exact Or.inr ⟨by simp [step, onTick, hp, hc, hx], by simp [step, onTick, hp, hc, hx],
              Or.inr ⟨todo, by simp [step, onTick, hp, hc, hx], by omega⟩⟩
          · exact Or.inl (by simp [step, onTick, hp, hc, hx])

/-- The ticker can always come to rest first. -/
theorem to_idle (late : Bool) (s : State) :
    ∃ m, let t := (List.replicate m Step.tick).foldl (step late) s
      t.crashed = true ∨ (t.pc = .idle ∧ t.sess = s.sess ∧ t.queue = s.queue) := by
  cases hp : s.pc with
  | idle => exact ⟨0, Or.inr ⟨hp, rfl, rfl⟩⟩
  | visit n todo => exact ticks_idle late todo.length s n todo hp (Nat.le_refl _)

/-- Closing connection `n` while the ticker logs its address. -/
def race (n : Nat) : List Step := [.visit n true, .tick, .close n, .closing n, .closing n, .tick]

theorem race_crashes (late : Bool) (s : State) (n : Nat) (hi : s.pc = .idle) (hn : Connected s n) :
    ((race n).foldl (step late) s).crashed = true := by
  obtain ⟨h1, h2, h3, h4⟩ := hn
  by_cases hc : s.crashed = true
  · simp [race, step, hc]
  · simp [race, step, hc, hi, h1, h2, h3, h4, onTick, program, onClosing, set_same]

/-- C92, refuted: in every run in which the client of `n` is connected, there is a continuation, consisting of steps of the periodic check and of
that connection closing, after which the server process has ended. -/
theorem closing_ends_server_fails (late : Bool) (steps : List Step) (n : Nat) (h : Connected (run late steps) n) :
    ∃ k, (run late (steps ++ List.replicate k .tick ++ race n)).crashed = true := by
  obtain ⟨k, hk⟩ := to_idle late (run late steps)
  refine ⟨k, ?_⟩
  rw [run_append, run_append]
  rcases hk with hk | ⟨h1, h2, _⟩
  · generalize (List.replicate k Step.tick).foldl (step late) (run late steps) = t at hk
    simp [race, step, hk]
  · refine race_crashes late _ n h1 ?_
    unfold Connected
    rw [h2]
    exact h

example : Connected (run false [.open 4, .login 4, .renew 4]) 4 := by simp [Connected, run, step, set]

/-- The same through the goroutine pool of a client that has logged in: it is released and unset when the connection closes. -/
def poolRace (n : Nat) : List Step := [.visit n true, .tick, .tick, .tick, .close n, .tick]

theorem pool_ends_server_fails (late : Bool) (steps : List Step) (n : Nat) (h : Connected (run late steps) n)
    (hp : ((run late steps).sess n).pool = true) :
    ∃ k, (run late (steps ++ List.replicate k .tick ++ poolRace n)).crashed = true := by
  obtain ⟨k, hk⟩ := to_idle late (run late steps)
  refine ⟨k, ?_⟩
  rw [run_append, run_append]
  obtain ⟨h1, h2, h3, h4⟩ := h
  rcases hk with hk | ⟨e1, e2, _⟩
  · generalize (List.replicate k Step.tick).foldl (step late) (run late steps) = t at hk
    simp [poolRace, step, hk]
  · generalize (List.replicate k Step.tick).foldl (step late) (run late steps) = t at e1 e2
    rw [← e2] at h1 h2 h3 h4 hp
    by_cases hc : t.crashed = true
    · simp [poolRace, step, hc]
    · simp [poolRace, step, hc, e1, h1, h2, h3, h4, hp, onTick, program, onClosing, set_same]

example : ((run false [.open 4, .login 4, .renew 4]).sess 4).pool = true := by simp [run, step, set]

/-- And by a second login of a client that is logged in already: its old pool is released. -/
def reloginRace (n : Nat) : List Step := [.visit n true, .tick, .tick, .tick, .login n, .tick]

theorem relogin_ends_server_fails (late : Bool) (steps : List Step) (n : Nat) (h : Connected (run late steps) n)
    (hp : ((run late steps).sess n).pool = true) :
    ∃ k, (run late (steps ++ List.replicate k .tick ++ reloginRace n)).crashed = true := by
  obtain ⟨k, hk⟩ := to_idle late (run late steps)
  refine ⟨k, ?_⟩
  rw [run_append, run_append]
  obtain ⟨h1, h2, h3, h4⟩ := h
  rcases hk with hk | ⟨e1, e2, _⟩
  · generalize (List.replicate k Step.tick).foldl (step late) (run late steps) = t at hk
    simp [reloginRace, step, hk]
  · generalize (List.replicate k Step.tick).foldl (step late) (run late steps) = t at e1 e2
    rw [← e2] at h1 h2 h3 h4 hp
    by_cases hc : t.crashed = true
    · simp [reloginRace, step, hc]
    · simp [reloginRace, step, hc, e1, h1, h2, h3, h4, hp, onTick, program, set_same]

/-- Whenever a termination waits to be written to a connected client, a failing write ends the process if the library runs callbacks of failed
writes. -/
theorem termination_write_ends_server_fails (steps : List Step) (n i : Nat) (h : Connected (run true steps) n)
    (hq : (run true steps).queue[i]? = some n) :
    (run true (steps ++ [.write i false, .closing n, .closing n, .callback (run true steps).failed.length])).crashed = true := by
  rw [run_append]
  obtain ⟨h1, h2, h3, h4⟩ := h
  generalize run true steps = t at *
  by_cases hc : t.crashed = true
  · simp [step, hc]
  · simp [step, hc, hq, h3, h4, onClosing, set_same]

example : Connected (run true [.open 4, .visit 4 false, .tick, .tick, .tick, .task 0]) 4 ∧
    (run true [.open 4, .visit 4 false, .tick, .tick, .tick, .task 0]).queue[0]? = some 4 := by
  simp [Connected, run, step, set, onTick, program]

/-- What the ticker still does at session `n` finds what it checked for. -/
def Safe (s : State) : Prop :=
  ∀ n todo, s.pc = .visit n todo →
    todo = [] ∨ todo = program true ∨ todo = program false ∨
    (todo = [.useConn, .checkPool, .usePool, .usePool] ∧ (s.sess n).conn = true) ∨
    (todo = [.useConn] ∧ (s.sess n).conn = true) ∨
    todo = [.checkPool, .usePool, .usePool] ∨
    (todo = [.usePool, .usePool] ∧ (s.sess n).pool = true) ∨
    (todo = [.usePool] ∧ (s.sess n).pool = true)

theorem onClosing_pc (s : State) (n : Nat) : (onClosing s n).pc = s.pc ∧ (onClosing s n).crashed = s.crashed := by
  simp only [onClosing]; split <;> simp

theorem onClosing_other (s : State) (n m : Nat) (h : m ≠ n) : (onClosing s n).sess m = s.sess m := by
  simp only [onClosing]; split <;> simp [set, h]

theorem safe_of {s t : State} (hs : Safe s) (hp : t.pc = s.pc) (h : ∀ n, Visiting s n → t.sess n = s.sess n) : Safe t := by
  intro n todo hn
  rw [hp] at hn
  rw [h n ⟨todo, hn⟩]
  exact hs n todo hn

theorem safe_step (s : State) (x : Step) (hs : Safe s) (hc : s.crashed = false) (ha : ∀ n, Visiting s n → ¬ Touches s n x) :
    Safe (step false s x) ∧ (step false s x).crashed = false := by
  have other : ∀ n f, (∀ m, Visiting s m → n ≠ m) → ∀ m, Visiting s m → set s.sess n f m = s.sess m := by
    intro n f h m hm
    exact set_other _ _ _ _ (fun e => h m hm e.symm)
  unfold step
  simp only [hc, Bool.false_eq_true, if_false]
  cases x with
  | «open» n =>
    simp only
    split
    · exact ⟨safe_of hs rfl (other n _ fun m hm => ha m hm), by first | exact hc | rfl⟩
    · exact ⟨hs, hc⟩
  | login n =>
    simp only
    split
    · exact ⟨safe_of hs rfl (other n _ fun m hm => ha m hm), by first | exact hc | rfl⟩
    · exact ⟨hs, hc⟩
  | renew n =>
    simp only
    split
    · exact ⟨safe_of hs rfl (other n _ fun m hm => ha m hm), by first | exact hc | rfl⟩
    · exact ⟨hs, hc⟩
  | visit n pass =>
    simp only
    split
    · refine ⟨?_, by first | exact hc | rfl⟩
      intro m todo h
      simp only [Pc.visit.injEq] at h
      obtain ⟨rfl, rfl⟩ := h
      cases pass
      · exact Or.inr (Or.inr (Or.inl rfl))
      · exact Or.inr (Or.inl rfl)
    · exact ⟨hs, hc⟩
  | tick =>
    simp only [onTick]
    cases hp : s.pc with
    | idle => exact ⟨hs, hc⟩
    | visit n todo =>
      have := hs n todo hp
      rcases this with h | h | h | ⟨h, h'⟩ | ⟨h, h'⟩ | h | ⟨h, h'⟩ | ⟨h, h'⟩ <;> subst h
      · refine ⟨?_, by first | exact hc | rfl⟩
        intro m todo h
        cases h
      · simp only [program, if_true]
        refine ⟨?_, by first | exact hc | rfl⟩
        intro m todo h
        simp only [Pc.visit.injEq] at h
        obtain ⟨rfl, rfl⟩ := h
        cases hx : (s.sess n).conn <;> simp [hx]
      · simp only [program, Bool.false_eq_true, if_false]
        refine ⟨?_, by first | exact hc | rfl⟩
        intro m todo h
        simp only [Pc.visit.injEq] at h
        obtain ⟨rfl, rfl⟩ := h
        cases hx : (s.sess n).conn <;> simp [hx]
      · simp only [h', if_true]
        refine ⟨?_, by first | exact hc | rfl⟩
        intro m todo h
        simp only [Pc.visit.injEq] at h
        obtain ⟨rfl, rfl⟩ := h
        simp
      · simp only [h', if_true]
        refine ⟨?_, by first | exact hc | rfl⟩
        intro m todo h
        simp only [Pc.visit.injEq] at h
        obtain ⟨rfl, rfl⟩ := h
        simp
      · refine ⟨?_, by first | exact hc | rfl⟩
        intro m todo h
        simp only [Pc.visit.injEq] at h
        obtain ⟨rfl, rfl⟩ := h
        cases hx : (s.sess n).pool <;> simp [hx]
      · simp only [h', if_true]
        refine ⟨?_, by first | exact hc | rfl⟩
        intro m todo h
        simp only [Pc.visit.injEq] at h
        obtain ⟨rfl, rfl⟩ := h
        simp [h']
      · simp only [h', if_true]
        refine ⟨?_, by first | exact hc | rfl⟩
        intro m todo h
        simp only [Pc.visit.injEq] at h
        obtain ⟨rfl, rfl⟩ := h
        simp
  | task i =>
    simp only
    split
    · exact ⟨hs, hc⟩
    · exact ⟨safe_of hs rfl fun _ _ => rfl, by first | exact hc | rfl⟩
  | write i ok =>
    simp only
    split
    · exact ⟨hs, hc⟩
    · rename_i n hn
      split
      · refine ⟨safe_of hs (onClosing_pc _ _).1 fun m hm => ?_, by rw [(onClosing_pc _ _).2]; first | done | exact hc⟩
        rw [onClosing_other]
        intro e
        subst e
        exact ha _ hm hn
      · split
        · exact ⟨hs, hc⟩
        · exact ⟨safe_of hs rfl fun _ _ => rfl, by first | exact hc | rfl⟩
  | close n =>
    simp only
    split
    · refine ⟨safe_of hs (onClosing_pc _ _).1 fun m hm => ?_, by rw [(onClosing_pc _ _).2]; first | done | exact hc⟩
      rw [onClosing_other]
      exact fun e => ha m hm e.symm
    · exact ⟨hs, hc⟩
  | closing n =>
    simp only
    split
    · exact ⟨hs, hc⟩
    · refine ⟨safe_of hs (onClosing_pc _ _).1 fun m hm => ?_, by rw [(onClosing_pc _ _).2]; first | done | exact hc⟩
      rw [onClosing_other]
      exact fun e => ha m hm e.symm
  | callback i =>
    simp only
    split
    · exact ⟨hs, hc⟩
    · split
      · exact ⟨safe_of hs rfl fun _ _ => rfl, rfl⟩
      · exact ⟨hs, hc⟩

/-- C92, the part that holds: if the library does not run callbacks of failed writes, and no connection opens, logs in or closes at the very
time the periodic check is at it, the server process goes on, for every number of connections and every order of all other steps. -/
theorem server_survives_partial (steps : List Step) (h : Apart false steps) : (run false steps).crashed = false := by
  suffices ∀ a b, steps = a ++ b → Safe (run false a) ∧ (run false a).crashed = false from (this steps [] (by simp)).2
  intro a
  induction a using Gosms.snoc_induction with
  | nil =>
    intro b _
    exact ⟨(fun n todo hn => by cases hn), rfl⟩
  | snoc a x ih =>
    intro b hb
    have e : steps = a ++ x :: b := by simpa using hb
    obtain ⟨h1, h2⟩ := ih (x :: b) e
    rw [run_snoc]
    exact safe_step _ x h1 h2 fun n hn => h a x b n e hn

/-- A check of `Apart` by computation, for the example. -/
def touches (s : State) (n : Nat) : Step → Bool
  | .open m | .login m | .renew m | .close m | .closing m => m == n
  | .write i _ => s.queue[i]? == some n
  | _ => false

def apart : State → List Step → Bool
  | _, [] => true
  | s, x :: xs => (match s.pc with | .idle => true | .visit n _ => !touches s n x) && apart (step false s x) xs

theorem apart_sound (s : State) (steps : List Step) (h : apart s steps = true) :
    ∀ a x b n, steps = a ++ x :: b → Visiting (a.foldl (step false) s) n → ¬ Touches (a.foldl (step false) s) n x := by
  induction steps generalizing s with
  | nil => intro a x b n e; cases a <;> cases e
  | cons y ys ih =>
    intro a x b n e hv
    simp only [apart, Bool.and_eq_true] at h
    cases a with
    | nil =>
      simp only [List.nil_append, List.cons.injEq] at e
      obtain ⟨rfl, rfl⟩ := e
      obtain ⟨todo, hv⟩ := hv
      simp only [List.foldl_nil] at hv ⊢
      rw [hv] at h
      have := h.1
      cases y <;> simp_all [touches, Touches]
    | cons z a =>
      simp only [List.cons_append, List.cons.injEq] at e
      obtain ⟨rfl, rfl⟩ := e
      exact ih _ h.2 a x b n rfl hv

/-- Two clients; one closes its connection while the check is at the other, which is then terminated. -/
def apartDemo : List Step :=
  [.open 1, .open 2, .login 1, .renew 1, .visit 1 true, .tick, .close 2, .tick, .closing 2, .closing 2, .tick, .tick, .tick, .tick,
    .visit 1 false, .tick, .tick, .tick, .task 0, .write 0 true, .closing 1, .closing 1]

example : Apart false apartDemo ∧ ((run false apartDemo).sess 1).conn = false ∧ ((run false (apartDemo.take 20)).sess 1).conn = true :=
  ⟨apart_sound {} apartDemo (by decide), by decide, by decide⟩

/-! ## What closing and the check leave behind -/

/-- What is known of a session at each stage of its closing. -/
def Staged (x : Sess) : Prop :=
  x.stage ≤ 3 ∧ (x.stage = 0 → x.conn = true ∧ x.stored = true) ∧ (1 ≤ x.stage → x.pool = false ∧ x.renewing = false) ∧
  (x.stage = 1 → x.conn = true ∧ x.stored = true) ∧ (x.stage = 2 → x.conn = true ∧ x.stored = false) ∧
  (x.stage = 3 → x.conn = false ∧ x.stored = false)

theorem staged_set {f : Nat → Sess} (h : ∀ m, Staged (f m)) (n : Nat) (x : Sess) (hx : Staged x) (m : Nat) : Staged (set f n x m) := by
  by_cases e : m = n
  · subst e; rw [set_same]; exact hx
  · rw [set_other _ _ _ _ e]; exact h m

theorem staged_closing {s : State} (h : ∀ m, Staged (s.sess m)) (n : Nat) (hr : (s.sess n).stage = 0 → (s.sess n).renewing = false) (m : Nat) :
    Staged ((onClosing s n).sess m) := by
  obtain ⟨h1, h2, h3, h4, h5, h6⟩ := h n
  unfold onClosing
  dsimp only
  split
  · rename_i e
    exact staged_set h n _ (by
      refine ⟨by simp, by simp, fun _ => ⟨rfl, hr e⟩, fun _ => h2 e, by simp, by simp⟩) m
  · rename_i e
    have := h3 (by omega)
    exact staged_set h n _ (by
      refine ⟨by simp, by simp, fun _ => this, by simp, fun _ => ⟨(h4 e).1, rfl⟩, by simp⟩) m
  · rename_i e
    have := h3 (by omega)
    exact staged_set h n _ (by
      refine ⟨by simp, by simp, fun _ => this, by simp, by simp, fun _ => ⟨rfl, (h5 e).2⟩⟩) m
  · exact h m

theorem staged_step (late : Bool) {s : State} (h : ∀ m, Staged (s.sess m)) (x : Step) (m : Nat) : Staged ((step late s x).sess m) := by
  unfold step
  split
  · exact h m
  · cases x with
    | «open» n =>
      dsimp only; split
      · exact staged_set h n _ (by simp [Staged]) m
      · exact h m
    | login n =>
      dsimp only; split
      · rename_i e
        obtain ⟨h1, h2, h3, h4, h5, h6⟩ := h n
        exact staged_set h n _ (by
          have := h2 e.1
          simp [Staged, e.1, this]) m
      · exact h m
    | renew n =>
      dsimp only; split
      · rename_i e
        obtain ⟨h1, h2, h3, h4, h5, h6⟩ := h n
        exact staged_set h n _ (by
          have := h2 e.1
          simp [Staged, e.1, this]) m
      · exact h m
    | visit n pass => dsimp only; split <;> exact h m
    | tick => unfold onTick; dsimp only; split <;> (try split) <;> exact h m
    | task i => dsimp only; split <;> exact h m
    | write i ok =>
      dsimp only; split
      · exact h m
      · split
        · rename_i e
          exact staged_closing (s := { s with queue := s.queue.eraseIdx i, failed := s.failed ++ if ok = true then [] else [_] }) h _ (fun _ => e.2) m
        · split <;> exact h m
    | close n =>
      dsimp only; split
      · rename_i e; exact staged_closing h n (fun _ => e.2) m
      · exact h m
    | closing n =>
      dsimp only; split
      · exact h m
      · rename_i e; exact staged_closing h n (fun x => absurd x e) m
    | callback i => dsimp only; split <;> (try split) <;> exact h m

theorem staged_run (late : Bool) (steps : List Step) (n : Nat) : Staged ((run late steps).sess n) := by
  induction steps using Gosms.snoc_induction generalizing n with
  | nil => simp [Staged, run]
  | snoc steps x ih => rw [run_snoc]; exact staged_step late ih x n

/-- In every schedule: a session is in the server's map only while its connection is there; one that is closing has no goroutine pool; one
whose closing is done (or that was never opened) has nothing left, and a new connection is registered at once. -/
theorem closed_leaves_nothing (late : Bool) (steps : List Step) (n : Nat) :
    (((run late steps).sess n).stored = true → ((run late steps).sess n).conn = true) ∧
    (((run late steps).sess n).stage ≠ 0 → ((run late steps).sess n).pool = false) ∧
    (((run late steps).sess n).stage = 3 → ((run late steps).sess n).conn = false ∧ ((run late steps).sess n).stored = false) ∧
    (((run late steps).sess n).stage = 0 → ((run late steps).sess n).conn = true ∧ ((run late steps).sess n).stored = true) := by
  obtain ⟨h1, h2, h3, h4, h5, h6⟩ := staged_run late steps n
  refine ⟨fun h => ?_, fun h => (h3 (by omega)).1, h6, h2⟩
  rcases (show ((run late steps).sess n).stage = 0 ∨ ((run late steps).sess n).stage = 1 ∨ ((run late steps).sess n).stage = 2 ∨
    ((run late steps).sess n).stage = 3 by omega) with e | e | e | e
  · exact (h2 e).1
  · exact (h4 e).1
  · exact (h5 e).1
  · rw [(h6 e).2] at h; cases h

theorem onTick_visiting (s : State) (n : Nat) (h : Visiting (onTick s) n) : Visiting s n := by
  obtain ⟨todo, h⟩ := h
  unfold onTick at h
  split at h
  · exact ⟨todo, h⟩
  · cases h
  · rename_i m t hp; dsimp only at h; cases h; exact ⟨_, hp⟩
  · rename_i m t hp
    split at h
    · dsimp only at h; cases h; exact ⟨_, hp⟩
    · exact ⟨todo, h⟩
  · rename_i m t hp; dsimp only at h; cases h; exact ⟨_, hp⟩
  · rename_i m t hp
    split at h
    · dsimp only at h; cases h; exact ⟨_, hp⟩
    · exact ⟨todo, h⟩

/-- The check comes only to sessions that are in the map, one after the other. -/
theorem visits_registered (late : Bool) (steps : List Step) (x : Step) (n : Nat) (h : Visiting (run late (steps ++ [x])) n) :
    Visiting (run late steps) n ∨ ((run late steps).pc = .idle ∧ ((run late steps).sess n).stored = true) := by
  rw [run_snoc] at h
  generalize run late steps = s at h
  unfold step at h
  split at h
  · exact Or.inl h
  · cases x with
    | «open» m => dsimp only at h; split at h <;> exact Or.inl h
    | login m => dsimp only at h; split at h <;> exact Or.inl h
    | renew m => dsimp only at h; split at h <;> exact Or.inl h
    | visit m pass =>
      dsimp only at h
      split at h
      · rename_i e
        obtain ⟨todo, h⟩ := h
        dsimp only at h
        cases h
        exact Or.inr e
      · exact Or.inl h
    | tick => exact Or.inl (onTick_visiting s n h)
    | task i => dsimp only at h; split at h <;> exact Or.inl h
    | write i ok =>
      dsimp only at h
      split at h
      · exact Or.inl h
      · split at h
        · obtain ⟨todo, h⟩ := h; rw [(onClosing_pc _ _).1] at h; exact Or.inl ⟨todo, h⟩
        · split at h <;> exact Or.inl h
    | close m =>
      dsimp only at h
      split at h
      · obtain ⟨todo, h⟩ := h; rw [(onClosing_pc _ _).1] at h; exact Or.inl ⟨todo, h⟩
      · exact Or.inl h
    | closing m =>
      dsimp only at h
      split at h
      · exact Or.inl h
      · obtain ⟨todo, h⟩ := h; rw [(onClosing_pc _ _).1] at h; exact Or.inl ⟨todo, h⟩
    | callback i => dsimp only at h; split at h <;> (try split at h) <;> exact Or.inl h

/-- Terminations of session `n` that are due and not yet written. -/
def due (s : State) (n : Nat) : Nat := s.tasks.count n + s.queue.count n

theorem count_eraseIdx : ∀ {l : List Nat} {i m : Nat}, l[i]? = some m → ∀ n,
    (l.eraseIdx i).count n + (if m = n then 1 else 0) = l.count n
  | [], i, m, h, n => by simp at h
  | a :: l, 0, m, h, n => by
    simp only [List.getElem?_cons_zero, Option.some.injEq] at h
    subst h
    simp only [List.eraseIdx_cons_zero, List.count_cons, beq_iff_eq]
  | a :: l, i + 1, m, h, n => by
    simp only [List.getElem?_cons_succ] at h
    have := count_eraseIdx h n
    simp only [List.eraseIdx_cons_succ, List.count_cons, beq_iff_eq]
    omega

theorem onClosing_due (s : State) (n m : Nat) : due (onClosing s n) m = due s m := by
  unfold onClosing due; dsimp only; split <;> rfl

/-- A termination that is due is not lost: it goes only when its connection is closing or closed. -/
theorem termination_kept (late : Bool) (steps : List Step) (x : Step) (n : Nat)
    (h : due (run late (steps ++ [x])) n < due (run late steps) n) :
    ((run late (steps ++ [x])).sess n).stage ≠ 0 := by
  have hs := staged_run late steps
  rw [run_snoc] at h ⊢
  generalize run late steps = s at h hs ⊢
  have irr : ∀ t : State, due t n = due s n → ¬ due t n < due s n := by intro t e; omega
  unfold step at h ⊢
  split at h
  · omega
  · rename_i hc
    rw [if_neg hc]
    cases x with
    | «open» m => dsimp only at h; split at h <;> exact absurd h (irr _ rfl)
    | login m => dsimp only at h; split at h <;> exact absurd h (irr _ rfl)
    | renew m => dsimp only at h; split at h <;> exact absurd h (irr _ rfl)
    | visit m pass =>
      dsimp only at h
      split at h
      · unfold due at h; dsimp only at h; rw [List.count_append] at h; omega
      · omega
    | tick => unfold onTick at h; dsimp only at h; split at h <;> (try split at h) <;> exact absurd h (irr _ rfl)
    | task i =>
      dsimp only at h ⊢
      split at h
      · omega
      · rename_i m hm
        unfold due at h
        dsimp only at h
        have := count_eraseIdx hm n
        rw [List.count_append] at h
        by_cases e : m = n
        · subst e
          rw [if_pos rfl] at this
          split at h
          · simp only [List.count_singleton_self] at h; omega
          · rename_i hcn
            intro e0
            exact hcn ((hs m).2.1 e0).1
        · rw [if_neg e] at this; omega
    | write i ok =>
      dsimp only at h ⊢
      split at h
      · omega
      · rename_i m hm
        have := count_eraseIdx hm n
        split at h
        · rename_i e
          rw [if_pos e]
          rw [onClosing_due] at h
          unfold due at h
          dsimp only at h
          by_cases e' : m = n
          · subst e'
            unfold onClosing
            simp only [e.1, set_same]
            simp
          · rw [if_neg e'] at this; omega
        · rename_i e
          rw [if_neg e]
          split at h
          · omega
          · rename_i e0
            rw [if_neg e0]
            unfold due at h
            dsimp only at h ⊢
            by_cases e' : m = n
            · subst e'; exact e0
            · rw [if_neg e'] at this; omega
    | close m =>
      dsimp only at h
      split at h
      · exact absurd h (irr _ (onClosing_due _ _ _))
      · omega
    | closing m =>
      dsimp only at h
      split at h
      · omega
      · exact absurd h (irr _ (onClosing_due _ _ _))
    | callback i => dsimp only at h; split at h <;> (try split at h) <;> exact absurd h (irr _ rfl)

/-- A silent session is checked, its termination is written and its connection closed. -/
example :
    due (run false [.open 7, .visit 7 false]) 7 = 1 ∧
    due (run false [.open 7, .visit 7 false, .task 0]) 7 = 1 ∧
    due (run false [.open 7, .visit 7 false, .task 0, .write 0 true]) 7 = 0 ∧
    ((run false [.open 7, .visit 7 false, .task 0, .write 0 true, .closing 7, .closing 7]).sess 7).stage = 3 := by decide

/-- A login replaces the pool, and only after the old one was given up. -/
theorem renewed_once (late : Bool) (steps : List Step) (n : Nat)
    (h : ((run late (steps ++ [.renew n])).sess n) ≠ ((run late steps).sess n)) :
    ((run late steps).sess n).renewing = true ∧ ((run late steps).sess n).stage = 0 ∧ ((run late (steps ++ [.renew n])).sess n).pool = true := by
  rw [run_snoc] at h ⊢
  generalize run late steps = s at h ⊢
  unfold step at h ⊢
  split at h
  · exact absurd rfl h
  · rename_i hc
    rw [if_neg hc]
    dsimp only at h ⊢
    split at h
    · rename_i e
      rw [if_pos e]
      exact ⟨e.2, e.1, by simp only [set_same]⟩
    · exact absurd rfl h

example : ((run false [.open 7, .login 7, .renew 7]).sess 7).pool = true := by decide

end Gosms.Ticker
