import Verif.Model.Process
import Verif.Go.Bytes

/-!
# C113 — each protocol is served at its configured port, whatever becomes of the others
-/

namespace Gosms.Process

/-! ## Specification -/

namespace Spec

/-- A configuration that can work: proper ports, all different, none in use by another process; of the debugging port only if it is
enabled. -/
def Good (taken : List Int) (c : Conf) : Prop :=
  (∀ p, 1 ≤ c.port p ∧ c.port p ≤ 65535 ∧ c.port p ∉ taken) ∧ (∀ p p', c.port p = c.port p' → p = p') ∧
  (c.pprof = true → 1 ≤ c.pprofPort ∧ c.pprofPort ≤ 65535 ∧ c.pprofPort ∉ taken ∧ ∀ p, c.port p ≠ c.pprofPort)

end Spec

variable (taken : List Int) (c : Conf)

theorem run_snoc (a : List Step) (x : Step) : run taken c (a ++ [x]) = step taken c (run taken c a) x := by
  unfold run; rw [List.foldl_append]; rfl

theorem free_iff (s : State) (q : Int) :
    free taken s q = true ↔ (1 ≤ q ∧ q ≤ 65535) ∧ q ∉ taken ∧ q ∉ s.serving.map Prod.snd := by
  unfold free
  rw [Bool.and_eq_true, Bool.and_eq_true, decide_eq_true_iff, Bool.not_eq_true', Bool.not_eq_true', List.contains_eq_mem, List.contains_eq_mem,
    decide_eq_false_iff_not, decide_eq_false_iff_not, and_assoc]

/-- What always holds: who serves was started; ports are the configured ones or picked for port 0; no listener twice, no port twice, none of
another process. -/
theorem inv (steps : List Step) :
    (run taken c steps).started ++ (run taken c steps).todo = order c ∧
    (∀ e ∈ (run taken c steps).serving, e.1 ∈ (run taken c steps).started ∧ (c.portOf e.1 = e.2 ∨ c.portOf e.1 = 0) ∧ e.2 ∉ taken ∧
      1 ≤ e.2 ∧ e.2 ≤ 65535) ∧
    ((run taken c steps).serving.map Prod.fst).Nodup ∧ ((run taken c steps).serving.map Prod.snd).Nodup := by
  induction steps using snoc_induction with
  | nil => refine ⟨rfl, ?_, ?_, ?_⟩ <;> simp [run]
  | snoc a x ih =>
    rw [run_snoc]
    generalize run taken c a = s at *
    obtain ⟨h1, h2, h3, h4⟩ := ih
    have add : ∀ w q, w ∈ s.started → w ∉ s.serving.map Prod.fst → (c.portOf w = q ∨ c.portOf w = 0) → free taken s q = true →
        (∀ e ∈ s.serving ++ [(w, q)], e.1 ∈ s.started ∧ (c.portOf e.1 = e.2 ∨ c.portOf e.1 = 0) ∧ e.2 ∉ taken ∧ 1 ≤ e.2 ∧ e.2 ≤ 65535) ∧
        ((s.serving ++ [(w, q)]).map Prod.fst).Nodup ∧ ((s.serving ++ [(w, q)]).map Prod.snd).Nodup := by
      intro w q hw hn hp hf
      obtain ⟨hr, ht, hb⟩ := (free_iff taken s q).1 hf
      refine ⟨?_, ?_, ?_⟩
      · intro e he
        rcases List.mem_append.1 he with he | he
        · exact h2 e he
        · rw [List.mem_singleton.1 he]; exact ⟨hw, hp, ht, hr⟩
      · rw [List.map_append, List.nodup_append]
        refine ⟨h3, by simp, ?_⟩
        intro b hb' d hd
        have : d = w := by simpa using hd
        rw [this]; exact fun e => hn (e ▸ hb')
      · rw [List.map_append, List.nodup_append]
        refine ⟨h4, by simp, ?_⟩
        intro b hb' d hd
        have : d = q := by simpa using hd
        rw [this]; exact fun e => hb (e ▸ hb')
    unfold step
    split
    · exact ⟨h1, h2, h3, h4⟩
    · cases x with
      | main =>
        cases ht : s.todo with
        | nil => simp only [ht]; exact ⟨by rw [← ht]; exact h1, h2, h3, h4⟩
        | cons w r =>
          simp only [ht]
          refine ⟨?_, fun e he => ?_, h3, h4⟩
          · rw [ht] at h1; simpa using h1
          · obtain ⟨g1, g2⟩ := h2 e he
            exact ⟨List.mem_append_left _ g1, g2⟩
      | bind w any =>
        dsimp only
        split
        · rename_i hw
          split
          · rename_i h0
            split
            · rename_i hf
              exact ⟨h1, add w any hw.1 hw.2 (.inr h0) hf⟩
            · exact ⟨h1, h2, h3, h4⟩
          · split
            · rename_i hf
              exact ⟨h1, add w _ hw.1 hw.2 (.inl rfl) hf⟩
            · exact ⟨h1, h2, h3, h4⟩
        · exact ⟨h1, h2, h3, h4⟩
      | stops w =>
        dsimp only
        split <;> exact ⟨h1, h2, h3, h4⟩

/-- C113: a server with a configured port serves at this port or not at all; no two listeners share a port. -/
theorem serves_at_configured_port (steps : List Step) (w : Who) (q : Int) (h : (w, q) ∈ (run taken c steps).serving) (hc : c.portOf w ≠ 0) :
    q = c.portOf w ∧ (∀ w', (w', q) ∈ (run taken c steps).serving → w' = w) ∧ ∀ q', (w, q') ∈ (run taken c steps).serving → q' = q := by
  obtain ⟨_, h2, h3, h4⟩ := inv taken c steps
  generalize (run taken c steps).serving = l at *
  refine ⟨?_, ?_, ?_⟩
  · rcases (h2 _ h).2.1 with e | e
    · exact e.symm
    · exact absurd e hc
  · intro w' h'
    clear h2 h3
    induction l with
    | nil => cases h
    | cons e r ih =>
      rw [List.map_cons, List.nodup_cons] at h4
      rcases List.mem_cons.1 h with he | he
      · rcases List.mem_cons.1 h' with he' | he'
        · rw [← he] at he'; exact (Prod.mk.inj he').1
        · rw [← he] at h4; exact absurd (List.mem_map.2 ⟨_, he', rfl⟩) h4.1
      · rcases List.mem_cons.1 h' with he' | he'
        · rw [← he'] at h4; exact absurd (List.mem_map.2 ⟨_, he, rfl⟩) h4.1
        · exact ih he h4.2 he'
  · intro q' h'
    clear h2 h4
    induction l with
    | nil => cases h
    | cons e r ih =>
      rw [List.map_cons, List.nodup_cons] at h3
      rcases List.mem_cons.1 h with he | he
      · rcases List.mem_cons.1 h' with he' | he'
        · rw [← he] at he'; exact (Prod.mk.inj he').2
        · rw [← he] at h3; exact absurd (List.mem_map.2 ⟨_, he', rfl⟩) h3.1
      · rcases List.mem_cons.1 h' with he' | he'
        · rw [← he'] at h3; exact absurd (List.mem_map.2 ⟨_, he, rfl⟩) h3.1
        · exact ih he h3.2 he'

theorem good_order (hg : Spec.Good taken c) : (∀ w ∈ order c, 1 ≤ c.portOf w ∧ c.portOf w ≤ 65535 ∧ c.portOf w ∉ taken) ∧
    ∀ w ∈ order c, ∀ w' ∈ order c, c.portOf w = c.portOf w' → w = w' := by
  obtain ⟨g1, g2, g3⟩ := hg
  have hp : Who.pprof ∈ order c → c.pprof = true := by
    unfold order
    cases c.pprof <;> simp
  constructor
  · intro w hw
    cases w with
    | pprof => obtain ⟨a, b, d, _⟩ := g3 (hp hw); exact ⟨a, b, d⟩
    | server p => exact g1 p
  · intro w hw w' hw' h
    cases w with
    | pprof =>
      cases w' with
      | pprof => rfl
      | server p => exact absurd h.symm ((g3 (hp hw)).2.2.2 p)
    | server p =>
      cases w' with
      | pprof => exact absurd h ((g3 (hp hw')).2.2.2 p)
      | server p' => exact congrArg Who.server (g2 p p' h)

/-- C113: with proper, different and free ports, and engines that do not stop, the process does not end, whatever the order in which the
goroutines get on; and each listener that was started serves once it got on. -/
theorem all_serve_partial (hg : Spec.Good taken c) (steps : List Step) (hs : ∀ w, Step.stops w ∉ steps) :
    (run taken c steps).fatal = false ∧
    ∀ w any, w ∈ (run taken c steps).started → (w, c.portOf w) ∈ (run taken c (steps ++ [.bind w any])).serving := by
  have hg := good_order taken c hg
  have bindOk : ∀ (a : List Step), (run taken c a).fatal = false → ∀ w any, w ∈ (run taken c a).started →
      (run taken c (a ++ [.bind w any])).fatal = false ∧ (w, c.portOf w) ∈ (run taken c (a ++ [.bind w any])).serving := by
    intro a ih w any hw
    have hi := inv taken c a
    rw [run_snoc]
    generalize run taken c a = s at *
    obtain ⟨h1, h2, h3, h4⟩ := hi
    have hword : ∀ u ∈ s.started, u ∈ order c := fun u hu => h1 ▸ List.mem_append_left _ hu
    have hp := hg.1 w (hword w hw)
    unfold step
    rw [if_neg (by rw [ih]; exact Bool.false_ne_true)]
    dsimp only
    by_cases hsv : w ∈ s.serving.map Prod.fst
    · rw [if_neg (fun h => h.2 hsv)]
      refine ⟨ih, ?_⟩
      obtain ⟨e, he, hew⟩ := List.mem_map.1 hsv
      have hq := (h2 e he).2.1
      rw [hew] at hq
      have : e = (w, c.portOf w) := by
        obtain ⟨ew, eq⟩ := e
        simp only at hew hq
        rcases hq with hq | hq
        · rw [hew, hq]
        · omega
      rw [← this]; exact he
    · have hfree : free taken s (c.portOf w) = true := by
        refine (free_iff taken s _).2 ⟨⟨hp.1, hp.2.1⟩, hp.2.2, fun hm => ?_⟩
        obtain ⟨e, he, heq⟩ := List.mem_map.1 hm
        obtain ⟨g1, g2, _⟩ := h2 e he
        have hpe := hg.1 e.1 (hword _ g1)
        have : c.portOf e.1 = c.portOf w := by
          rcases g2 with g2 | g2
          · rw [g2, heq]
          · omega
        have := hg.2 _ (hword _ g1) _ (hword _ hw) this
        exact hsv (this ▸ List.mem_map_of_mem he)
      rw [if_pos ⟨hw, hsv⟩, if_neg (by omega), if_pos hfree]
      exact ⟨ih, List.mem_append_right _ (by simp)⟩
  have alive : (run taken c steps).fatal = false := by
    induction steps using snoc_induction with
    | nil => rfl
    | snoc a x ih =>
      have ih := ih fun w h => hs w (List.mem_append_left _ h)
      cases x with
      | main =>
        rw [run_snoc]
        unfold step
        rw [if_neg (by rw [ih]; exact Bool.false_ne_true)]
        dsimp only
        split <;> exact ih
      | bind w any =>
        by_cases hw : w ∈ (run taken c a).started
        · exact (bindOk a ih w any hw).1
        · rw [run_snoc]
          unfold step
          rw [if_neg (by rw [ih]; exact Bool.false_ne_true)]
          dsimp only
          rw [if_neg (fun h => hw h.1)]
          exact ih
      | stops w => exact absurd (List.mem_append_right _ (List.mem_singleton.2 rfl)) (hs w)
  exact ⟨alive, fun w any hw => (bindOk steps alive w any hw).2⟩

/-- How far the main goroutine is, as long as the process lives. -/
theorem todo_eq (steps : List Step) (h : (run taken c steps).fatal = false) :
    (run taken c steps).todo = (order c).drop (steps.count .main) := by
  induction steps using snoc_induction with
  | nil => rfl
  | snoc a x ih =>
    rw [run_snoc] at h ⊢
    have ha : (run taken c a).fatal = false := by
      cases hf : (run taken c a).fatal with
      | false => rfl
      | true => unfold step at h; rw [if_pos hf, hf] at h; cases h
    have ih := ih ha
    generalize run taken c a = s at *
    rw [List.count_append]
    unfold step at h ⊢
    rw [if_neg (by rw [ha]; exact Bool.false_ne_true)] at h ⊢
    cases x with
    | main =>
      rw [show List.count Step.main [Step.main] = 1 from rfl, ← List.drop_drop, ← ih]
      cases ht : s.todo with
      | nil => simp only [ht]; rfl
      | cons w r => simp only [ht]; rfl
    | bind w any =>
      rw [show List.count Step.main [Step.bind w any] = 0 from by rw [List.count_singleton]; rfl]
      dsimp only at h ⊢
      split <;> (try split) <;> (try split) <;> exact ih
    | stops w =>
      rw [show List.count Step.main [Step.stops w] = 0 from by rw [List.count_singleton]; rfl]
      dsimp only at h ⊢
      split <;> exact ih

/-- C113: with such ports, once the main goroutine has made its four steps, every protocol whose goroutine got on is served at the port
configured for this protocol, and the debugging port, if enabled, likewise; whatever the order. -/
theorem each_protocol_served_partial (hg : Spec.Good taken c) (steps : List Step) (hs : ∀ w, Step.stops w ∉ steps)
    (hm : 4 ≤ steps.count .main) :
    (∀ p any, (Who.server p, c.port p) ∈ (run taken c (steps ++ [.bind (.server p) any])).serving) ∧
    (∀ any, c.pprof = true → (Who.pprof, c.pprofPort) ∈ (run taken c (steps ++ [.bind .pprof any])).serving) ∧
    (c.pprof = false → ∀ q, (Who.pprof, q) ∉ (run taken c steps).serving) := by
  obtain ⟨halive, hserve⟩ := all_serve_partial taken c hg steps hs
  obtain ⟨h1, h2, _, _⟩ := inv taken c steps
  have hlen : (order c).length ≤ 4 := by unfold order; cases c.pprof <;> simp
  have ht : (run taken c steps).todo = [] := by
    rw [todo_eq taken c steps halive]
    exact List.drop_of_length_le (by omega)
  rw [ht, List.append_nil] at h1
  refine ⟨fun p any => hserve (.server p) any ?_, fun any hpp => hserve .pprof any ?_, fun hpp q hq => ?_⟩
  · rw [h1]; unfold order; cases p <;> simp
  · rw [h1]; unfold order; simp [hpp]
  · have := (h2 _ hq).1
    rw [h1] at this
    unfold order at this
    simp [hpp] at this

/-- C113 fails: a port that cannot be bound - in use by another process, configured twice, out of range - ends the process as soon as its
goroutine gets on, with the servers that serve already; so does the debugging port. -/
theorem one_port_ends_all_fails (steps : List Step) (w : Who) (any : Int) (hf : (run taken c steps).fatal = false)
    (hw : w ∈ (run taken c steps).started) (hn : ∀ q, (w, q) ∉ (run taken c steps).serving) (h0 : c.portOf w ≠ 0)
    (hbad : c.portOf w ∈ taken ∨ (∃ w', (w', c.portOf w) ∈ (run taken c steps).serving) ∨ c.portOf w < 0 ∨ 65535 < c.portOf w) :
    (run taken c (steps ++ [.bind w any])).fatal = true := by
  rw [run_snoc]
  generalize run taken c steps = s at *
  unfold step
  rw [if_neg (by rw [hf]; exact Bool.false_ne_true)]
  dsimp only
  have hns : w ∉ s.serving.map Prod.fst := by
    intro h
    obtain ⟨e, he, hew⟩ := List.mem_map.1 h
    exact hn e.2 (by rw [← hew]; exact he)
  rw [if_pos ⟨hw, hns⟩, if_neg h0, if_neg]
  intro h
  obtain ⟨hr, ht, hb⟩ := (free_iff taken s _).1 h
  rcases hbad with g | ⟨w', g⟩ | g | g
  · exact ht g
  · exact hb (List.mem_map_of_mem g)
  · omega
  · omega

/-- C113 fails: the failure of one server ends all. -/
theorem one_server_ends_all_fails (steps : List Step) (w : Who) (q : Int) (hw : (w, q) ∈ (run taken c steps).serving) :
    (run taken c (steps ++ [.stops w])).fatal = true := by
  rw [run_snoc]
  unfold step
  split
  · assumption
  · dsimp only
    rw [if_pos (List.mem_map_of_mem hw)]

/-- C113 fails: a server without a configured port serves at whatever port the system picks. -/
theorem no_port_fails (steps : List Step) (w : Who) (any : Int) (hf : (run taken c steps).fatal = false)
    (hw : w ∈ (run taken c steps).started) (hn : ∀ q, (w, q) ∉ (run taken c steps).serving) (h0 : c.portOf w = 0)
    (hany : 1 ≤ any ∧ any ≤ 65535) (htk : any ∉ taken) (hsv : ∀ w', (w', any) ∉ (run taken c steps).serving) :
    (w, any) ∈ (run taken c (steps ++ [.bind w any])).serving := by
  rw [run_snoc]
  generalize run taken c steps = s at *
  unfold step
  rw [if_neg (by rw [hf]; exact Bool.false_ne_true)]
  dsimp only
  have hns : w ∉ s.serving.map Prod.fst := by
    intro h
    obtain ⟨e, he, hew⟩ := List.mem_map.1 h
    exact hn e.2 (by rw [← hew]; exact he)
  rw [if_pos ⟨hw, hns⟩, if_pos h0, if_pos]
  · exact List.mem_append_right _ (by simp)
  · refine (free_iff taken s _).2 ⟨hany, htk, fun h => ?_⟩
    obtain ⟨e, he, hew⟩ := List.mem_map.1 h
    exact hsv e.1 (by rw [← hew]; exact he)

/-- C113: once ended, it serves nothing more. -/
theorem fatal_final (steps more : List Step) (h : (run taken c steps).fatal = true) : run taken c (steps ++ more) = run taken c steps := by
  unfold run at *
  rw [List.foldl_append]
  generalize steps.foldl (step taken c) _ = s at *
  induction more with
  | nil => rfl
  | cons x r ih =>
    rw [List.foldl_cons]
    have : step taken c s x = s := by unfold step; rw [if_pos h]
    rw [this]; exact ih

/-! ## Examples: the shipped ports -/

def exConf : Conf := ⟨fun | .cmpp => 10086 | .sgip => 10010 | .smgp => 10000, true, 10088⟩

example : Spec.Good [22, 80] exConf := by
  refine ⟨fun p => ?_, fun p p' => ?_, fun _ => ⟨by decide, by decide, by decide, fun p => ?_⟩⟩
  · cases p <;> decide
  · cases p <;> cases p' <;> decide
  · cases p <;> decide

def exSteps : List Step := [.main, .main, .bind (.server .cmpp) 0, .main, .bind .pprof 0, .main, .bind (.server .sgip) 0]

example : 4 ≤ exSteps.count .main ∧ ∀ w, Step.stops w ∉ exSteps :=
  ⟨by decide, fun w h => by simp [exSteps] at h⟩

example : (run [22, 80] exConf exSteps).serving = [(.server .cmpp, 10086), (.pprof, 10088), (.server .sgip, 10010)] := by decide

example : (run [22, 10000] exConf (exSteps ++ [.bind (.server .smgp) 0])).fatal = true := by decide

example : let r := run [] { exConf with port := fun _ => 0 } (exSteps ++ [.bind (.server .smgp) 40001])
    r.fatal = false ∧ (Who.server .smgp, 40001) ∈ r.serving := by decide

end Gosms.Process
