import Verif.Model.ServerTicks
import Verif.Props.ServerReports
import Verif.Props.MoText

/-! # The server's own frames beside its answers (C49, C68, C76-C80, C90) -/

namespace Gosms.ServerTicks
open ServerTraffic (Env After)
open Handlers Spec.ServerTraffic

/-! ## The answering part is the one of Model/ServerTraffic.lean -/

/-- The answers among the frames. -/
def replies (l : List Item) : List (Nat × Bytes × After) := l.filterMap fun | .reply x => some x | .own .. => none

/-- The step of the answering part in a step. -/
def baseStep (s : State) : Step → Option ServerTraffic.Step
  | .base .loop _ => match s.queue with
    | .reply _ :: _ => some .loop
    | _ => none
  | .base x _ => some x
  | _ => none

/-- The steps of the answering part in a run. -/
def project (gb : Bytes → Option Bytes) (e : Env) : State → List Step → List ServerTraffic.Step
  | _, [] => []
  | s, x :: xs => (baseStep s x).toList ++ project gb e (step gb e s x) xs

theorem base_go (s : ServerTraffic.State) (i : Nat) (t : ServerTraffic.Task) :
    s.queue <+: (ServerTraffic.onGo s i t).queue ∧ (ServerTraffic.onGo s i t).wire = s.wire := by
  unfold ServerTraffic.onGo
  split
  · exact ⟨List.prefix_refl _, rfl⟩
  · unfold ServerTraffic.onAct
    split
    · exact ⟨List.prefix_append _ _, rfl⟩
    · exact ⟨List.prefix_refl _, rfl⟩

theorem base_step (e : Env) (s : ServerTraffic.State) (x : ServerTraffic.Step) (hx : x ≠ .loop) :
    s.queue <+: (ServerTraffic.step e s x).queue ∧ (ServerTraffic.step e s x).wire = s.wire := by
  unfold ServerTraffic.step
  split
  · exact ⟨List.prefix_refl _, rfl⟩
  · cases x with
    | packet cmd seq body d =>
      simp only [ServerTraffic.onPacket]
      split <;> exact ⟨List.prefix_refl _, rfl⟩
    | run i =>
      simp only [ServerTraffic.onRun]
      split
      · exact ⟨List.prefix_refl _, rfl⟩
      · split
        · split <;> exact ⟨List.prefix_refl _, rfl⟩
        · exact base_go _ _ _
        · exact base_go _ _ _
    | drop i =>
      simp only [ServerTraffic.onDrop]
      split
      · split <;> exact ⟨List.prefix_refl _, rfl⟩
      · exact ⟨List.prefix_refl _, rfl⟩
    | loop => exact absurd rfl hx
    | close => exact ⟨List.prefix_refl _, rfl⟩

/-- Queue and wire of the answering part are those of the connection without the server's own frames. -/
structure Sim (s : State) : Prop where
  queue : s.base.queue = replies s.queue
  wire : s.base.wire = replies s.wire

theorem replies_append (a b : List Item) : replies (a ++ b) = replies a ++ replies b := by simp [replies]

theorem replies_map (l : List (Nat × Bytes × After)) : replies (l.map .reply) = l := by
  induction l with
  | nil => rfl
  | cons x l ih => simpa [replies] using ih

theorem sim_base {e : Env} {s : State} (h : Sim s) {x : ServerTraffic.Step} (hx : x ≠ .loop) : Sim (onBase e s x) := by
  obtain ⟨⟨t, ht⟩, hw⟩ := base_step e s.base x hx
  refine ⟨?_, ?_⟩
  · simp only [onBase, replies_append, replies_map, ← h.queue, ← ht, List.drop_left]
  · simp only [onBase, hw, h.wire]

theorem onRun_same (s : State) (i : Nat) (now : Int) : (onRun s i now).base = s.base ∧ (onRun s i now).queue = s.queue ∧
    (onRun s i now).wire = s.wire ∧ (onRun s i now).own = s.own ∧ (onRun s i now).dly = s.dly ∧ (onRun s i now).closing = s.closing := by
  unfold onRun; split <;> exact ⟨rfl, rfl, rfl, rfl, rfl, rfl⟩

theorem onTick_same (s : State) (d : TickDraw) : (onTick s d).base = s.base ∧ (onTick s d).queue = s.queue ∧
    (onTick s d).wire = s.wire ∧ (onTick s d).lastUse = s.lastUse ∧ (onTick s d).nAt = s.nAt ∧ (onTick s d).dly = s.dly ∧
    (onTick s d).closing = s.closing := by
  unfold onTick
  split
  · exact ⟨rfl, rfl, rfl, rfl, rfl, rfl, rfl⟩
  · split
    · exact ⟨rfl, rfl, rfl, rfl, rfl, rfl, rfl⟩
    · split <;> exact ⟨rfl, rfl, rfl, rfl, rfl, rfl, rfl⟩

theorem replies_own (f : Bytes) (a : OwnAfter) (l : List Item) : replies (Item.own f a :: l) = replies l := rfl

theorem onTask_same (gb : Bytes → Option Bytes) (e : Env) (s : State) (i : Nat) (d : TaskDraw) :
    (onTask gb e s i d).base = s.base ∧ (onTask gb e s i d).wire = s.wire ∧ replies (onTask gb e s i d).queue = replies s.queue ∧
    (onTask gb e s i d).lastUse = s.lastUse ∧ (onTask gb e s i d).nAt = s.nAt ∧ (onTask gb e s i d).dly = s.dly ∧
    (onTask gb e s i d).closing = s.closing := by
  unfold onTask
  split
  · exact ⟨rfl, rfl, rfl, rfl, rfl, rfl, rfl⟩
  · refine ⟨rfl, rfl, ?_, rfl, rfl, rfl, rfl⟩
    simp only [replies_append]
    rename_i o _
    cases work gb e.proto s.lastUse d o with
    | none => simp [replies]
    | some x => simp [replies]

/-- One step: the answering part makes its step, and the relation is kept. -/
theorem sim_step {gb : Bytes → Option Bytes} {e : Env} {s : State} (h : Sim s) (x : Step) :
    Sim (step gb e s x) ∧ (step gb e s x).base = (baseStep s x).toList.foldl (ServerTraffic.step e) s.base := by
  unfold step
  by_cases hd : s.base.crashed ∨ s.base.isOpen = false
  · rw [if_pos hd]
    refine ⟨h, ?_⟩
    cases baseStep s x with
    | none => rfl
    | some y => simp [ServerTraffic.step, hd]
  · rw [if_neg hd]
    cases x with
    | base y now =>
      cases y with
      | loop =>
        simp only [onLoop, baseStep]
        cases hq : s.queue with
        | nil => exact ⟨h, rfl⟩
        | cons it q =>
          cases it with
          | reply x =>
            have hb : s.base.queue = x :: replies q := by rw [h.queue, hq]; rfl
            refine ⟨⟨?_, ?_⟩, rfl⟩
            · obtain ⟨k, f, a⟩ := x
              simp only [ServerTraffic.step, if_neg hd, ServerTraffic.onLoop, hb]
              unfold ServerTraffic.onAfter
              split <;> first | rfl | (split <;> rfl)
            · obtain ⟨k, f, a⟩ := x
              simp only [ServerTraffic.step, if_neg hd, ServerTraffic.onLoop, hb, replies_append, ← h.wire]
              unfold ServerTraffic.onAfter
              split <;> first | rfl | (split <;> rfl)
          | own f a =>
            have hw : replies (s.wire ++ [Item.own f a]) = s.base.wire := by rw [replies_append, ← h.wire]; simp [replies]
            have hb : s.base.queue = replies q := by rw [h.queue, hq]; rfl
            cases a <;> exact ⟨⟨hb, hw.symm⟩, rfl⟩
      | run i =>
        obtain ⟨h1, h2, h3, _⟩ := onRun_same s i now
        refine ⟨sim_base ⟨by rw [h1, h2]; exact h.queue, by rw [h1, h3]; exact h.wire⟩ (by simp), ?_⟩
        show ServerTraffic.step e (onRun s i now).base (.run i) = _
        rw [h1]; rfl
      | packet c q b d => exact ⟨sim_base h (by simp), rfl⟩
      | drop i => exact ⟨sim_base h (by simp), rfl⟩
      | close => exact ⟨sim_base h (by simp), rfl⟩
    | tick d =>
      obtain ⟨h1, h2, h3, _⟩ := onTick_same s d
      exact ⟨⟨by rw [h1, h2]; exact h.queue, by rw [h1, h3]; exact h.wire⟩, h1⟩
    | task i d =>
      obtain ⟨h1, h2, h3, _⟩ := onTask_same gb e s i d
      exact ⟨⟨by rw [h1, h3]; exact h.queue, by rw [h1, h2]; exact h.wire⟩, h1⟩

theorem sim_foldl {gb : Bytes → Option Bytes} {e : Env} (steps : List Step) : ∀ {s : State}, Sim s →
    Sim (steps.foldl (step gb e) s) ∧
      (steps.foldl (step gb e) s).base = (project gb e s steps).foldl (ServerTraffic.step e) s.base := by
  induction steps with
  | nil => intro s h; exact ⟨h, rfl⟩
  | cons x xs ih =>
    intro s h
    obtain ⟨h1, h2⟩ := sim_step (gb := gb) (e := e) h x
    obtain ⟨h3, h4⟩ := ih h1
    refine ⟨h3, ?_⟩
    rw [List.foldl_cons, h4, project, List.foldl_append, h2]

/-- The steps of the answering part in a run from the start. -/
def answering (gb : Bytes → Option Bytes) (e : Env) (t0 : Int) (steps : List Step) : List ServerTraffic.Step :=
  project gb e { lastUse := t0 } steps

theorem sim_run (gb : Bytes → Option Bytes) (e : Env) (t0 : Int) (steps : List Step) :
    Sim (run gb e t0 steps) ∧ (run gb e t0 steps).base = ServerTraffic.run e (answering gb e t0 steps) :=
  sim_foldl steps ⟨rfl, rfl⟩

theorem project_append (gb : Bytes → Option Bytes) (e : Env) (a b : List Step) : ∀ s : State,
    project gb e s (a ++ b) = project gb e s a ++ project gb e (a.foldl (step gb e) s) b := by
  induction a with
  | nil => intro s; rfl
  | cons x a ih => intro s; simp [project, ih]

/-- The packets of the answering part are those of the run, in the same order. -/
theorem project_packet (gb : Bytes → Option Bytes) (e : Env) : ∀ (steps : List Step) (s : State) (a' b' : List ServerTraffic.Step)
    (cmd seq : UInt32) (body : Bytes) (d : ServerTraffic.Draw), project gb e s steps = a' ++ .packet cmd seq body d :: b' →
    ∃ a now b, steps = a ++ .base (.packet cmd seq body d) now :: b ∧ project gb e s a = a' := by
  intro steps
  induction steps with
  | nil => intro s a' b' cmd seq body d h; simp [project] at h
  | cons x xs ih =>
    intro s a' b' cmd seq body d h
    rw [project] at h
    cases hb : baseStep s x with
    | none =>
      rw [hb] at h
      obtain ⟨a, now, b, h1, h2⟩ := ih _ _ _ _ _ _ _ h
      exact ⟨x :: a, now, b, by rw [h1]; rfl, by rw [project, hb, h2]; rfl⟩
    | some y =>
      rw [hb] at h
      cases a' with
      | nil =>
        simp only [Option.toList_some, List.singleton_append, List.nil_append, List.cons.injEq] at h
        obtain ⟨rfl, _⟩ := h
        cases x with
        | tick d => cases hb
        | task i d => cases hb
        | base z now =>
          cases z with
          | loop =>
            simp only [baseStep] at hb
            split at hb <;> cases hb
          | packet c q b2 d2 => cases hb; exact ⟨[], now, xs, rfl, rfl⟩
          | run i => cases hb
          | drop i => cases hb
          | close => cases hb
      | cons y' a' =>
        simp only [Option.toList_some, List.singleton_append, List.cons_append, List.cons.injEq] at h
        obtain ⟨rfl, h⟩ := h
        obtain ⟨a, now, b, h1, h2⟩ := ih _ _ _ _ _ _ _ h
        exact ⟨x :: a, now, b, by rw [h1]; rfl, by rw [project, hb, h2]; rfl⟩

theorem project_packets (gb : Bytes → Option Bytes) (e : Env) (q : UInt32 → UInt32 → Bytes → ServerTraffic.Draw → Bool) :
    ∀ (steps : List Step) (s : State), ((project gb e s steps).filter (ServerTraffic.onPackets q)).length =
      (steps.filter fun | .base x _ => ServerTraffic.onPackets q x | _ => false).length := by
  intro steps
  induction steps with
  | nil => intro s; rfl
  | cons x xs ih =>
    intro s
    rw [project, List.filter_append, List.length_append, ih, List.filter_cons]
    cases x with
    | tick d => simp [baseStep]
    | task i d => simp [baseStep]
    | base y now =>
      cases y with
      | loop =>
        have : ServerTraffic.onPackets q .loop = false := rfl
        simp only [baseStep, this]
        split <;> simp [this]
      | packet c s2 b2 d2 =>
        simp only [baseStep, Option.toList_some, List.filter_cons, List.filter_nil]
        split <;> simp_all <;> omega
      | run i => simp [baseStep, ServerTraffic.onPackets]
      | drop i => simp [baseStep, ServerTraffic.onPackets]
      | close => simp [baseStep, ServerTraffic.onPackets]

end Gosms.ServerTicks
