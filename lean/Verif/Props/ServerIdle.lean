import Verif.Spec.ServerIdle
import Verif.Props.ServerLife
import Verif.Props.SubmitExchange

/-!
# C145: a session that is merely idle is not ended

Props/ServerLife.lean with clocks: a client that answers the heartbeats counts as active.
-/

namespace Gosms.ServerTicks
open ServerTraffic (Env After Draw)
open Handlers Spec.ServerTraffic
open Heartbeat (Ev)
open Spec (lastActivity)

/-- The clock at a step. -/
def clock : Step → Int
  | .base _ now => now
  | .tick d => d.now
  | .task _ d => d.now

/-- Only a written login response logs in. -/
theorem stat_step (e : Env) (s : ServerTraffic.State) (x : ServerTraffic.Step) (hx : x ≠ .loop) :
    (ServerTraffic.step e s x).stat = s.stat := by
  unfold ServerTraffic.step
  split
  · rfl
  · cases x with
    | packet cmd seq body d => simp only [ServerTraffic.onPacket]; split <;> rfl
    | run i =>
      simp only [ServerTraffic.onRun]
      split
      · rfl
      · have hgo : ∀ t, (ServerTraffic.onGo s i t).stat = s.stat := by
          intro t
          unfold ServerTraffic.onGo
          split
          · rfl
          · unfold ServerTraffic.onAct
            split <;> rfl
        split
        · split <;> rfl
        · exact hgo _
        · exact hgo _
    | drop i =>
      simp only [ServerTraffic.onDrop]
      split
      · split <;> rfl
      · rfl
    | loop => exact absurd rfl hx
    | close => rfl

/-- A step uses the session, or leaves it as it is and logs nobody in. -/
theorem use_step (gb : Bytes → Option Bytes) (e : Env) {s : State} (hsim : Sim s) (y : Step) :
    (step gb e s y).lastUse = clock y ∨
    (step gb e s y).lastUse = s.lastUse ∧ ((step gb e s y).base.stat = .login → s.base.stat = .login) := by
  unfold step
  by_cases hd : s.base.crashed ∨ s.base.isOpen = false
  · rw [if_pos hd]; exact .inr ⟨rfl, id⟩
  rw [if_neg hd]
  cases y with
  | tick d => exact .inr ⟨(onTick_same s d).2.2.2.1, by dsimp only; rw [(onTick_same s d).1]; exact id⟩
  | task i d => exact .inr ⟨(onTask_same gb e s i d).2.2.2.1, by dsimp only; rw [(onTask_same gb e s i d).1]; exact id⟩
  | base x now =>
    have other : ∀ s' : State, s'.base = s.base → x ≠ .loop → (onBase e s' x).base.stat = .login → s.base.stat = .login := by
      intro s' hs' hx h
      simp only [onBase, stat_step e _ x hx, hs'] at h
      exact h
    cases x with
    | loop =>
      simp only [onLoop]
      cases hq : s.queue with
      | nil => exact .inr ⟨rfl, id⟩
      | cons it q =>
        cases it with
        | reply x =>
          by_cases ht : touches s x = true
          · left; simp only [ht, if_true, clock]
          · right
            refine ⟨by simp only [ht]; rfl, fun h => ?_⟩
            simp only [ServerTraffic.step, if_neg hd, ServerTraffic.onLoop, hsim.queue, hq, replies, List.filterMap_cons] at h
            obtain ⟨k, f, a⟩ := x
            cases a <;> simp only [ServerTraffic.onAfter] at h <;> first | exact h | exact absurd rfl ht | cases h
        | own f a => cases a <;> exact .inr ⟨rfl, id⟩
    | run i =>
      have h1 := (onRun_same s i now).1
      dsimp only
      by_cases hu : (onRun s i now).lastUse = now
      · left; exact hu
      · right
        refine ⟨?_, other _ h1 (by simp)⟩
        show (onRun s i now).lastUse = s.lastUse
        unfold onRun at hu ⊢
        split at hu
        · exact absurd rfl hu
        · exact absurd rfl hu
        · rfl
    | packet cmd seq body d => exact .inr ⟨rfl, other s rfl (by simp)⟩
    | drop i => exact .inr ⟨rfl, other s rfl (by simp)⟩
    | close => exact .inr ⟨rfl, other s rfl (by simp)⟩

/-- A heartbeat is due, waits for the event loop, or has been written in addition to `n` others. -/
def Pending (p : Proto) (n : Nat) (s : State) : Prop :=
  Own.active ∈ s.own ∨ (∃ f c, activeCmd p = some c ∧ command f = be32 c ∧ Item.own f .beat ∈ s.queue) ∨ n < beatFrames p s

theorem mem_eraseIdx_of_ne {α : Type} (l : List α) : ∀ (i : Nat) (x y : α), l[i]? = some y → x ∈ l → x ≠ y → x ∈ l.eraseIdx i := by
  induction l with
  | nil => intro i x y h; simp at h
  | cons a l ih =>
    intro i x y h hx hne
    cases i with
    | zero =>
      simp only [List.getElem?_cons_zero, Option.some.injEq] at h
      subst h
      simpa [hne] using hx
    | succ i =>
      simp only [List.getElem?_cons_succ] at h
      simp only [List.eraseIdx_cons_succ, List.mem_cons] at hx ⊢
      rcases hx with rfl | hx
      · exact .inl rfl
      · exact .inr (ih i x y h hx hne)

theorem pending_step (gb : Bytes → Option Bytes) (e : Env) (hp : e.proto ≠ .sgip) (n : Nat) {s : State} (y : Step)
    (hlive : ¬ (s.base.crashed ∨ s.base.isOpen = false)) (hidle : s.lastUse + minute < clock y) (hn : n ≤ beatFrames e.proto s)
    (h : Pending e.proto n s) : Pending e.proto n (step gb e s y) := by
  rcases h with h | ⟨f, c, hc, hf, h⟩ | h
  · unfold step
    rw [if_neg hlive]
    cases y with
    | tick d =>
      left
      dsimp only
      unfold onTick
      split
      · exact List.mem_append_left _ h
      · split
        · exact List.mem_append_left _ h
        · split
          · exact List.mem_append_left _ (List.mem_append_left _ h)
          · exact h
    | task i d =>
      dsimp only
      unfold onTask
      split
      · exact .inl h
      · rename_i o ho
        by_cases hoa : o = .active
        · subst hoa
          right; left
          have hi : s.lastUse + minute < d.now := hidle
          have : ∃ f c, activeCmd e.proto = some c ∧ command f = be32 c ∧ work gb e.proto s.lastUse d .active = some (f, .beat) := by
            obtain ⟨x, hx⟩ : ∃ x, work gb e.proto s.lastUse d .active = some (x, .beat) := by
              simp only [work, if_pos hi]
              cases hpr : e.proto with
              | sgip => exact absurd hpr hp
              | cmpp => exact ⟨_, rfl⟩
              | smgp => exact ⟨_, rfl⟩
            obtain ⟨c, hc, hf⟩ := (sent_command (work_sent hx)).1 rfl
            exact ⟨x, c, hc, hf, hx⟩
          obtain ⟨f, c, hc, hf, hw⟩ := this
          refine ⟨f, c, hc, hf, List.mem_append_right _ ?_⟩
          rw [hw]
          simp
        · left
          exact mem_eraseIdx_of_ne _ _ _ _ ho h (Ne.symm hoa)
    | base x now =>
      left
      cases x with
      | loop =>
        dsimp only
        unfold onLoop
        split
        · exact h
        · exact h
        · dsimp only; split <;> exact h
      | run i =>
        show Own.active ∈ (onRun s i now).own
        rw [(onRun_same s i now).2.2.2.1]
        exact h
      | packet cmd seq body d => exact h
      | drop i => exact h
      | close => exact h
  · unfold step
    rw [if_neg hlive]
    have keep : Item.own f .beat ∈ (step gb e s y).queue → Pending e.proto n (step gb e s y) := fun hk => .inr (.inl ⟨f, c, hc, hf, hk⟩)
    unfold step at keep
    rw [if_neg hlive] at keep
    cases y with
    | tick d => exact keep (by dsimp only; rw [(onTick_same s d).2.1]; exact h)
    | task i d =>
      apply keep
      dsimp only
      unfold onTask
      split
      · exact h
      · exact List.mem_append_left _ h
    | base x now =>
      cases x with
      | loop =>
        dsimp only at keep ⊢
        cases hq : s.queue with
        | nil => rw [hq] at h; cases h
        | cons it q =>
          rw [hq] at h
          rcases List.mem_cons.1 h with rfl | h'
          · right; right
            have hw : (onLoop e s now).wire = s.wire ++ [.own f .beat] := by simp only [onLoop, hq]
            unfold beatFrames frames at hn ⊢
            rw [hw, List.map_append, List.filter_append, List.length_append]
            have : (([Item.own f .beat].map Item.frame).filter fun f => (activeCmd e.proto).any fun c => command f = be32 c) = [f] := by
              simp only [List.map_cons, List.map_nil, Item.frame, hc, Option.any_some, hf, List.filter_cons, List.filter_nil, decide_true, if_true]
            rw [this, List.length_singleton]
            omega
          · apply keep
            unfold onLoop
            rw [hq]
            cases it with
            | reply x => exact h'
            | own f' a => cases a <;> exact h'
      | run i =>
        apply keep
        show _ ∈ (onRun s i now).queue ++ _
        rw [(onRun_same s i now).2.1]
        exact List.mem_append_left _ h
      | packet cmd seq body d => exact keep (List.mem_append_left _ h)
      | drop i => exact keep (List.mem_append_left _ h)
      | close => exact keep (List.mem_append_left _ h)
  · exact .inr (.inr (Nat.lt_of_lt_of_le h (beatFrames_mono gb e e.proto [y] s)))

/-- An event of the history that counts as use is, at its time, the last use. -/
theorem answer_used (gb : Bytes → Option Bytes) (e : Env) (h16 : ∀ x, (e.md5 x).length = 16) (t0 : Int) (a b : List Step) {t : Int}
    (h : Ev.answer t ∈ history gb e (run gb e t0 a) b) :
    ∃ b1 i b2, b = b1 ++ .base (.run i) t :: b2 ∧ (run gb e t0 (a ++ b1 ++ [.base (.run i) t])).lastUse = t := by
  induction b using snoc_induction with
  | nil => cases h
  | snoc b x ih =>
    rw [history_append, List.mem_append] at h
    rcases h with h | h
    · obtain ⟨b1, i, b2, h1, h2⟩ := ih h
      exact ⟨b1, i, b2 ++ [x], by rw [h1]; simp, h2⟩
    · rw [← run_append] at h
      simp only [history, List.append_nil] at h
      have hx : ∃ i, x = .base (.run i) t ∧ events gb e (run gb e t0 (a ++ b)) x = [.answer t] := by
        unfold events at h ⊢
        split at h
        · rename_i now
          exfalso
          by_cases hd : (run gb e t0 (a ++ b)).base.crashed ∨ (run gb e t0 (a ++ b)).base.isOpen = false
          · rw [if_pos hd] at h; cases h
          · rw [if_neg hd] at h
            cases hq : (run gb e t0 (a ++ b)).queue with
            | nil => rw [hq] at h; cases h
            | cons it q =>
              rw [hq] at h
              simp only [List.head?_cons, Option.map_some, Option.getD_some] at h
              cases it with
              | reply y =>
                simp only [written] at h
                split at h <;> simp at h
              | own f o => cases o <;> simp [written] at h
        · rename_i i now
          revert h
          generalize finished (run gb e t0 (a ++ b)) _ _ = o
          cases o with
          | none => simp
          | some r =>
            simp only [Option.map_some, Option.getD_some, handled]
            split
            · intro h
              simp only [List.mem_singleton, Ev.answer.injEq] at h
              subst h
              exact ⟨i, rfl, rfl⟩
            · split <;> simp
        · cases h
      obtain ⟨i, rfl, hev⟩ := hx
      refine ⟨b, i, [], rfl, ?_⟩
      rw [(session_history gb e h16 t0 _).1, log_snoc, Heartbeat.lastActivity_append, hev]
      rfl

/-- An SGIP session is used only by an answer that accepts a submit or a login. -/
theorem sgip_use_step (gb : Bytes → Option Bytes) (e : Env) (h16 : ∀ x, (e.md5 x).length = 16) (hp : e.proto = .sgip) (t0 : Int) (ts : List Step) (y : Step) :
    (step gb e (run gb e t0 ts) y).lastUse = (run gb e t0 ts).lastUse ∨
    ∃ x, (step gb e (run gb e t0 ts) y).wire = (run gb e t0 ts).wire ++ [.reply x] ∧ Spec.ServerTicks.activity .sgip x.2.1 = true := by
  by_cases hd : (run gb e t0 ts).base.crashed ∨ (run gb e t0 ts).base.isOpen = false
  · left; unfold step; rw [if_pos hd]
  cases y with
  | tick d => left; unfold step; rw [if_neg hd]; exact (onTick_same _ d).2.2.2.1
  | task i d => left; unfold step; rw [if_neg hd]; exact (onTask_same gb e _ i d).2.2.2.1
  | base x now =>
    cases x with
    | loop =>
      unfold step
      rw [if_neg hd]
      simp only [onLoop]
      cases hq : (run gb e t0 ts).queue with
      | nil => exact .inl rfl
      | cons it q =>
        cases it with
        | reply x =>
          have ht := touches_iff (gb := gb) h16 (t0 := t0) (steps := ts) (x := x) (by rw [hq]; exact List.mem_cons_self)
          rw [hp] at ht
          by_cases hact : touches (run gb e t0 ts) x = true
          · exact .inr ⟨x, rfl, by rw [← ht]; exact hact⟩
          · left; simp only [hact]; rfl
        | own f a => cases a <;> exact .inl rfl
    | run i =>
      left
      rw [← run_snoc, (session_history gb e h16 t0 _).1, log_snoc, Heartbeat.lastActivity_append, ← (session_history gb e h16 t0 ts).1]
      have hev : events gb e (run gb e t0 ts) (.base (.run i) now) = [] := by
        show ((finished (run gb e t0 ts) (step gb e (run gb e t0 ts) (.base (.run i) now)) i).map fun r => handled e.proto now r.cmd).getD [] = _
        cases hr : finished (run gb e t0 ts) (step gb e (run gb e t0 ts) (.base (.run i) now)) i with
        | none => rfl
        | some r =>
          have hm : r ∈ (run gb e t0 ts).base.reqs := by
            unfold finished at hr
            split at hr
            · obtain ⟨t, _, h⟩ := Option.bind_eq_some_iff.1 hr
              exact List.mem_of_getElem? h
            · cases hr
          have hg := ((ServerTraffic.inv_run_all e (answering gb e t0 ts)).good r (by rw [← (sim_run gb e t0 ts).2]; exact hm)).1
          have hk := handled_kind hg now
          rw [hp] at hg
          have hne : ∀ x ∈ chain .sgip, x.2 ≠ .activeResp ∧ x.2 ≠ .deliverResp := by decide
          obtain ⟨n1, n2⟩ := hne _ hg
          simp only [Option.map_some, Option.getD_some] at hk ⊢
          rw [hk]
      rw [hev]
      rfl
    | packet c q b d => left; unfold step; rw [if_neg hd]; rfl
    | drop i => left; unfold step; rw [if_neg hd]; rfl
    | close => left; unfold step; rw [if_neg hd]; rfl

/-- A termination is due, waits for the event loop, or has been written. -/
def Ending (p : Proto) (s : State) : Prop :=
  Own.terminate ∈ s.own ∨ (∃ f, command f = be32 (terminateCmd p) ∧ Item.own f .close ∈ s.queue) ∨ ∃ f ∈ frames s, command f = be32 (terminateCmd p)

theorem ending_step (gb : Bytes → Option Bytes) (e : Env) {s : State} (y : Step)
    (hlive : ¬ (s.base.crashed ∨ s.base.isOpen = false)) (h : Ending e.proto s) : Ending e.proto (step gb e s y) := by
  rcases h with h | ⟨f, hf, h⟩ | ⟨f, h, hf⟩
  · unfold step
    rw [if_neg hlive]
    cases y with
    | tick d =>
      left
      dsimp only
      unfold onTick
      split
      · exact List.mem_append_left _ h
      · split
        · exact List.mem_append_left _ h
        · split
          · exact List.mem_append_left _ (List.mem_append_left _ h)
          · exact h
    | task i d =>
      dsimp only
      unfold onTask
      split
      · exact .inl h
      · rename_i o ho
        by_cases hoa : o = .terminate
        · subst hoa
          right; left
          obtain ⟨x, hx⟩ : ∃ x, work gb e.proto s.lastUse d .terminate = some (x, .close) := by
            simp only [work]
            cases e.proto <;> exact ⟨_, rfl⟩
          refine ⟨x, (sent_command (work_sent hx)).2.2 rfl, List.mem_append_right _ ?_⟩
          rw [hx]
          simp
        · left
          exact mem_eraseIdx_of_ne _ _ _ _ ho h (Ne.symm hoa)
    | base x now =>
      left
      cases x with
      | loop =>
        dsimp only
        unfold onLoop
        split
        · exact h
        · exact h
        · dsimp only; split <;> exact h
      | run i =>
        show Own.terminate ∈ (onRun s i now).own
        rw [(onRun_same s i now).2.2.2.1]
        exact h
      | packet cmd seq body d => exact h
      | drop i => exact h
      | close => exact h
  · unfold step
    rw [if_neg hlive]
    have keep : Item.own f .close ∈ (step gb e s y).queue → Ending e.proto (step gb e s y) := fun hk => .inr (.inl ⟨f, hf, hk⟩)
    unfold step at keep
    rw [if_neg hlive] at keep
    cases y with
    | tick d => exact keep (by dsimp only; rw [(onTick_same s d).2.1]; exact h)
    | task i d =>
      apply keep
      dsimp only
      unfold onTask
      split
      · exact h
      · exact List.mem_append_left _ h
    | base x now =>
      cases x with
      | loop =>
        dsimp only at keep ⊢
        cases hq : s.queue with
        | nil => rw [hq] at h; cases h
        | cons it q =>
          rw [hq] at h
          rcases List.mem_cons.1 h with rfl | h'
          · right; right
            have hw : (onLoop e s now).wire = s.wire ++ [.own f .close] := by simp only [onLoop, hq]
            refine ⟨f, ?_, hf⟩
            unfold frames
            rw [hw, List.map_append]
            exact List.mem_append_right _ (List.mem_singleton.2 rfl)
          · apply keep
            unfold onLoop
            rw [hq]
            cases it with
            | reply x => exact h'
            | own f' a => cases a <;> exact h'
      | run i =>
        apply keep
        show _ ∈ (onRun s i now).queue ++ _
        rw [(onRun_same s i now).2.1]
        exact List.mem_append_left _ h
      | packet cmd seq body d => exact keep (List.mem_append_left _ h)
      | drop i => exact keep (List.mem_append_left _ h)
      | close => exact keep (List.mem_append_left _ h)
  · refine .inr (.inr ⟨f, ?_, hf⟩)
    obtain ⟨w, hw⟩ := wire_prefix gb e [y] s
    have hw' : (step gb e s y).wire = s.wire ++ w := hw.symm
    unfold frames at h ⊢
    rw [hw', List.map_append]
    exact List.mem_append_left _ h

end Gosms.ServerTicks

namespace Gosms.ServerLife
open Gosms.Spec Gosms.Spec.ServerLife
open Gosms.Spec.ServerStream (KeptUp Numbered)
open Gosms.Traffic (Packet Conn receive decodeAndCheckHeader)
open Gosms.ServerTraffic (Env Draw answer)
open Gosms.ServerTicks (Settled onPacketSteps AccountsAll Sim Pending)
open Gosms.Spec.ServerTraffic (packetSeq seqOf loginCmd submitCmd terminateCmd activeCmd)
open Gosms.ServerStream (never onTraffic_closed)

theorem tk_step (z : Bool) (gb : Bytes → Option Bytes) (e : Env) (s : State) (x : Step) :
    (step z gb e s x).tk = s.tk ∨ ∃ y, (step z gb e s x).tk = ServerTicks.step gb e s.tk y ∧ ServerTicks.clock y = clock x := by
  cases x with
  | data bytes d now =>
    simp only [step]
    split
    · exact .inl rfl
    · obtain ⟨hd, hdec⟩ := decode_some z e.proto (s.buffer ++ bytes)
      simp only [hdec]
      cases hd with
      | wait => exact .inl rfl
      | close => exact .inr ⟨.base .close now, rfl, rfl⟩
      | packet cmd seq body rest => exact .inr ⟨.base (.packet cmd seq body d) now, rfl, rfl⟩
  | run i now => exact .inr ⟨.base (.run i) now, rfl, rfl⟩
  | drop i now => exact .inr ⟨.base (.drop i) now, rfl, rfl⟩
  | loop now => exact .inr ⟨.base .loop now, rfl, rfl⟩
  | close now => exact .inr ⟨.base .close now, rfl, rfl⟩
  | tick d => exact .inr ⟨.tick d, rfl, rfl⟩
  | task i d => exact .inr ⟨.task i d, rfl, rfl⟩

theorem sim_life (z : Bool) (gb : Bytes → Option Bytes) (e : Env) (t0 : Int) (steps : List Step) : Sim (run z gb e t0 steps).tk := by
  obtain ⟨ts, c, h1, _⟩ := life_inv z gb e t0 steps
  rw [h1]
  exact (ServerTicks.sim_run gb e t0 ts).1

/-- From one moment to a later one the session is used, at a moment between them, or it stays as it was and nobody logs in. -/
theorem use_between (z : Bool) (gb : Bytes → Option Bytes) (e : Env) (t0 : Int) (a b : List Step) :
    (run z gb e t0 (a ++ b)).tk.lastUse ∈ b.map clock ∨
    (run z gb e t0 (a ++ b)).tk.lastUse = (run z gb e t0 a).tk.lastUse ∧
      ((run z gb e t0 (a ++ b)).tk.base.stat = .login → (run z gb e t0 a).tk.base.stat = .login) := by
  induction b using snoc_induction with
  | nil => right; simp
  | snoc b x ih =>
    rw [← List.append_assoc, run_snoc, List.map_append, List.mem_append]
    rcases tk_step z gb e (run z gb e t0 (a ++ b)) x with h | ⟨y, h, hc⟩
    · rw [h]
      rcases ih with ih | ih
      · exact .inl (.inl ih)
      · exact .inr ih
    · rw [h]
      rcases ServerTicks.use_step gb e (sim_life z gb e t0 (a ++ b)) y with h1 | ⟨h1, h2⟩
      · left; right; rw [h1, hc]; simp
      · rw [h1]
        rcases ih with ih | ih
        · exact .inl (.inl ih)
        · exact .inr ⟨ih.1, fun h => ih.2 (h2 h)⟩

theorem ordered_append {t0 : Int} {a b : List Step} (h : Ordered t0 (a ++ b)) : Ordered t0 a := by
  unfold Ordered at h ⊢
  rw [List.map_append, ← List.cons_append] at h
  exact (List.pairwise_append.1 h).1

theorem ordered_from {t0 : Int} {a b : List Step} {x : Step} (h : Ordered t0 (a ++ x :: b)) : ∀ t ∈ (x :: b).map clock, clock x ≤ t := by
  unfold Ordered at h
  rw [List.map_append, ← List.cons_append] at h
  have := (List.pairwise_append.1 h).2.1
  rw [List.map_cons] at this
  intro t ht
  rw [List.map_cons] at ht
  rcases List.mem_cons.1 ht with rfl | ht
  · exact Int.le_refl _
  · exact (List.pairwise_cons.1 this).1 t ht

theorem ordered_start {t0 : Int} {a : List Step} (h : Ordered t0 a) : ∀ t ∈ a.map clock, t0 ≤ t := fun t ht => (List.pairwise_cons.1 h).1 t ht

/-- The session was used when an answer was handled: after any moment before the answer arrived. -/
theorem answer_use {z : Bool} {gb : Bytes → Option Bytes} {e : Env} (h16 : ∀ x, (e.md5 x).length = 16) {t0 : Int} {qs : List Packet}
    (hs : Sendable z e.proto qs) {steps : List Step} {rest : Bytes} (hst : (segments steps).flatten ++ rest = qs.flatMap raw)
    (hk : KeptUp qs (segments steps))
    (hwin : ∀ bytes d now, Step.data bytes d now ∈ steps → ∀ n ac, d.find n = some ac → 1 ≤ ac.mtWindowSize)
    (hone : (qs.filter fun q => q.cmd = loginCmd e.proto).length ≤ 1)
    (hc : (run z gb e t0 steps).tk.base.crashed = false) (ho : (run z gb e t0 steps).tk.base.isOpen = true)
    (hr : Settled gb e (run z gb e t0 steps).tk)
    {j : Nat} {q : Packet} (hq : qs[j]? = some q) (hans : AnswersHeartbeat e.proto q)
    (hj : j < arrived qs (segments steps) (segments steps).length)
    {s0 s0' : List Step} (hs0 : steps = s0 ++ s0') (hj0 : arrived qs (segments s0) (segments s0).length ≤ j) :
    ∃ w y s2, s0' = w ++ y :: s2 ∧ (run z gb e t0 (s0 ++ w ++ [y])).tk.lastUse = clock y := by
  obtain ⟨a, d, now, b, s1, bytes, s2, c, c', h1, h3, hacc, hlogin, k1, k2, k3, k4, k5, k6, hfrom, hp⟩ :=
    packet_at (gb := gb) (t0 := t0) hs hst hk hwin hone hq hj
  rw [h1] at hc ho hr
  obtain ⟨t, ht⟩ := ServerTicks.answer_logged gb e h16 t0 a b _ _ _ d now hans hacc hlogin hc ho hr
  obtain ⟨b1, i, b2, g1, g2⟩ := ServerTicks.answer_used gb e h16 t0 _ b ht
  obtain ⟨r1, x, r2, cc, cc', m1, m2, m3, m4, m5, m6⟩ := hfrom (a ++ .base (.packet q.cmd q.seq q.body d) now :: b1) (.base (.run i) t) b2 (by rw [g1]; simp)
  have hx : x = .run i t := by
    cases x <;> simp only [Makes] at m2
    obtain ⟨rfl, rfl⟩ := m2
    rfl
  subst hx
  have hjl : j < qs.length := (List.getElem?_eq_some_iff.1 hq).1
  have hcc : j < cc.handed.length := by
    rw [m5]
    simp only [packets, List.filterMap_append, List.length_append] at hp ⊢
    rw [hp]
    simp only [List.length_take, List.filterMap_cons, List.length_cons]
    omega
  have hap : s0 ++ s0' = r1 ++ .run i t :: r2 := by rw [← hs0, m1]
  rcases List.append_eq_append_iff.1 hap with ⟨w, hw, hw'⟩ | ⟨w, hw, hw'⟩
  · refine ⟨w, _, r2, hw', ?_⟩
    rw [← hw, run_snoc]
    show (ServerTicks.step gb e (run z gb e t0 r1).tk (.base (.run i) t)).lastUse = _
    rw [m3, ← ServerTicks.run_snoc]
    show _ = t
    simpa using g2
  · exfalso
    have hst0 : (segments s0).flatten ++ ((segments s0').flatten ++ rest) = qs.flatMap raw := by
      rw [← List.append_assoc, ← List.flatten_append, ← segments_append, ← hs0, hst]
    obtain ⟨n, held, l1, _, _, l4, _⟩ := Traffic.handed_exactly z e.proto never (fun _ _ => rfl) qs hs _ _ hst0
    have hn := l4 (segments s0).length (Nat.le_refl _)
    rw [hw, segments_append, receive_split, m4, Option.bind_some] at l1
    have := handed_grows z e.proto _ _ _ l1
    rw [hw, segments_append] at hn hj0
    simp only [List.length_take] at this
    omega

/-- Of a client that answers, fewer than three heartbeats are unanswered at a tick. -/
theorem answering_count {z : Bool} {gb : Bytes → Option Bytes} {e : Env} (h16 : ∀ x, (e.md5 x).length = 16) {t0 : Int}
    {qs : List Packet} (hs : Sendable z e.proto qs) {steps : List Step} {rest : Bytes} (hst : (segments steps).flatten ++ rest = qs.flatMap raw)
    (hwin : ∀ bytes d now, Step.data bytes d now ∈ steps → ∀ n ac, d.find n = some ac → 1 ≤ ac.mtWindowSize)
    (hone : (qs.filter fun q => q.cmd = loginCmd e.proto).length ≤ 1)
    (hans : Answering z gb e t0 qs steps)
    (hrest : ∀ a d b, steps = a ++ .tick d :: b → KeptUp qs (segments a) ∧ Settled gb e (run z gb e t0 a).tk)
    {s1 s2 : List Step} {d : ServerTicks.TickDraw} (h1 : steps = s1 ++ .tick d :: s2)
    (hc : (run z gb e t0 s1).tk.base.crashed = false) (ho : (run z gb e t0 s1).tk.base.isOpen = true) :
    ¬ 2 < (run z gb e t0 s1).tk.nAt := by
  intro h
  have h2 : 2 < (run z gb e t0 s1).tk.nAt.toNat := h
  obtain ⟨hk, hr⟩ := hrest s1 d s2 h1
  have h3 : 3 ≤ heartbeats e.proto (run z gb e t0 s1) := by
    obtain ⟨ts, c, g1, _⟩ := life_inv z gb e t0 s1
    have hnat := (ServerTicks.session_history gb e h16 t0 ts).2
    have hb := ServerTicks.beats_written gb e t0 [] ts
    have hl : ServerTicks.log gb e t0 ts = ServerTicks.history gb e (ServerTicks.run gb e t0 []) ts := rfl
    have hu := ServerTicks.unansweredFrom_le 0 (ServerTicks.log gb e t0 ts)
    have hle : (ServerTicks.run gb e t0 ts).nAt.toNat ≤ unanswered (ServerTicks.log gb e t0 ts) := by rw [hnat]; exact Nat.mod_le _ _
    rw [heartbeats_eq, g1]
    rw [g1] at h2
    rw [List.nil_append, ← hl] at hb
    unfold unanswered at hle
    omega
  have hA := hans s1.length (by rw [h1]; simp)
  rw [h1, List.take_left, List.drop_left] at hA
  have hge := hA.2 rfl
  obtain ⟨j, q, hj, hq, hP, hcnt⟩ := nth_such (fun q => decide (AnswersHeartbeat e.proto q)) qs _ _ (by omega) hge
  obtain ⟨s0, bytes, d', now, s0', g1, g2, g3⟩ := crossing qs j s1 hj
  have hst1 : (segments s1).flatten ++ ((segments (.tick d :: s2)).flatten ++ rest) = qs.flatMap raw := by
    rw [← List.append_assoc, ← List.flatten_append, ← segments_append, ← h1, hst]
  have := counted (z := z) (gb := gb) (t0 := t0) h16 hs hst1 hk
    (fun bytes d' now hm => hwin bytes d' now (by rw [h1]; exact List.mem_append_left _ hm)) hone hc ho hr hq (by simpa using hP) hj g1 g2
  have hB := (hans (s0 ++ [Step.data bytes d' now]).length (by rw [h1, g1]; simp)).1
  rw [h1, g1, show s0 ++ .data bytes d' now :: s0' ++ .tick d :: s2 = (s0 ++ [.data bytes d' now]) ++ (s0' ++ .tick d :: s2) by simp,
    List.take_left, run_snoc, data_writes_nothing] at hB
  unfold answersArrived at hB
  have hle : ((qs.take (j + 1)).filter fun q => decide (AnswersHeartbeat e.proto q)).length ≤
      ((qs.take (arrived qs (segments (s0 ++ [.data bytes d' now])) (segments (s0 ++ [.data bytes d' now])).length)).filter
        fun q => decide (AnswersHeartbeat e.proto q)).length := by
    refine (List.Sublist.filter _ ?_).length_le
    have hmin : qs.take (j + 1) = (qs.take (arrived qs (segments (s0 ++ [.data bytes d' now])) (segments (s0 ++ [.data bytes d' now])).length)).take (j + 1) := by
      rw [List.take_take, Nat.min_eq_left (by omega)]
    rw [hmin]
    exact List.take_sublist _ _
  omega

/-- A heartbeat that is due is written before the server is at rest, if the session is not used. -/
theorem pending_run (z : Bool) (gb : Bytes → Option Bytes) (e : Env) (hp : e.proto ≠ .sgip) (t0 u : Int) (n : Nat) (a b : List Step)
    (hu : ∀ b1 b2, b = b1 ++ b2 → (run z gb e t0 (a ++ b1)).tk.lastUse = u ∧
      ¬ ((run z gb e t0 (a ++ b1)).tk.base.crashed ∨ (run z gb e t0 (a ++ b1)).tk.base.isOpen = false))
    (ht : ∀ t ∈ b.map clock, u + ServerTicks.minute < t) (hn : n ≤ ServerTicks.beatFrames e.proto (run z gb e t0 a).tk)
    (h : Pending e.proto n (run z gb e t0 a).tk) : Pending e.proto n (run z gb e t0 (a ++ b)).tk := by
  induction b using snoc_induction with
  | nil => simpa using h
  | snoc b x ih =>
    have ih' := ih (fun b1 b2 hb => hu b1 (b2 ++ [x]) (by rw [hb]; simp)) (fun t hm => ht t (by rw [List.map_append]; exact List.mem_append_left _ hm))
    obtain ⟨h1, h2⟩ := hu b [x] rfl
    rw [← List.append_assoc, run_snoc]
    rcases tk_step z gb e (run z gb e t0 (a ++ b)) x with hx | ⟨y, hx, hc⟩
    · rw [hx]; exact ih'
    · rw [hx]
      refine ServerTicks.pending_step gb e hp n y h2 ?_ ?_ ih'
      · rw [h1, hc]; exact ht _ (by simp)
      · have := heartbeats_mono z gb e t0 e.proto a b
        rw [heartbeats_eq, heartbeats_eq] at this
        omega

/-- At a tick, a session that is logged in and whose client answers was used within the time. -/
theorem idle_tick {z : Bool} {gb : Bytes → Option Bytes} {e : Env} (h16 : ∀ x, (e.md5 x).length = 16) (hp : e.proto ≠ .sgip) {t0 T : Int}
    {qs : List Packet} (hs : Sendable z e.proto qs) {steps : List Step} {rest : Bytes} (hst : (segments steps).flatten ++ rest = qs.flatMap raw)
    (hwin : ∀ bytes d now, Step.data bytes d now ∈ steps → ∀ n ac, d.find n = some ac → 1 ≤ ac.mtWindowSize)
    (hone : (qs.filter fun q => q.cmd = loginCmd e.proto).length ≤ 1)
    (hans : Answering z gb e t0 qs steps)
    (hrest : ∀ a d b, steps = a ++ .tick d :: b → KeptUp qs (segments a) ∧ Settled gb e (run z gb e t0 a).tk)
    (hord : Ordered t0 steps) (hT : TicksWithin T t0 steps)
    (hconf : ∀ d, Step.tick d ∈ steps → d.pool1 = true ∧ 60 * 1000000000 + T ≤ d.force) :
    ∀ (n : Nat) (a : List Step) (d : ServerTicks.TickDraw) (b : List Step), a.length = n → steps = a ++ .tick d :: b →
      (run z gb e t0 a).tk.base.crashed = false → (run z gb e t0 a).tk.base.isOpen = true → (run z gb e t0 a).tk.base.stat = .login →
      ¬ (run z gb e t0 a).tk.lastUse + d.force < d.now := by
  intro n
  induction n using Nat.strongRecOn with
  | ind n ih =>
  intro a d b hlen hsteps hc ho hlog hidle
  have hfc := hconf d (by rw [hsteps]; exact List.mem_append_right _ List.mem_cons_self)
  have hoa : Ordered t0 a := ordered_append (by rw [← hsteps]; exact hord)
  have hu0 : t0 ≤ (run z gb e t0 a).tk.lastUse := by
    have := use_between z gb e t0 [] a
    rw [List.nil_append] at this
    rcases this with h | ⟨h, _⟩
    · exact ordered_start hoa _ h
    · rw [h]; exact Int.le_refl _
  rcases hT a d b hsteps with h | ⟨a1, d1, a2, ha, hd1⟩
  · omega
  -- the tick before
  have hgap : (run z gb e t0 a).tk.lastUse + 60 * 1000000000 < d1.now := by omega
  have hlate : ∀ t ∈ (Step.tick d1 :: a2).map clock, d1.now ≤ t := ordered_from (by rw [← ha]; exact hoa)
  have hconst : ∀ m1 m2, Step.tick d1 :: a2 = m1 ++ m2 →
      (run z gb e t0 (a1 ++ m1)).tk.lastUse = (run z gb e t0 a).tk.lastUse ∧ (run z gb e t0 (a1 ++ m1)).tk.base.stat = .login ∧
      ¬ ((run z gb e t0 (a1 ++ m1)).tk.base.crashed = true ∨ (run z gb e t0 (a1 ++ m1)).tk.base.isOpen = false) := by
    intro m1 m2 hm
    have ham : a = (a1 ++ m1) ++ m2 := by rw [ha, hm]; simp
    have hb := use_between z gb e t0 (a1 ++ m1) m2
    rw [← ham] at hb
    have hnot : (run z gb e t0 a).tk.lastUse ∉ m2.map clock := by
      intro hmem
      have := hlate _ (by rw [hm, List.map_append]; exact List.mem_append_right _ hmem)
      omega
    rcases hb with hb | ⟨hb1, hb2⟩
    · exact absurd hb hnot
    · refine ⟨hb1.symm, hb2 hlog, fun hdown => ?_⟩
      have := down_run z gb e t0 (a1 ++ m1) m2 hdown
      rw [← ham] at this
      rw [← this, hc, ho] at hdown
      simp at hdown
  obtain ⟨c1, c2, c3⟩ := hconst [] _ rfl
  rw [List.append_nil] at c1 c2 c3
  have hsteps1 : steps = a1 ++ .tick d1 :: (a2 ++ .tick d :: b) := by rw [hsteps, ha]; simp
  have hc1 : (run z gb e t0 a1).tk.base.crashed = false := by simpa using fun h => c3 (.inl h)
  have ho1 : (run z gb e t0 a1).tk.base.isOpen = true := by simpa using fun h => c3 (.inr h)
  have hnidle := ih a1.length (by rw [← hlen, ha]; simp) a1 d1 _ rfl hsteps1 hc1 ho1 c2
  have hncount := answering_count h16 hs hst hwin hone hans hrest hsteps1 hc1 ho1
  -- it made a heartbeat due
  have hpend : Pending e.proto (heartbeats e.proto (run z gb e t0 a1)) (run z gb e t0 (a1 ++ [.tick d1])).tk := by
    left
    rw [run_snoc]
    show _ ∈ (ServerTicks.step gb e (run z gb e t0 a1).tk (.tick d1)).own
    unfold ServerTicks.step
    rw [if_neg (by simpa using c3)]
    dsimp only
    unfold ServerTicks.onTick
    rw [if_neg hnidle, if_neg hncount, if_pos c2, if_pos (hconf d1 (by rw [hsteps1]; exact List.mem_append_right _ List.mem_cons_self)).1]
    exact List.mem_append_left _ (List.mem_append_right _ (List.mem_singleton.2 rfl))
  have hmono := heartbeats_mono z gb e t0 e.proto a1 [.tick d1]
  have hpend' := pending_run z gb e hp t0 (run z gb e t0 a).tk.lastUse _ (a1 ++ [.tick d1]) a2
    (fun b1 b2 hb => by
      obtain ⟨g1, _, g3⟩ := hconst (.tick d1 :: b1) b2 (by rw [hb]; simp)
      rw [show a1 ++ [Step.tick d1] ++ b1 = a1 ++ .tick d1 :: b1 by simp]
      exact ⟨g1, by simpa using g3⟩)
    (fun t hm => by
      have := hlate t (by rw [List.map_cons]; exact List.mem_cons_of_mem _ hm)
      show _ + 60000000000 < t
      omega) (by rw [← heartbeats_eq]; exact hmono) hpend
  rw [show a1 ++ [Step.tick d1] ++ a2 = a by rw [ha]; simp] at hpend'
  obtain ⟨hk, hr⟩ := hrest a d b hsteps
  obtain ⟨q1, q2⟩ := ServerTicks.settled_nil hc ho hr
  have hmore : heartbeats e.proto (run z gb e t0 a1) < heartbeats e.proto (run z gb e t0 a) := by
    rcases hpend' with h | ⟨f, c, _, _, h⟩ | h
    · rw [q1] at h; cases h
    · rw [q2] at h; cases h
    · rw [heartbeats_eq e.proto (run z gb e t0 a)]; exact h
  -- which has been answered
  have hA := hans a.length (by rw [hsteps]; simp)
  rw [hsteps, List.take_left, List.drop_left] at hA
  have hge := hA.2 rfl
  have hA1 := (hans a1.length (by rw [hsteps1]; simp)).1
  rw [hsteps1, List.take_left] at hA1
  unfold answersArrived at hge hA1
  obtain ⟨j, q, hj, hq, hP, hcnt⟩ := nth_such (fun q => decide (AnswersHeartbeat e.proto q)) qs _ (heartbeats e.proto (run z gb e t0 a1) + 1) (by omega)
    (Nat.le_trans hmore hge)
  have hj1 : arrived qs (segments a1) (segments a1).length ≤ j := by
    apply Nat.le_of_not_lt
    intro hlt
    have : ((qs.take (j + 1)).filter fun q => decide (AnswersHeartbeat e.proto q)).length ≤
        ((qs.take (arrived qs (segments a1) (segments a1).length)).filter fun q => decide (AnswersHeartbeat e.proto q)).length := by
      refine (List.Sublist.filter _ ?_).length_le
      rw [show qs.take (j + 1) = (qs.take (arrived qs (segments a1) (segments a1).length)).take (j + 1) by
        rw [List.take_take, Nat.min_eq_left (by omega)]]
      exact List.take_sublist _ _
    omega
  have hsta : (segments a).flatten ++ ((segments (.tick d :: b)).flatten ++ rest) = qs.flatMap raw := by
    rw [← List.append_assoc, ← List.flatten_append, ← segments_append, ← hsteps, hst]
  obtain ⟨w, y, s2, hw, huse⟩ := answer_use (z := z) (gb := gb) (t0 := t0) h16 hs hsta hk
    (fun bytes d' now hm => hwin bytes d' now (by rw [hsteps]; exact List.mem_append_left _ hm)) hone hc ho hr hq (by simpa using hP) hj ha hj1
  have hlast := (hconst (w ++ [y]) s2 (by rw [hw]; simp)).1
  rw [← List.append_assoc, huse] at hlast
  have := hlate (clock y) (by rw [hw, List.map_append, List.map_cons]; exact List.mem_append_right _ List.mem_cons_self)
  omega

/-- **C145, the part that holds: a session that is merely idle is not ended**: if the client answers the heartbeats (as in C144), the clock does not go
back, ticks are at most `T` apart, `Server.ForceCloseConnTime` is at least a minute and `T`, and the pool takes the ticks' tasks, then a
termination is only sent to a client that was not logged in. CMPP and SMGP; the server is at rest and not behind with reading at the ticks. -/
theorem idle_client_kept_partial (z : Bool) (gb : Bytes → Option Bytes) (e : Env) (h16 : ∀ x, (e.md5 x).length = 16) (hp : e.proto ≠ .sgip) (t0 T : Int)
    (qs : List Packet) (hs : Sendable z e.proto qs) (steps : List Step) (rest : Bytes) (hst : (segments steps).flatten ++ rest = qs.flatMap raw)
    (hwin : ∀ bytes d now, Step.data bytes d now ∈ steps → ∀ n ac, d.find n = some ac → 1 ≤ ac.mtWindowSize)
    (hone : (qs.filter fun q => q.cmd = loginCmd e.proto).length ≤ 1)
    (hans : Answering z gb e t0 qs steps)
    (hrest : ∀ a d b, steps = a ++ .tick d :: b → KeptUp qs (segments a) ∧ Settled gb e (run z gb e t0 a).tk)
    (hord : Ordered t0 steps) (hT : TicksWithin T t0 steps)
    (hconf : ∀ d, Step.tick d ∈ steps → d.pool1 = true ∧ 60 * 1000000000 + T ≤ d.force)
    (f : Bytes) (hf : f ∈ written (run z gb e t0 steps)) (hcmd : Spec.ServerTraffic.command f = be32 (terminateCmd e.proto)) :
    ∃ s1 d s2, steps = s1 ++ .tick d :: s2 ∧ (run z gb e t0 s1).tk.base.stat ≠ .login ∧ (run z gb e t0 s1).tk.lastUse + d.force < d.now := by
  obtain ⟨s1, d, s2, h1, hc, ho, hor⟩ := termination_tick z gb e h16 t0 steps f hf hcmd
  rcases hor with h | h
  · exact ⟨s1, d, s2, h1, fun hlog => idle_tick h16 hp hs hst hwin hone hans hrest hord hT hconf s1.length s1 d s2 rfl h1 hc ho hlog h, h⟩
  · exact absurd h (answering_count h16 hs hst hwin hone hans hrest h1 hc ho)

/-! ## SGIP -/

/-- Nothing an SGIP client sends keeps its session, other than texts (and logins) that are accepted. -/
theorem sgip_use_between (z : Bool) (gb : Bytes → Option Bytes) (e : Env) (h16 : ∀ x, (e.md5 x).length = 16) (hp : e.proto = .sgip) (t0 : Int) (a b : List Step)
    (hno : ∀ f ∈ (written (run z gb e t0 (a ++ b))).drop (written (run z gb e t0 a)).length, Spec.ServerTicks.activity .sgip f = false) :
    (run z gb e t0 (a ++ b)).tk.lastUse = (run z gb e t0 a).tk.lastUse := by
  have hmono : ∀ b, ∃ w, written (run z gb e t0 (a ++ b)) = written (run z gb e t0 a) ++ w := by
    intro b
    induction b using snoc_induction with
    | nil => exact ⟨[], by simp⟩
    | snoc b x ih =>
      obtain ⟨w, hw⟩ := ih
      rw [← List.append_assoc, run_snoc]
      rcases tk_step z gb e (run z gb e t0 (a ++ b)) x with h | ⟨y, h, _⟩
      · exact ⟨w, by rw [← hw]; unfold written; rw [h]⟩
      · obtain ⟨w', hw'⟩ := ServerTicks.wire_prefix gb e [y] (run z gb e t0 (a ++ b)).tk
        refine ⟨w ++ w'.map ServerTicks.Item.frame, ?_⟩
        rw [written_eq] at hw ⊢
        rw [h, ← List.append_assoc, ← hw]
        unfold ServerTicks.frames
        rw [← List.map_append, hw']
        rfl
  induction b using snoc_induction with
  | nil => simp
  | snoc b x ih =>
    obtain ⟨w, hw⟩ := hmono b
    obtain ⟨ts, c, hts, _⟩ := life_inv z gb e t0 (a ++ b)
    rw [← List.append_assoc, run_snoc] at hno ⊢
    rcases tk_step z gb e (run z gb e t0 (a ++ b)) x with h | ⟨y, h, _⟩
    · rw [h]
      refine ih ?_
      unfold written at hno ⊢
      rw [h] at hno
      exact hno
    · rw [written_eq (step z gb e (run z gb e t0 (a ++ b)) x), h] at hno
      obtain ⟨w', hw'⟩ := ServerTicks.wire_prefix gb e [y] (run z gb e t0 (a ++ b)).tk
      have hfr : ServerTicks.frames (ServerTicks.step gb e (run z gb e t0 (a ++ b)).tk y) = written (run z gb e t0 a) ++ w ++ w'.map ServerTicks.Item.frame := by
        rw [← hw, written_eq]
        unfold ServerTicks.frames
        rw [← List.map_append, hw']
        rfl
      rw [hfr, List.append_assoc, List.drop_left] at hno
      rw [h]
      have hih := ih (by rw [hw, List.drop_left]; exact fun f hf => hno f (List.mem_append_left _ hf))
      rcases ServerTicks.sgip_use_step gb e h16 hp t0 ts y with h1 | ⟨r, h1, h2⟩
      · rw [← hih, hts, h1]
      · exfalso
        rw [← hts] at h1
        have := List.append_cancel_left (hw'.trans h1)
        subst this
        have := hno r.2.1 (List.mem_append_right _ (List.mem_singleton.2 rfl))
        rw [h2] at this
        cases this

/-- **C145 fails for SGIP, which has no heartbeats: whatever an idle SGIP client sends, its session is ended** at the first tick more than
`Server.ForceCloseConnTime` after the last text (or login) that was accepted: once the server is at rest again, the termination has been written. -/
theorem sgip_idle_kept_fails (z : Bool) (gb : Bytes → Option Bytes) (e : Env) (h16 : ∀ x, (e.md5 x).length = 16) (hp : e.proto = .sgip) (t0 : Int)
    (a b c : List Step) (d : ServerTicks.TickDraw)
    (hno : ∀ f ∈ (written (run z gb e t0 (a ++ b))).drop (written (run z gb e t0 a)).length, Spec.ServerTicks.activity .sgip f = false)
    (htime : (run z gb e t0 a).tk.lastUse + d.force < d.now) (hpool : d.pool1 = true)
    (hc : (run z gb e t0 (a ++ b ++ .tick d :: c)).tk.base.crashed = false) (ho : (run z gb e t0 (a ++ b ++ .tick d :: c)).tk.base.isOpen = true)
    (hr : Settled gb e (run z gb e t0 (a ++ b ++ .tick d :: c)).tk) :
    ∃ f ∈ written (run z gb e t0 (a ++ b ++ .tick d :: c)), Spec.ServerTraffic.command f = be32 (terminateCmd .sgip) := by
  have halive : ∀ c1 c2, c = c1 ++ c2 → ∀ c1', c1' = a ++ b ∨ c1' = a ++ b ++ .tick d :: c1 →
      ¬ ((run z gb e t0 c1').tk.base.crashed = true ∨ (run z gb e t0 c1').tk.base.isOpen = false) := by
    intro c1 c2 hcc c1' hc1 hdown
    obtain ⟨w, hw⟩ : ∃ w, a ++ b ++ .tick d :: c = c1' ++ w := by
      rcases hc1 with rfl | rfl
      · exact ⟨_, rfl⟩
      · exact ⟨c2, by rw [hcc]; simp⟩
    have := down_run z gb e t0 c1' w hdown
    rw [← hw] at this
    rw [← this, hc, ho] at hdown
    simp at hdown
  have key : ∀ c1 c2, c = c1 ++ c2 → ServerTicks.Ending e.proto (run z gb e t0 (a ++ b ++ .tick d :: c1)).tk := by
    intro c1
    induction c1 using snoc_induction with
    | nil =>
      intro c2 hcc
      left
      rw [run_snoc]
      show _ ∈ (ServerTicks.step gb e (run z gb e t0 (a ++ b)).tk (.tick d)).own
      unfold ServerTicks.step
      rw [if_neg (by simpa using halive [] c rfl _ (.inl rfl))]
      dsimp only
      unfold ServerTicks.onTick
      rw [sgip_use_between z gb e h16 hp t0 a b hno, if_pos htime, if_pos hpool]
      exact List.mem_append_right _ (List.mem_singleton.2 rfl)
    | snoc c1 x ih =>
      intro c2 hcc
      have hcc' : c = c1 ++ (x :: c2) := by rw [hcc]; simp
      rw [show a ++ b ++ .tick d :: (c1 ++ [x]) = (a ++ b ++ .tick d :: c1) ++ [x] by simp, run_snoc]
      rcases tk_step z gb e (run z gb e t0 (a ++ b ++ .tick d :: c1)) x with h | ⟨y, h, _⟩
      · rw [h]; exact ih _ hcc'
      · rw [h]
        exact ServerTicks.ending_step gb e y (by simpa using halive c1 _ hcc' _ (.inr rfl)) (ih _ hcc')
  obtain ⟨q1, q2⟩ := ServerTicks.settled_nil hc ho hr
  rcases key c [] (by simp) with h | ⟨f, _, h⟩ | ⟨f, h, hf⟩
  · rw [q1] at h; cases h
  · rw [q2] at h; cases h
  · exact ⟨f, by rw [written_eq]; exact h, by rw [← hp]; exact hf⟩

/-! ## An idle client that is kept, and one that is not -/

/-- A login, and nothing more for twelve minutes but answers to the heartbeats; the server ends sessions that are not used for 160 seconds. -/
def idle : List Step :=
  [.data (raw loginQ) ServerTraffic.demoDraw 0, .run 0 1, .run 0 1, .loop 1] ++
  [(1, 21), (2, 22), (3, 23), (4, 24), (5, 25), (6, 26), (7, 27)].flatMap fun (k, n) =>
    [.tick { now := sec (100 * k), force := sec 160 }, .task 0 { now := sec (100 * k), seq := n }, .loop (sec (100 * k)),
     .data (raw (answerQ n)) ServerTraffic.demoDraw (sec (100 * k + 1)), .run 0 (sec (100 * k + 1)), .run 0 (sec (100 * k + 1))]
def idleQs : List Packet := [loginQ, answerQ 21, answerQ 22, answerQ 23, answerQ 24, answerQ 25, answerQ 26, answerQ 27]

instance (t0 : Int) (steps : List Step) : Decidable (Spec.ServerLife.Ordered t0 steps) := by unfold Spec.ServerLife.Ordered; infer_instance

set_option maxRecDepth 20000 in
theorem idle_demo : answers idleQs idle = true ∧ atTicks calm idle = true ∧
    atTicks (fun a _ => decide (∀ i, i ≤ (segments a).length → arrived idleQs (segments a) (segments a).length - arrived idleQs (segments a) i ≤ (segments a).length - i))
      idle = true ∧
    atTicks (fun a d => decide ((run true some ServerTraffic.demoEnv 0 a).tk.base.stat = .login ∧ d.pool1 = true ∧ sec 160 ≤ d.force)) idle = true ∧
    ((written (run true some ServerTraffic.demoEnv 0 idle)).map fun f => (Spec.ServerTraffic.command f, seqOf .cmpp f)) =
      [(be32 0x80000001, be32 1), (be32 8, be32 21), (be32 8, be32 22), (be32 8, be32 23), (be32 8, be32 24), (be32 8, be32 25), (be32 8, be32 26), (be32 8, be32 27)] ∧
    (segments idle).flatten = idleQs.flatMap raw := by
  refine ⟨?_, ?_, ?_, ?_, ?_, ?_⟩ <;> decide +kernel

/-- The theorem applied to that history: no termination is written. -/
example : ∀ f ∈ written (run true some ServerTraffic.demoEnv 0 idle), Spec.ServerTraffic.command f ≠ be32 (terminateCmd .cmpp) := by
  obtain ⟨h1, h2, h3, h4, _, h5⟩ := idle_demo
  intro f hf hcmd
  have hlog := fun a d b hs => of_decide_eq_true (atTicks_spec (a := a) (b := b) (d := d) h4 hs)
  refine (fun ⟨s1, d, s2, hs, hn, _⟩ => hn (hlog s1 d s2 hs).1 :
    (∃ s1 d s2, idle = s1 ++ .tick d :: s2 ∧ (run true some ServerTraffic.demoEnv 0 s1).tk.base.stat ≠ .login ∧
      (run true some ServerTraffic.demoEnv 0 s1).tk.lastUse + d.force < d.now) → False) ?_
  refine idle_client_kept_partial true some ServerTraffic.demoEnv (by simp [ServerTraffic.demoEnv]) (by decide) 0 (sec 100) idleQs ?_ idle []
    (by simpa using h5) (demo_windows (by decide +kernel) ?_) (by decide +kernel) (answers_spec h1)
    (fun a d b hs => ⟨(by unfold KeptUp; exact of_decide_eq_true (atTicks_spec h3 hs)), calm_settled (atTicks_spec h2 hs)⟩) (by decide +kernel) ?_ ?_ f hf hcmd
  · intro q hq
    simp only [idleQs, List.mem_cons, List.not_mem_nil, or_false] at hq
    rcases hq with rfl | rfl | rfl | rfl | rfl | rfl | rfl | rfl <;> refine ⟨?_, ?_, ?_⟩ <;> decide +kernel
  · intro bytes d now hm n
    simp only [idle, List.flatMap_cons, List.flatMap_nil, List.cons_append, List.nil_append, List.mem_cons, List.not_mem_nil, or_false, reduceCtorEq, false_or,
      Step.data.injEq] at hm
    rcases hm with ⟨_, rfl, _⟩ | ⟨_, rfl, _⟩ | ⟨_, rfl, _⟩ | ⟨_, rfl, _⟩ | ⟨_, rfl, _⟩ | ⟨_, rfl, _⟩ | ⟨_, rfl, _⟩ | ⟨_, rfl, _⟩ <;> rfl
  · have hw : atTicks (fun a d => decide (d.now ≤ 0 + sec 100) || a.any fun | .tick d1 => decide (d.now ≤ d1.now + sec 100) | _ => false) idle = true := by
      decide +kernel
    intro a d b hs
    have := atTicks_spec hw hs
    rw [Bool.or_eq_true, List.any_eq_true] at this
    rcases this with h | ⟨x, hx, h⟩
    · exact .inl (of_decide_eq_true h)
    · right
      obtain ⟨a1, a2, rfl⟩ := List.mem_iff_append.1 hx
      cases x with
      | tick d1 => exact ⟨a1, d1, a2, rfl, of_decide_eq_true h⟩
      | _ => cases h
  · intro d hd
    obtain ⟨a, b, hs⟩ := List.mem_iff_append.1 hd
    have := (hlog a d b hs).2
    refine ⟨this.1, ?_⟩
    have h2 := this.2
    unfold sec at h2 ⊢
    omega

def bindQ : Packet := ⟨1, 1, be32 2 ++ be32 3 ++ [1] ++ pad 16 [65] ++ pad 16 [66] ++ zeros 8⟩

/-- An SGIP login; the answer to it keeps the session for as long as nothing happens. -/
def bound : List Step := [.data (raw bindQ) SubmitExchange.demoDraw 0, .run 0 1, .run 0 1, .loop 1]
/-- A report's answer arrives, which changes nothing. -/
def chatter : List Step := [.data (raw ⟨0x80000005, 9, be32 2 ++ be32 3 ++ [0] ++ zeros 8⟩) SubmitExchange.demoDraw (sec 200), .run 0 (sec 200), .run 0 (sec 200)]
def boundAfter : List Step := [.task 0 { now := sec 301, seq := 7 }, .loop (sec 301)]

set_option maxRecDepth 20000 in
/-- The hypotheses of `sgip_idle_kept_fails` hold of a client that logs in, and then only answers a report. -/
example : let a := bound; let b := chatter; let d : ServerTicks.TickDraw := { now := sec 301, force := sec 300 }
    let s := run true some SubmitExchange.demoEnv 0 (a ++ b ++ .tick d :: boundAfter)
    (written (run true some SubmitExchange.demoEnv 0 (a ++ b))).drop (written (run true some SubmitExchange.demoEnv 0 a)).length = [] ∧
    (run true some SubmitExchange.demoEnv 0 a).tk.base.stat = .login ∧ (run true some SubmitExchange.demoEnv 0 a).tk.lastUse = 1 ∧
    s.tk.base.crashed = false ∧ s.tk.base.isOpen = true ∧ s.tk.own = [] ∧ s.tk.queue.length = 0 ∧ s.tk.base.tasks.length = 0 ∧
    ((written s).map Spec.ServerTraffic.command) = [be32 0x80000001, be32 (terminateCmd .sgip)] := by decide +kernel

end Gosms.ServerLife
