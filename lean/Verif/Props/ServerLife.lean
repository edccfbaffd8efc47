import Verif.Spec.ServerLife
import Verif.Props.Backlog
import Verif.Props.ServerClosing
import Verif.Props.ServerRest
import Verif.Props.ServerStream

/-!
# C144: a connection in bytes, with the server's ticks

Framing (Props/Traffic.lean, Props/Backlog.lean), answering (Props/ServerAnswers.lean) and the server's own frames (Props/ServerFrames.lean) together.
-/

namespace Gosms.ServerTicks
open ServerTraffic (Env After Draw answer verdict Accounts onPackets)
open Handlers Spec.ServerTraffic
open Heartbeat (Ev)
open Spec (unanswered lastActivity unansweredFrom)

/-- Is the event a heartbeat written? -/
def isBeat : Ev → Bool
  | .beat _ => true
  | _ => false

theorem unansweredFrom_le (n : Nat) (l : List Ev) : unansweredFrom n l ≤ n + (l.filter isBeat).length := by
  induction l generalizing n with
  | nil => simp [unansweredFrom]
  | cons x l ih =>
    cases x with
    | beat t =>
      have := ih (n + 1)
      simp only [unansweredFrom, List.filter_cons, isBeat, if_true, List.length_cons] at this ⊢
      omega
    | answer t =>
      have := ih 0
      simp only [unansweredFrom, List.filter_cons, isBeat, Bool.false_eq_true, if_false] at this ⊢
      omega
    | use t => simpa [unansweredFrom, List.filter_cons, isBeat] using ih n
    | endIdle t => simpa [unansweredFrom, List.filter_cons, isBeat] using ih n
    | endBeat t => simpa [unansweredFrom, List.filter_cons, isBeat] using ih n

/-- After an answer only the heartbeats behind it count. -/
theorem unansweredFrom_answer (n : Nat) (l : List Ev) {t : Int} (h : Ev.answer t ∈ l) : unansweredFrom n l ≤ (l.filter isBeat).length := by
  obtain ⟨a, b, rfl⟩ := List.append_of_mem h
  rw [Heartbeat.unansweredFrom_append]
  have := unansweredFrom_le 0 b
  simp only [unansweredFrom, List.filter_append, List.filter_cons, isBeat, List.length_append, Bool.false_eq_true, if_false] at this ⊢
  omega

/-- Heartbeats among written frames. -/
def beatFrames (p : Proto) (s : State) : Nat := ((frames s).filter fun f => (activeCmd p).any fun c => command f = be32 c).length

theorem beatFrames_mono (gb : Bytes → Option Bytes) (e : Env) (p : Proto) (b : List Step) (s : State) :
    beatFrames p s ≤ beatFrames p (b.foldl (step gb e) s) := by
  obtain ⟨t, ht⟩ := wire_prefix gb e b s
  unfold beatFrames frames
  rw [← ht, List.map_append, List.filter_append, List.length_append]
  omega

/-- Each heartbeat of the history is a frame on the wire. -/
theorem beats_written (gb : Bytes → Option Bytes) (e : Env) (t0 : Int) (a b : List Step) :
    beatFrames e.proto (run gb e t0 a) + ((history gb e (run gb e t0 a) b).filter isBeat).length ≤ beatFrames e.proto (run gb e t0 (a ++ b)) := by
  induction b using snoc_induction with
  | nil => simp [history]
  | snoc b x ih =>
    rw [history_append, List.filter_append, List.length_append, ← run_append, ← List.append_assoc, run_snoc]
    refine Nat.le_trans (Nat.le_of_eq (Nat.add_assoc _ _ _).symm) (Nat.le_trans (Nat.add_le_add_right ih _) ?_)
    have hown := (own_inv gb e t0 (a ++ b)).2
    generalize run gb e t0 (a ++ b) = s at *
    have hmono : beatFrames e.proto s ≤ beatFrames e.proto (step gb e s x) := beatFrames_mono gb e e.proto [x] s
    have hz : ((history gb e s [x]).filter isBeat).length = ((events gb e s x).filter isBeat).length := by simp [history]
    rw [hz]
    by_cases hb : (events gb e s x).filter isBeat = []
    · rw [hb]; exact hmono
    · have hcase : ∃ now f q, x = .base .loop now ∧ s.queue = .own f .beat :: q ∧ ¬ (s.base.crashed ∨ s.base.isOpen = false) ∧
          events gb e s x = [.beat now] := by
        unfold events at hb ⊢
        split at hb
        · rename_i now
          by_cases hd : s.base.crashed ∨ s.base.isOpen = false
          · rw [if_pos hd] at hb; simp at hb
          · rw [if_neg hd] at hb
            cases hq : s.queue with
            | nil => rw [hq] at hb; simp at hb
            | cons it q =>
              rw [hq] at hb
              simp only [List.head?_cons, Option.map_some, Option.getD_some] at hb
              cases it with
              | reply y =>
                simp only [written] at hb
                split at hb <;> simp [isBeat] at hb
              | own f o =>
                cases o with
                | beat => exact ⟨now, f, q, rfl, rfl, hd, by simp [hd, written]⟩
                | dly => simp [written] at hb
                | close => simp [written] at hb
        · exfalso
          revert hb
          generalize finished s _ _ = o
          cases o with
          | none => simp
          | some r =>
            simp only [Option.map_some, Option.getD_some, handled]
            split
            · simp [isBeat]
            · split <;> simp [isBeat]
        · simp at hb
      obtain ⟨now, f, q, rfl, hq, hd, hev⟩ := hcase
      rw [hev]
      obtain ⟨a', i, t, b', o, _, _, hsent⟩ := hown f .beat (by rw [hq]; simp)
      obtain ⟨c, hc, hf⟩ := (sent_command hsent).1 rfl
      have hw : (step gb e s (.base .loop now)).wire = s.wire ++ [.own f .beat] := by
        unfold step
        rw [if_neg hd]
        simp only [onLoop, hq]
      unfold beatFrames frames
      rw [hw, List.map_append, List.filter_append, List.length_append]
      have : (([Item.own f .beat].map Item.frame).filter fun f => (activeCmd e.proto).any fun c => command f = be32 c) = [f] := by
        simp only [List.map_cons, List.map_nil, Item.frame, hc, Option.any_some, hf, List.filter_cons, List.filter_nil, decide_true, if_true]
      rw [this]
      exact Nat.le_refl _

/-- A task goes on, is at its end with the answer to a heartbeat counted, or was never there. -/
theorem task_or_answer (gb : Bytes → Option Bytes) (e : Env) {s : State} (hinv : ServerTraffic.Inv e s.base) {k : Nat} {r : ServerTraffic.Req}
    (hr : s.base.reqs[k]? = some r) (hcmd : (activeCmd e.proto).map Spec.responseOf = some r.cmd)
    (x : Step) (hgen : s.base.gen ≤ 1) (ht : ∃ t ∈ s.base.tasks, t.req = k) :
    (∃ t ∈ (step gb e s x).base.tasks, t.req = k) ∨ ∃ now, Ev.answer now ∈ events gb e s x := by
  by_cases hd : s.base.crashed ∨ s.base.isOpen = false
  · left; unfold step; rw [if_pos hd]; exact ht
  obtain ⟨t, htm, htk⟩ := ht
  have hbase : ∀ y : ServerTraffic.Step, y ≠ .loop → (step gb e s x).base = ServerTraffic.step e s.base y →
      (∀ i, y ≠ .run i) → ∃ t ∈ (step gb e s x).base.tasks, t.req = k := by
    intro y hy hs hrun
    rw [hs]
    unfold ServerTraffic.step
    rw [if_neg hd]
    cases y with
    | loop => exact absurd rfl hy
    | run i => exact absurd rfl (hrun i)
    | close => exact ⟨t, htm, htk⟩
    | packet cmd seq body d =>
      simp only [ServerTraffic.onPacket]
      split
      · exact ⟨t, htm, htk⟩
      · exact ⟨t, htm, htk⟩
      · exact ⟨t, htm, htk⟩
      · exact ⟨t, List.mem_append_left _ htm, htk⟩
    | drop i =>
      simp only [ServerTraffic.onDrop]
      split
      · rename_i q g ac hti
        split
        · have := hinv.wait _ (List.mem_of_getElem? hti) g rfl
          omega
        · exact ⟨t, htm, htk⟩
      · exact ⟨t, htm, htk⟩
  cases x with
  | tick d =>
    left
    refine ⟨t, ?_, htk⟩
    unfold step
    rw [if_neg hd]
    show t ∈ (onTick s d).base.tasks
    rw [(onTick_same s d).1]; exact htm
  | task i d =>
    left
    refine ⟨t, ?_, htk⟩
    unfold step
    rw [if_neg hd]
    show t ∈ (onTask gb e s i d).base.tasks
    rw [(onTask_same gb e s i d).1]; exact htm
  | base y now =>
    cases y with
    | packet cmd seq body d => exact .inl (hbase (.packet cmd seq body d) (by simp) (by unfold step; rw [if_neg hd]; rfl) (by simp))
    | drop i => exact .inl (hbase (.drop i) (by simp) (by unfold step; rw [if_neg hd]; rfl) (by simp))
    | close => exact .inl (hbase .close (by simp) (by unfold step; rw [if_neg hd]; rfl) (by simp))
    | loop =>
      left
      refine ⟨t, ?_, htk⟩
      unfold step
      rw [if_neg hd]
      simp only [onLoop]
      split
      · exact htm
      · show t ∈ (ServerTraffic.step e s.base .loop).tasks
        unfold ServerTraffic.step
        rw [if_neg hd]
        simp only [ServerTraffic.onLoop]
        split
        · exact htm
        · rename_i a q _
          cases a <;> simp only [ServerTraffic.onAfter]
          all_goals first | exact htm | skip
          split <;> exact htm
      · rename_i a _ _
        cases a <;> exact htm
    | run i =>
      have hb : (step gb e s (.base (.run i) now)).base = ServerTraffic.onRun s.base i := by
        unfold step
        rw [if_neg hd]
        show ServerTraffic.step e (onRun s i now).base (.run i) = _
        rw [(onRun_same s i now).1, ServerTraffic.step, if_neg hd]
      cases hti : s.base.tasks[i]? with
      | none =>
        left
        rw [hb]
        unfold ServerTraffic.onRun
        rw [hti]
        exact ⟨t, htm, htk⟩
      | some ti =>
        by_cases hend : ∃ ph, ti = ⟨k, ph, []⟩ ∧ (ph = .free ∨ ∃ g, ph = .inside g)
        · right
          obtain ⟨ph, rfl, hph⟩ := hend
          refine ⟨now, ?_⟩
          have hlt : (step gb e s (.base (.run i) now)).base.tasks.length < s.base.tasks.length := by
            rw [hb]
            unfold ServerTraffic.onRun
            rw [hti]
            have hl := (List.getElem?_eq_some_iff.1 hti).1
            rcases hph with rfl | ⟨g, rfl⟩ <;> simp only [ServerTraffic.onGo, List.length_eraseIdx, if_pos hl] <;> omega
          have hfin : finished s (step gb e s (.base (.run i) now)) i = some r := by
            unfold finished
            rw [if_pos hlt, hti]
            exact hr
          simp only [events, hfin, Option.map_some, Option.getD_some, handled, hcmd, if_true]
          simp
        · left
          have hset : ∀ t' : ServerTraffic.Task, t'.req = ti.req → ∃ t'' ∈ s.base.tasks.set i t', t''.req = k := by
            intro t' hreq
            obtain ⟨j, hj⟩ := List.mem_iff_getElem?.1 htm
            by_cases hij : i = j
            · subst hij
              rw [hti] at hj
              obtain rfl := Option.some.inj hj
              refine ⟨t', ?_, hreq.trans htk⟩
              exact List.mem_iff_getElem?.2 ⟨i, by rw [List.getElem?_set_self (List.getElem?_eq_some_iff.1 hti).1]⟩
            · exact ⟨t, List.mem_iff_getElem?.2 ⟨j, by rw [List.getElem?_set_ne hij]; exact hj⟩, htk⟩
          have hgo : (ti.phase = .free ∨ ∃ g, ti.phase = .inside g) → ∃ t ∈ (ServerTraffic.onGo s.base i ti).tasks, t.req = k := by
            intro hph
            unfold ServerTraffic.onGo
            split
            · rename_i hnil
              obtain ⟨j, hj⟩ := List.mem_iff_getElem?.1 htm
              have hij : i ≠ j := by
                intro hij
                subst hij
                rw [hti] at hj
                obtain rfl := Option.some.inj hj
                refine hend ⟨ti.phase, ?_, hph⟩
                obtain ⟨k', ph', ac'⟩ := ti
                simp only at htk hnil
                rw [htk, hnil]
              refine ⟨t, ?_, htk⟩
              show t ∈ s.base.tasks.eraseIdx i
              exact List.mem_eraseIdx_iff_getElem?.2 ⟨j, fun h => hij h.symm, hj⟩
            · rename_i a rest hacts
              cases a <;> exact hset { ti with acts := rest } rfl
          rw [hb]
          unfold ServerTraffic.onRun
          rw [hti]
          dsimp only
          cases hph : ti.phase with
          | waiting g =>
            dsimp only
            split
            · exact hset _ rfl
            · exact ⟨t, htm, htk⟩
          | free => exact hgo (.inl hph)
          | inside g => exact hgo (.inr ⟨g, hph⟩)

theorem gen_mono (e : Env) (s : ServerTraffic.State) (x : ServerTraffic.Step) : s.gen ≤ (ServerTraffic.step e s x).gen := by
  unfold ServerTraffic.step
  split
  · exact Nat.le_refl _
  · cases x with
    | packet cmd seq body d => simp only [ServerTraffic.onPacket]; split <;> exact Nat.le_refl _
    | run i =>
      simp only [ServerTraffic.onRun]
      split
      · exact Nat.le_refl _
      · have hgo : ∀ t, s.gen ≤ (ServerTraffic.onGo s i t).gen := by
          intro t
          unfold ServerTraffic.onGo
          split
          · exact Nat.le_refl _
          · unfold ServerTraffic.onAct
            split <;> exact Nat.le_refl _
        split
        · split <;> exact Nat.le_refl _
        · exact hgo _
        · exact hgo _
    | drop i =>
      simp only [ServerTraffic.onDrop]
      split
      · split <;> exact Nat.le_refl _
      · exact Nat.le_refl _
    | loop =>
      simp only [ServerTraffic.onLoop]
      split
      · exact Nat.le_refl _
      · rename_i a q _
        cases a <;> simp only [ServerTraffic.onAfter] <;> first | exact Nat.le_refl _ | skip
        split
        · exact Nat.le_refl _
        · exact Nat.le_succ _
    | close => exact Nat.le_refl _

/-- A server at rest has handled every answer to a heartbeat that it has read. -/
theorem answer_logged (gb : Bytes → Option Bytes) (e : Env) (h16 : ∀ x, (e.md5 x).length = 16) (t0 : Int) (a b : List Step)
    (cmd seq : UInt32) (body : Bytes) (d : Draw) (now : Int) (hcmd : (activeCmd e.proto).map Spec.responseOf = some cmd)
    (hwin : AccountsAll (fun ac => 1 ≤ ac.mtWindowSize) (a ++ .base (.packet cmd seq body d) now :: b))
    (hone : ((a ++ .base (.packet cmd seq body d) now :: b).filter (onPacketSteps fun c _ _ _ => c = loginCmd e.proto)).length ≤ 1)
    (hc : (run gb e t0 (a ++ .base (.packet cmd seq body d) now :: b)).base.crashed = false)
    (ho : (run gb e t0 (a ++ .base (.packet cmd seq body d) now :: b)).base.isOpen = true)
    (hs : Settled gb e (run gb e t0 (a ++ .base (.packet cmd seq body d) now :: b))) :
    ∃ t, Ev.answer t ∈ history gb e (run gb e t0 (a ++ [.base (.packet cmd seq body d) now])) b := by
  -- the answering part
  obtain ⟨b', hb'⟩ := project_split gb e t0 a b cmd seq body d now
  obtain ⟨s1, s2⟩ := sim_run gb e t0 (a ++ .base (.packet cmd seq body d) now :: b)
  have hset := settled_base s1 hs
  have hone' := project_packets gb e (fun c _ _ _ => c = loginCmd e.proto) (a ++ .base (.packet cmd seq body d) now :: b) { lastUse := t0 }
  have hacs : Accounts _ (answering gb e t0 (a ++ .base (.packet cmd seq body d) now :: b)) := accounts_base hwin
  have hk : (cmd, Kind.activeResp) ∈ chain e.proto := by
    revert hcmd
    cases e.proto <;> intro h <;> simp only [activeCmd, Option.map_some, Option.map_none, Option.some.injEq, reduceCtorEq] at h <;> subst h <;> decide
  have hc' := hc
  have ho' := ho
  rw [s2] at hc' ho' hset
  have hgen : (run gb e t0 (a ++ .base (.packet cmd seq body d) now :: b)).base.gen ≤ 1 := by
    rw [s2]
    exact ServerTraffic.one_window h16 (by unfold answering; rw [hone']; exact hone)
  have hrest := (ServerTraffic.rest_no_tasks h16 hacs hc' ho' hset).1
  rw [← s2] at hrest
  -- the task of the packet
  have hrun : run gb e t0 (a ++ .base (.packet cmd seq body d) now :: b) = b.foldl (step gb e) (run gb e t0 (a ++ [.base (.packet cmd seq body d) now])) := by
    rw [← run_append]; simp
  have halive : ∀ b1 b2, b = b1 ++ b2 → (run gb e t0 (a ++ .base (.packet cmd seq body d) now :: b1)).base.crashed = false ∧
      (run gb e t0 (a ++ .base (.packet cmd seq body d) now :: b1)).base.isOpen = true ∧
      (run gb e t0 (a ++ .base (.packet cmd seq body d) now :: b1)).base.gen ≤ 1 := by
    intro b1 b2 hb
    have e1 : run gb e t0 (a ++ .base (.packet cmd seq body d) now :: b) = b2.foldl (step gb e) (run gb e t0 (a ++ .base (.packet cmd seq body d) now :: b1)) := by
      rw [← run_append, hb]; simp
    have h1 := alive_foldl gb e b2 (run gb e t0 (a ++ .base (.packet cmd seq body d) now :: b1)) (by rw [← e1]; exact ⟨hc, ho⟩)
    refine ⟨h1.1, h1.2, Nat.le_trans ?_ hgen⟩
    rw [e1]
    have hm : ∀ (l : List Step) (s : State), Sim s → s.base.gen ≤ (l.foldl (step gb e) s).base.gen := by
      intro l
      induction l with
      | nil => intro s _; exact Nat.le_refl _
      | cons x l ih =>
        intro s hsim
        obtain ⟨g1, g2⟩ := sim_step (gb := gb) (e := e) hsim x
        refine Nat.le_trans ?_ (ih _ g1)
        rw [g2]
        cases baseStep s x with
        | none => exact Nat.le_refl _
        | some y => exact gen_mono e s.base y
    exact hm b2 _ (sim_run gb e t0 _).1
  have hreq : ∀ b1 b2, b = b1 ++ b2 → (run gb e t0 (a ++ .base (.packet cmd seq body d) now :: b1)).base.reqs[(run gb e t0 a).base.reqs.length]? =
      some ⟨(run gb e t0 a).base.ver, .activeResp, cmd, seq, body, d⟩ := by
    intro b1 b2 hb
    obtain ⟨h1, h2, _⟩ := halive b1 b2 hb
    obtain ⟨b1', hb1'⟩ := project_split gb e t0 a b1 cmd seq body d now
    rw [(sim_run gb e t0 _).2] at h1 h2 ⊢
    rw [(sim_run gb e t0 a).2, hb1']
    rw [hb1'] at h1 h2
    exact ServerTraffic.received hk h1 h2
  have key : ∀ b1 b2, b = b1 ++ b2 →
      (∃ t ∈ (run gb e t0 (a ++ .base (.packet cmd seq body d) now :: b1)).base.tasks, t.req = (run gb e t0 a).base.reqs.length) ∨
      ∃ t, Ev.answer t ∈ history gb e (run gb e t0 (a ++ [.base (.packet cmd seq body d) now])) b1 := by
    intro b1
    induction b1 using snoc_induction with
    | nil =>
      intro b2 hb
      left
      have hr := hreq [] b (by simp)
      obtain ⟨h1, h2, _⟩ := halive [] b (by simp)
      rw [run_snoc] at hr h1 h2 ⊢
      have hal := alive_step gb e _ _ ⟨h1, h2⟩
      have hn : ¬ ((run gb e t0 a).base.crashed ∨ (run gb e t0 a).base.isOpen = false) := by simp [hal]
      unfold step at hr ⊢
      rw [if_neg hn] at hr ⊢
      simp only [onBase] at hr ⊢
      unfold ServerTraffic.step at hr ⊢
      rw [if_neg hn] at hr ⊢
      simp only [ServerTraffic.onPacket] at hr ⊢
      split at hr
      · rw [List.getElem?_eq_none (Nat.le_refl _)] at hr; cases hr
      · rw [List.getElem?_eq_none (Nat.le_refl _)] at hr; cases hr
      · rw [List.getElem?_eq_none (Nat.le_refl _)] at hr; cases hr
      · rename_i k' hk'
        exact ⟨_, List.mem_append_right _ (List.mem_singleton.2 rfl), rfl⟩
    | snoc b1 x ih =>
      intro b2 hb
      have hb' : b = b1 ++ (x :: b2) := by rw [hb]; simp
      have e1 : run gb e t0 (a ++ .base (.packet cmd seq body d) now :: (b1 ++ [x])) =
          step gb e (run gb e t0 (a ++ .base (.packet cmd seq body d) now :: b1)) x := by
        rw [← run_snoc]; simp
      have e2 : b1.foldl (step gb e) (run gb e t0 (a ++ [.base (.packet cmd seq body d) now])) =
          run gb e t0 (a ++ .base (.packet cmd seq body d) now :: b1) := by
        rw [← run_append]; simp
      rw [history_append]
      rcases ih _ hb' with h | ⟨t, h⟩
      · have hinv := ServerTraffic.inv_run_all e (answering gb e t0 (a ++ .base (.packet cmd seq body d) now :: b1))
        rw [← (sim_run gb e t0 _).2] at hinv
        rcases task_or_answer gb e hinv (hreq b1 _ hb') hcmd x (halive b1 _ hb').2.2 h with h' | ⟨t, h'⟩
        · left; rw [e1]; exact h'
        · right
          refine ⟨t, List.mem_append_right _ ?_⟩
          rw [e2]
          simp [history, h']
      · exact .inr ⟨t, List.mem_append_left _ h⟩
  rcases key b [] (by simp) with ⟨t, ht, _⟩ | h
  · rw [hrest] at ht; cases ht
  · exact h

/-- **C144: a server at rest has counted every answer to a heartbeat that it has read**: as unanswered count at most the heartbeats written since. -/
theorem answer_counted_partial (gb : Bytes → Option Bytes) (e : Env) (h16 : ∀ x, (e.md5 x).length = 16) (t0 : Int) (a b : List Step)
    (cmd seq : UInt32) (body : Bytes) (d : Draw) (now : Int) (hcmd : (activeCmd e.proto).map Spec.responseOf = some cmd)
    (hwin : AccountsAll (fun ac => 1 ≤ ac.mtWindowSize) (a ++ .base (.packet cmd seq body d) now :: b))
    (hone : ((a ++ .base (.packet cmd seq body d) now :: b).filter (onPacketSteps fun c _ _ _ => c = loginCmd e.proto)).length ≤ 1)
    (hc : (run gb e t0 (a ++ .base (.packet cmd seq body d) now :: b)).base.crashed = false)
    (ho : (run gb e t0 (a ++ .base (.packet cmd seq body d) now :: b)).base.isOpen = true)
    (hs : Settled gb e (run gb e t0 (a ++ .base (.packet cmd seq body d) now :: b))) :
    beatFrames e.proto (run gb e t0 a) + unanswered (log gb e t0 (a ++ .base (.packet cmd seq body d) now :: b)) ≤
      beatFrames e.proto (run gb e t0 (a ++ .base (.packet cmd seq body d) now :: b)) := by
  obtain ⟨t, ht⟩ := answer_logged gb e h16 t0 a b cmd seq body d now hcmd hwin hone hc ho hs
  · have e3 : log gb e t0 (a ++ .base (.packet cmd seq body d) now :: b) = log gb e t0 (a ++ [.base (.packet cmd seq body d) now]) ++
        history gb e (run gb e t0 (a ++ [.base (.packet cmd seq body d) now])) b := by
      unfold log
      rw [show a ++ .base (.packet cmd seq body d) now :: b = (a ++ [.base (.packet cmd seq body d) now]) ++ b by simp, history_append]
      rfl
    have h1 := unansweredFrom_answer (unanswered (log gb e t0 (a ++ [.base (.packet cmd seq body d) now]))) _ ht
    have h2 := beats_written gb e t0 (a ++ [.base (.packet cmd seq body d) now]) b
    have h3 : beatFrames e.proto (run gb e t0 a) ≤ beatFrames e.proto (run gb e t0 (a ++ [.base (.packet cmd seq body d) now])) := by
      rw [run_append]; exact beatFrames_mono gb e e.proto _ _
    rw [e3, unanswered, Heartbeat.unansweredFrom_append]
    rw [show (a ++ [.base (.packet cmd seq body d) now]) ++ b = a ++ .base (.packet cmd seq body d) now :: b by simp] at h2
    exact Nat.le_trans (Nat.add_le_add h3 h1) h2

end Gosms.ServerTicks

namespace Gosms.ServerLife
open Gosms.Spec Gosms.Spec.ServerLife
open Gosms.Spec.ServerStream (KeptUp Numbered)
open Gosms.Traffic (Packet Conn receive decodeAndCheckHeader)
open Gosms.ServerTraffic (Env Draw answer)
open Gosms.ServerTicks (Settled onPacketSteps AccountsAll)
open Gosms.Spec.ServerTraffic (packetSeq seqOf loginCmd submitCmd terminateCmd activeCmd)
open Gosms.ServerStream (never onTraffic_closed)

theorem run_snoc (z : Bool) (gb : Bytes → Option Bytes) (e : Env) (t0 : Int) (steps : List Step) (x : Step) :
    run z gb e t0 (steps ++ [x]) = step z gb e (run z gb e t0 steps) x := by
  simp [run]

theorem run_append (z : Bool) (gb : Bytes → Option Bytes) (e : Env) (t0 : Int) (a b : List Step) :
    run z gb e t0 (a ++ b) = b.foldl (step z gb e) (run z gb e t0 a) := by
  simp [run]

theorem packets_snoc (ps : List ServerTicks.Step) (x : ServerTicks.Step) : packets (ps ++ [x]) = packets ps ++ packets [x] := by
  simp [packets, List.filterMap_append]

theorem segments_append (a b : List Step) : segments (a ++ b) = segments a ++ segments b := by
  simp [segments, List.filterMap_append]

theorem segments_snoc (steps : List Step) (x : Step) : segments (steps ++ [x]) = segments steps ++ segments [x] := segments_append steps [x]

/-- Where a step of the packet history comes from. -/
def From (z : Bool) (gb : Bytes → Option Bytes) (e : Env) (t0 : Int) (steps : List Step) (ts : List ServerTicks.Step) : Prop :=
  ∀ a y b, ts = a ++ y :: b → ∃ s1 x s2 c c', steps = s1 ++ x :: s2 ∧ Makes x y ∧
    (run z gb e t0 s1).tk = ServerTicks.run gb e t0 a ∧
    receive z e.proto never {} (segments s1) = some c ∧ c.handed = packets a ∧
    receive z e.proto never {} (segments (s1 ++ [x])) = some c' ∧ c'.handed = packets (a ++ [y])

theorem From.none {z : Bool} {gb : Bytes → Option Bytes} {e : Env} {t0 : Int} {steps : List Step} {ts : List ServerTicks.Step}
    (h : From z gb e t0 steps ts) (x : Step) : From z gb e t0 (steps ++ [x]) ts := by
  intro a y b hp
  obtain ⟨s1, x', s2, c, c', h1, h2⟩ := h a y b hp
  exact ⟨s1, x', s2 ++ [x], c, c', by rw [h1]; simp, h2⟩

theorem From.snoc {z : Bool} {gb : Bytes → Option Bytes} {e : Env} {t0 : Int} {steps : List Step} {ts : List ServerTicks.Step}
    (h : From z gb e t0 steps ts) (x : Step) (y : ServerTicks.Step) (hm : Makes x y)
    (h1 : (run z gb e t0 steps).tk = ServerTicks.run gb e t0 ts) {c c' : Conn}
    (h2 : receive z e.proto never {} (segments steps) = some c) (h3 : packets ts = c.handed)
    (h4 : receive z e.proto never {} (segments (steps ++ [x])) = some c') (h5 : packets (ts ++ [y]) = c'.handed) :
    From z gb e t0 (steps ++ [x]) (ts ++ [y]) := by
  intro a y' b hp
  rcases List.eq_nil_or_concat b with rfl | ⟨b', w, rfl⟩
  · obtain ⟨rfl, g⟩ := List.append_inj' hp rfl
    obtain rfl := (List.cons.inj g).1
    exact ⟨steps, x, [], c, c', rfl, hm, h1, h2, h3.symm, h4, h5.symm⟩
  · rw [List.concat_eq_append, ← List.cons_append, ← List.append_assoc] at hp
    obtain ⟨g1, g2⟩ := List.append_inj' hp rfl
    obtain ⟨s1, x', s2, c, c', k⟩ := h a y' b' g1
    exact ⟨s1, x', s2 ++ [x], c, c', by rw [k.1]; simp, k.2⟩

/-- Nothing happens on a connection that is closed. -/
theorem down_stays {gb : Bytes → Option Bytes} {e : Env} {s : ServerTicks.State} (h : s.base.crashed = true ∨ s.base.isOpen = false)
    (x : ServerTicks.Step) : ServerTicks.step gb e s x = s := by
  unfold ServerTicks.step
  rw [if_pos (by simpa using h)]

theorem closed_down {gb : Bytes → Option Bytes} {e : Env} {s : ServerTicks.State} (now : Int) :
    (ServerTicks.step gb e s (.base .close now)).base.crashed = true ∨ (ServerTicks.step gb e s (.base .close now)).base.isOpen = false := by
  by_cases h : s.base.crashed = true ∨ s.base.isOpen = false
  · rw [down_stays h]; exact h
  · unfold ServerTicks.step
    rw [if_neg (by simpa using h)]
    exact ServerStream.closed_down (e := e) (s := s.base)

theorem decode_some (z : Bool) (p : Proto) (b : Bytes) : ∃ hd, decodeAndCheckHeader z p b = some hd := by
  rcases Traffic.decode_cases z p b with h | h | h | h
  · exact ⟨_, h.2⟩
  · exact ⟨_, h.2.2⟩
  · exact ⟨_, h.2.2.2.2.2⟩
  · exact ⟨_, h.2.2.2.2.2⟩

theorem life_inv (z : Bool) (gb : Bytes → Option Bytes) (e : Env) (t0 : Int) (steps : List Step) :
    ∃ ts c, (run z gb e t0 steps).tk = ServerTicks.run gb e t0 ts ∧
    receive z e.proto never {} (segments steps) = some c ∧ packets ts = c.handed ∧ From z gb e t0 steps ts ∧
    ((run z gb e t0 steps).tk.base.crashed = true ∨ (run z gb e t0 steps).tk.base.isOpen = false ∨
      c.isOpen = true ∧ (run z gb e t0 steps).buffer = c.buffer) := by
  induction steps using snoc_induction with
  | nil => exact ⟨[], {}, rfl, rfl, rfl, fun a y b h => by simp at h, .inr (.inr ⟨rfl, rfl⟩)⟩
  | snoc steps x ih =>
    obtain ⟨ts, c, h1, h2, h3, h4, h5⟩ := ih
    have other : ∀ y : ServerTicks.Step, segments [x] = [] → packets [y] = [] → Makes x y →
        step z gb e (run z gb e t0 steps) x = { run z gb e t0 steps with tk := ServerTicks.step gb e (run z gb e t0 steps).tk y } →
        ∃ ts c, (run z gb e t0 (steps ++ [x])).tk = ServerTicks.run gb e t0 ts ∧
          receive z e.proto never {} (segments (steps ++ [x])) = some c ∧ packets ts = c.handed ∧ From z gb e t0 (steps ++ [x]) ts ∧
          ((run z gb e t0 (steps ++ [x])).tk.base.crashed = true ∨ (run z gb e t0 (steps ++ [x])).tk.base.isOpen = false ∨
            c.isOpen = true ∧ (run z gb e t0 (steps ++ [x])).buffer = c.buffer) := by
      intro y hx hy hm hstep
      have k2 : receive z e.proto never {} (segments (steps ++ [x])) = some c := by rw [segments_snoc, hx, List.append_nil, h2]
      have k3 : packets (ts ++ [y]) = c.handed := by rw [packets_snoc, hy, List.append_nil, h3]
      refine ⟨ts ++ [y], c, ?_, k2, k3, h4.snoc x y hm h1 h2 h3 k2 k3, ?_⟩
      · rw [run_snoc, hstep, ServerTicks.run_snoc, h1]
      · rw [run_snoc, hstep]
        rcases h5 with h5 | h5 | ⟨g1, g2⟩
        · left; rw [down_stays (.inl h5)]; exact h5
        · right; left; rw [down_stays (.inr h5)]; exact h5
        · exact .inr (.inr ⟨g1, g2⟩)
    cases x with
    | run i now => exact other (.base (.run i) now) rfl rfl ⟨rfl, rfl⟩ rfl
    | drop i now => exact other (.base (.drop i) now) rfl rfl ⟨rfl, rfl⟩ rfl
    | loop now => exact other (.base .loop now) rfl rfl rfl rfl
    | close now => exact other (.base .close now) rfl rfl rfl rfl
    | tick d => exact other (.tick d) rfl rfl rfl rfl
    | task i d => exact other (.task i d) rfl rfl ⟨rfl, rfl⟩ rfl
    | data bytes d now =>
      have hseg : segments (steps ++ [.data bytes d now]) = segments steps ++ [bytes] := by rw [segments_snoc]; rfl
      have hrec : receive z e.proto never {} (segments (steps ++ [.data bytes d now])) = Traffic.onTraffic z e.proto never c bytes := by
        rw [hseg, Traffic.receive_snoc, h2, Option.bind_some]
      obtain ⟨hd, hdec⟩ := decode_some z e.proto (c.buffer ++ bytes)
      have hT : c.isOpen = true → Traffic.onTraffic z e.proto never c bytes = some (match (generalizing := false) hd with
          | .wait => { c with buffer := c.buffer ++ bytes }
          | .close => { c with buffer := c.buffer ++ bytes, isOpen := false }
          | .packet cmd seq body rest => ⟨rest, c.handed ++ [⟨cmd, seq, body⟩], true⟩) := by
        intro ho
        unfold Traffic.onTraffic
        rw [if_pos ho]
        simp only [hdec]
        cases hd <;> rfl
      by_cases hdown : (run z gb e t0 steps).tk.base.crashed = true ∨ (run z gb e t0 steps).tk.base.isOpen = false
      · have hstep : step z gb e (run z gb e t0 steps) (.data bytes d now) = run z gb e t0 steps := by
          simp only [step]; rw [if_pos (by simpa using hdown)]
        have hd' : ∀ c' : Conn, (run z gb e t0 (steps ++ [.data bytes d now])).tk.base.crashed = true ∨
            (run z gb e t0 (steps ++ [.data bytes d now])).tk.base.isOpen = false ∨
            c'.isOpen = true ∧ (run z gb e t0 (steps ++ [.data bytes d now])).buffer = c'.buffer := by
          intro c'
          rw [run_snoc, hstep]
          rcases hdown with h | h
          · exact .inl h
          · exact .inr (.inl h)
        have hrun : (run z gb e t0 (steps ++ [.data bytes d now])).tk = ServerTicks.run gb e t0 ts := by rw [run_snoc, hstep, h1]
        cases ho : c.isOpen with
        | false =>
          exact ⟨ts, c, hrun, hrec.trans (onTraffic_closed z _ c ho bytes), h3, h4.none _, hd' c⟩
        | true =>
          have hR := hrec.trans (hT ho)
          cases hd with
          | wait => exact ⟨ts, _, hrun, hR, h3, h4.none _, hd' _⟩
          | close => exact ⟨ts, _, hrun, hR, h3, h4.none _, hd' _⟩
          | packet cmd seq body rest =>
            have k3 : packets (ts ++ [.base (.packet cmd seq body d) now]) = c.handed ++ [⟨cmd, seq, body⟩] := by rw [packets_snoc, h3]; rfl
            refine ⟨ts ++ [.base (.packet cmd seq body d) now], _, ?_, hR, k3,
              h4.snoc (.data bytes d now) (.base (.packet cmd seq body d) now) ⟨rfl, rfl⟩ h1 h2 h3 hR k3, hd' _⟩
            rw [run_snoc, hstep, ServerTicks.run_snoc, ← h1, down_stays hdown]
      · obtain ⟨g1, g2⟩ : c.isOpen = true ∧ (run z gb e t0 steps).buffer = c.buffer := by
          rcases h5 with h | h | h
          · exact absurd (.inl h) hdown
          · exact absurd (.inr h) hdown
          · exact h
        have hstep : step z gb e (run z gb e t0 steps) (.data bytes d now) = (match (generalizing := false) hd with
            | .wait => { run z gb e t0 steps with buffer := c.buffer ++ bytes }
            | .close => { buffer := c.buffer ++ bytes, tk := ServerTicks.step gb e (run z gb e t0 steps).tk (.base .close now) }
            | .packet cmd seq body rest => ⟨rest, ServerTicks.step gb e (run z gb e t0 steps).tk (.base (.packet cmd seq body d) now)⟩) := by
          simp only [step]
          rw [if_neg (by simpa using hdown)]
          simp only [g2, hdec]
          cases hd <;> rfl
        have hR := hrec.trans (hT g1)
        rw [run_snoc, hstep]
        cases hd with
        | wait => exact ⟨ts, _, h1, hR, h3, h4.none _, .inr (.inr ⟨g1, rfl⟩)⟩
        | close =>
          have k3 : packets (ts ++ [.base .close now]) = c.handed := by rw [packets_snoc, h3]; simp [packets]
          refine ⟨ts ++ [.base .close now], _, ?_, hR, k3, h4.snoc (.data bytes d now) (.base .close now) rfl h1 h2 h3 hR k3, ?_⟩
          · rw [ServerTicks.run_snoc, h1]
          · rcases closed_down (gb := gb) (e := e) (s := (run z gb e t0 steps).tk) now with h | h
            · exact .inl h
            · exact .inr (.inl h)
        | packet cmd seq body rest =>
          have k3 : packets (ts ++ [.base (.packet cmd seq body d) now]) = c.handed ++ [⟨cmd, seq, body⟩] := by rw [packets_snoc, h3]; rfl
          refine ⟨ts ++ [.base (.packet cmd seq body d) now], _, ?_, hR, k3,
            h4.snoc (.data bytes d now) (.base (.packet cmd seq body d) now) ⟨rfl, rfl⟩ h1 h2 h3 hR k3, .inr (.inr ⟨rfl, rfl⟩)⟩
          rw [ServerTicks.run_snoc, h1]

/-- **C144: whatever bytes arrive, and in whatever pieces, the server does what it does for a history of packets and ticks**: the packets are those that
framing gives to the handlers, in order, and every step of that history is a step of this one. So all that is proved of such histories
(Props/ServerFrames.lean, ServerHistory.lean, ServerRest.lean, ServerClosing.lean) holds of histories of bytes. -/
theorem life_as_packets (z : Bool) (gb : Bytes → Option Bytes) (e : Env) (t0 : Int) (steps : List Step) :
    ∃ ts c, (run z gb e t0 steps).tk = ServerTicks.run gb e t0 ts ∧
      receive z e.proto (fun _ _ => false) {} (segments steps) = some c ∧ packets ts = c.handed ∧
      ∀ a y b, ts = a ++ y :: b → ∃ s1 x s2, steps = s1 ++ x :: s2 ∧ Makes x y ∧ (run z gb e t0 s1).tk = ServerTicks.run gb e t0 a := by
  obtain ⟨ts, c, h1, h2, h3, h4, _⟩ := life_inv z gb e t0 steps
  refine ⟨ts, c, h1, h2, h3, fun a y b hab => ?_⟩
  obtain ⟨s1, x, s2, _, _, g1, g2, g3, _⟩ := h4 a y b hab
  exact ⟨s1, x, s2, g1, g2, g3⟩

theorem written_eq (s : State) : written s = ServerTicks.frames s.tk := by
  unfold written ServerTicks.frames
  rfl

theorem heartbeats_eq (p : Proto) (s : State) : heartbeats p s = ServerTicks.beatFrames p s.tk := by
  unfold heartbeats ServerTicks.beatFrames
  rw [written_eq]

theorem filter_packets (f : Packet → Bool) (ts : List ServerTicks.Step) :
    (ts.filter (onPacketSteps fun c s b _ => f ⟨c, s, b⟩)).length = ((packets ts).filter f).length := by
  induction ts with
  | nil => rfl
  | cons x t ih =>
    unfold packets at ih ⊢
    cases x with
    | tick d => rw [List.filterMap_cons, List.filter_cons]; simpa [onPacketSteps] using ih
    | task i d => rw [List.filterMap_cons, List.filter_cons]; simpa [onPacketSteps] using ih
    | base y now =>
      cases y with
      | packet c s b d =>
        rw [List.filterMap_cons, List.filter_cons]
        show (if f ⟨c, s, b⟩ = true then _ else _ : List ServerTicks.Step).length = _
        rw [List.filter_cons]
        by_cases hf : f ⟨c, s, b⟩ = true
        · rw [if_pos hf, if_pos hf, List.length_cons, List.length_cons, ih]
        · rw [if_neg hf, if_neg hf, ih]
      | run i => rw [List.filterMap_cons, List.filter_cons]; simpa [onPacketSteps, ServerTraffic.onPackets] using ih
      | drop i => rw [List.filterMap_cons, List.filter_cons]; simpa [onPacketSteps, ServerTraffic.onPackets] using ih
      | loop => rw [List.filterMap_cons, List.filter_cons]; simpa [onPacketSteps, ServerTraffic.onPackets] using ih
      | close => rw [List.filterMap_cons, List.filter_cons]; simpa [onPacketSteps, ServerTraffic.onPackets] using ih

theorem packets_at (ts : List ServerTicks.Step) : ∀ (j : Nat) (q : Packet), (packets ts)[j]? = some q →
    ∃ a d now b, ts = a ++ .base (.packet q.cmd q.seq q.body d) now :: b ∧ (packets a).length = j := by
  induction ts with
  | nil => intro j q h; simp [packets] at h
  | cons x t ih =>
    intro j q h
    have skip : packets (x :: t) = packets t → packets [x] = [] → ∃ a d now b, x :: t = a ++ .base (.packet q.cmd q.seq q.body d) now :: b ∧
        (packets a).length = j := by
      intro e1 e2
      obtain ⟨a, d, now, b, h1, h2⟩ := ih j q (by rw [← e1]; exact h)
      refine ⟨x :: a, d, now, b, by rw [h1]; rfl, ?_⟩
      have : packets (x :: a) = packets [x] ++ packets a := by simp only [packets, ← List.filterMap_append]; rfl
      rw [this, e2]; exact h2
    cases x with
    | tick d => exact skip rfl rfl
    | task i d => exact skip rfl rfl
    | base y now =>
      cases y with
      | packet cmd seq body d =>
        have e1 : packets (.base (.packet cmd seq body d) now :: t) = ⟨cmd, seq, body⟩ :: packets t := rfl
        rw [e1] at h
        cases j with
        | zero =>
          rw [List.getElem?_cons_zero] at h
          obtain rfl := Option.some.inj h
          exact ⟨[], d, now, t, rfl, rfl⟩
        | succ j =>
          rw [List.getElem?_cons_succ] at h
          obtain ⟨a, d', now', b, h1, h2⟩ := ih j q h
          exact ⟨.base (.packet cmd seq body d) now :: a, d', now', b, by rw [h1]; rfl, by
            have : packets (.base (.packet cmd seq body d) now :: a) = ⟨cmd, seq, body⟩ :: packets a := rfl
            rw [this, List.length_cons, h2]⟩
      | run i => exact skip rfl rfl
      | drop i => exact skip rfl rfl
      | loop => exact skip rfl rfl
      | close => exact skip rfl rfl

/-- **C144: however a stream of packets is cut, no request is answered more often than it was sent**, whatever the server sends on its own account in between. -/
theorem life_at_most_once (z : Bool) (gb : Bytes → Option Bytes) (e : Env) (h16 : ∀ x, (e.md5 x).length = 16) (t0 : Int) (qs : List Packet)
    (hs : Sendable z e.proto qs) (steps : List Step) (rest : Bytes) (hst : (segments steps).flatten ++ rest = qs.flatMap raw) (cmd : UInt32)
    (hcmd : cmd < 0x80000000) (n : Bytes) :
    ((written (run z gb e t0 steps)).filter fun f => Spec.ServerTraffic.command f = be32 (Spec.responseOf cmd) ∧ seqOf e.proto f = n).length ≤
      (qs.filter fun q => Numbered e.proto cmd n q).length := by
  obtain ⟨ts, c, h1, h2, h3, _⟩ := life_inv z gb e t0 steps
  obtain ⟨m, held, g1, _⟩ := Traffic.handed_exactly z e.proto never (fun _ _ => rfl) qs hs _ rest hst
  obtain rfl := Option.some.inj (g1.symm.trans h2)
  have := ServerTicks.response_at_most_once gb e h16 t0 ts cmd hcmd n
  rw [← h1, ← written_eq] at this
  refine Nat.le_trans this ?_
  have hf := filter_packets (fun q => decide (Numbered e.proto cmd n q)) ts
  rw [h3] at hf
  have hle : ((qs.take m).filter fun q => decide (Numbered e.proto cmd n q)).length ≤
      (qs.filter fun q => decide (Numbered e.proto cmd n q)).length :=
    ((List.take_sublist m qs).filter _).length_le
  refine Nat.le_trans (Nat.le_of_eq ?_) hle
  rw [← hf]
  rfl

/-- What the packet history of a stream that the server is not behind with is like, at packet `j`. -/
theorem packet_at {z : Bool} {gb : Bytes → Option Bytes} {e : Env} {t0 : Int} {qs : List Packet}
    (hs : Sendable z e.proto qs) {steps : List Step} {rest : Bytes} (hst : (segments steps).flatten ++ rest = qs.flatMap raw)
    (hk : KeptUp qs (segments steps))
    (hwin : ∀ bytes d now, Step.data bytes d now ∈ steps → ∀ n ac, d.find n = some ac → 1 ≤ ac.mtWindowSize)
    (hone : (qs.filter fun q => q.cmd = loginCmd e.proto).length ≤ 1)
    {j : Nat} {q : Packet} (hq : qs[j]? = some q) (hj : j < arrived qs (segments steps) (segments steps).length) :
    ∃ a d now b s1 bytes s2 c c', (run z gb e t0 steps).tk = ServerTicks.run gb e t0 (a ++ .base (.packet q.cmd q.seq q.body d) now :: b) ∧
      packets (a ++ .base (.packet q.cmd q.seq q.body d) now :: b) = qs.take (arrived qs (segments steps) (segments steps).length) ∧
      AccountsAll (fun ac => 1 ≤ ac.mtWindowSize) (a ++ .base (.packet q.cmd q.seq q.body d) now :: b) ∧
      ((a ++ .base (.packet q.cmd q.seq q.body d) now :: b).filter (onPacketSteps fun c _ _ _ => c = loginCmd e.proto)).length ≤ 1 ∧
      steps = s1 ++ .data bytes d now :: s2 ∧ (run z gb e t0 s1).tk = ServerTicks.run gb e t0 a ∧
      receive z e.proto never {} (segments s1) = some c ∧ c.handed = qs.take j ∧
      receive z e.proto never {} (segments (s1 ++ [.data bytes d now])) = some c' ∧ c'.handed = qs.take (j + 1) ∧
      From z gb e t0 steps (a ++ .base (.packet q.cmd q.seq q.body d) now :: b) ∧ packets a = qs.take j := by
  obtain ⟨ts, c, h1, h2, h3, h4, _⟩ := life_inv z gb e t0 steps
  have hall := (Traffic.keeps_up_iff_partial z e.proto never (fun _ _ => rfl) qs hs _ rest hst c h2).2 hk
  rw [hall] at h3
  have hqj : (packets ts)[j]? = some q := by rw [h3, List.getElem?_take, if_pos hj, hq]
  obtain ⟨a, d, now, b, g1, g2⟩ := packets_at ts j q hqj
  obtain ⟨s1, x, s2, c1, c1', k1, km, k2, k3, k4, k5, k6⟩ := h4 a _ b g1
  have hx : ∃ bytes, x = .data bytes d now := by
    cases x <;> simp only [Makes] at km
    obtain ⟨rfl, rfl⟩ := km
    exact ⟨_, rfl⟩
  obtain ⟨bytes, rfl⟩ := hx
  have hpre : packets a = qs.take j := by
    have e1 : packets ts = packets a ++ packets (.base (.packet q.cmd q.seq q.body d) now :: b) := by
      rw [g1]; simp only [packets, List.filterMap_append]
    have e2 := congrArg (List.take j) (e1.symm.trans h3)
    rw [List.take_left' g2, List.take_take, Nat.min_eq_left (by omega)] at e2
    exact e2
  have hlogin : (ts.filter (onPacketSteps fun c _ _ _ => c = loginCmd e.proto)).length ≤ 1 := by
    have := filter_packets (fun q => decide (q.cmd = loginCmd e.proto)) ts
    rw [h3] at this
    have hle : ((qs.take (arrived qs (segments steps) (segments steps).length)).filter fun q => decide (q.cmd = loginCmd e.proto)).length ≤
        (qs.filter fun q => decide (q.cmd = loginCmd e.proto)).length := ((List.take_sublist _ qs).filter _).length_le
    exact Nat.le_trans (Nat.le_of_eq this) (Nat.le_trans hle hone)
  have hacc : AccountsAll (fun ac => 1 ≤ ac.mtWindowSize) ts := by
    intro cmd seq body d' now' hm n ac hfind
    obtain ⟨a', b', hab⟩ := List.append_of_mem hm
    obtain ⟨s1', x', s2', _, _, g, gm, _⟩ := h4 a' _ b' hab
    cases x' <;> simp only [Makes] at gm
    obtain ⟨rfl, rfl⟩ := gm
    exact hwin _ _ _ (by rw [g]; exact List.mem_append_right _ List.mem_cons_self) n ac hfind
  subst g1
  refine ⟨a, d, now, b, s1, bytes, s2, c1, c1', h1, h3, hacc, hlogin, k1, k2, k3, by rw [k4, hpre], k5, ?_, h4, hpre⟩
  rw [k6, packets_snoc, hpre, List.take_add_one, hq]
  rfl

/-- **C144, the part of C141 with the server's own frames: a server at rest has answered every packet of the stream that has arrived, with the specified bytes,
once** - if it is not behind with reading, the connection is still open, accounts have windows of at least one slot and there was no second login. -/
theorem life_answered_partial (z : Bool) (gb : Bytes → Option Bytes) (e : Env) (h16 : ∀ x, (e.md5 x).length = 16) (t0 : Int)
    (qs : List Packet) (hs : Sendable z e.proto qs)
    (steps : List Step) (rest : Bytes) (hst : (segments steps).flatten ++ rest = qs.flatMap raw) (hk : KeptUp qs (segments steps))
    (hwin : ∀ bytes d now, Step.data bytes d now ∈ steps → ∀ n ac, d.find n = some ac → 1 ≤ ac.mtWindowSize)
    (hone : (qs.filter fun q => q.cmd = loginCmd e.proto).length ≤ 1)
    (hc : (run z gb e t0 steps).tk.base.crashed = false) (ho : (run z gb e t0 steps).tk.base.isOpen = true)
    (hr : Settled gb e (run z gb e t0 steps).tk)
    (j : Nat) (q : Packet) (hq : qs[j]? = some q) (hj : j < arrived qs (segments steps) (segments steps).length) :
    ∃ s1 bytes d now s2 c, steps = s1 ++ .data bytes d now :: s2 ∧
      receive z e.proto (fun _ _ => false) {} (segments s1) = some c ∧ c.handed = qs.take j ∧
      ∀ f, answer e (run z gb e t0 s1).tk.base.ver q.cmd q.seq q.body d = some f →
        (q.cmd = submitCmd e.proto → d.allow = true → d.account ≠ none ∧ d.minMs < d.maxMs) →
        f ∈ written (run z gb e t0 steps) ∧
        ((e.proto = .sgip → 8 ≤ q.body.length) →
          (qs.filter fun q' => Numbered e.proto q.cmd (packetSeq e.proto q.seq q.body) q').length = 1 →
          ((written (run z gb e t0 steps)).filter fun g => Spec.ServerTraffic.command g = be32 (Spec.responseOf q.cmd) ∧
            seqOf e.proto g = packetSeq e.proto q.seq q.body) = [f]) := by
  obtain ⟨a, d, now, b, s1, bytes, s2, c, c', h1, h3, hacc, hlogin, k1, k2, k3, k4, _⟩ :=
    packet_at (gb := gb) (t0 := t0) hs hst hk hwin hone hq hj
  refine ⟨s1, bytes, d, now, s2, c, k1, k3, k4, fun f hf hsub => ?_⟩
  rw [k2] at hf
  rw [written_eq]
  rw [h1] at hc ho hr ⊢
  refine ⟨ServerTicks.packet_answered_partial gb e h16 t0 a b _ _ _ d now f hf hsub hacc hlogin hc ho hr, fun h8 hu => ?_⟩
  refine ServerTicks.packet_answered_once_partial gb e h16 t0 a b _ _ _ d now f hf hsub hacc hlogin hc ho hr h8 ?_
  have hfp := filter_packets (fun q' => decide (Numbered e.proto q.cmd (packetSeq e.proto q.seq q.body) q'))
    (a ++ .base (.packet q.cmd q.seq q.body d) now :: b)
  rw [h3] at hfp
  have hle : ((qs.take (arrived qs (segments steps) (segments steps).length)).filter fun q' =>
      decide (Numbered e.proto q.cmd (packetSeq e.proto q.seq q.body) q')).length ≤ 1 := by
    rw [← hu]; exact ((List.take_sublist _ qs).filter _).length_le
  have hge : 1 ≤ ((qs.take (arrived qs (segments steps) (segments steps).length)).filter fun q' =>
      decide (Numbered e.proto q.cmd (packetSeq e.proto q.seq q.body) q')).length := by
    apply List.length_pos_of_mem (a := q)
    refine List.mem_filter.2 ⟨?_, by simp [Numbered]⟩
    exact List.mem_of_getElem? (i := j) (by rw [List.getElem?_take, if_pos hj, hq])
  exact Nat.le_antisymm (by rw [← hfp] at hle; exact hle) (by rw [← hfp] at hge; exact hge)

/-! ## Heartbeats and terminations -/

theorem handed_grows (z : Bool) (p : Proto) (segs : List Bytes) : ∀ c c' : Conn, receive z p never c segs = some c' →
    c.handed.length ≤ c'.handed.length := by
  induction segs with
  | nil => intro c c' h; obtain rfl := Option.some.inj h; exact Nat.le_refl _
  | cons s t ih =>
    intro c c' h
    have h' : (Traffic.onTraffic z p never c s).bind (fun c1 => receive z p never c1 t) = some c' := h
    obtain ⟨c1, h1, h2⟩ := Option.bind_eq_some_iff.1 h'
    refine Nat.le_trans ?_ (ih c1 c' h2)
    unfold Traffic.onTraffic at h1
    split at h1
    · revert h1
      dsimp only
      generalize decodeAndCheckHeader z p (c.buffer ++ s) = o
      cases o with
      | none => intro h; cases h
      | some hd =>
        cases hd <;> intro h <;> obtain rfl := Option.some.inj h
        · exact Nat.le_refl _
        · exact Nat.le_refl _
        · simp
    · obtain rfl := Option.some.inj h1; exact Nat.le_refl _

theorem heartbeats_mono (z : Bool) (gb : Bytes → Option Bytes) (e : Env) (t0 : Int) (p : Proto) (a b : List Step) :
    heartbeats p (run z gb e t0 a) ≤ heartbeats p (run z gb e t0 (a ++ b)) := by
  induction b using snoc_induction with
  | nil => simp
  | snoc b x ih =>
    refine Nat.le_trans ih ?_
    rw [← List.append_assoc, run_snoc]
    generalize run z gb e t0 (a ++ b) = s
    have key : ∀ y, heartbeats p s ≤ ServerTicks.beatFrames p (ServerTicks.step gb e s.tk y) := by
      intro y
      rw [heartbeats_eq]
      exact ServerTicks.beatFrames_mono gb e p [y] s.tk
    rw [heartbeats_eq p (step z gb e s x)]
    cases x with
    | data bytes d now =>
      simp only [step]
      split
      · rw [heartbeats_eq]; exact Nat.le_refl _
      · split
        · rw [heartbeats_eq]; exact Nat.le_refl _
        · rw [heartbeats_eq]; exact Nat.le_refl _
        · exact key _
        · exact key _
    | run i now => exact key _
    | drop i now => exact key _
    | loop now => exact key _
    | close now => exact key _
    | tick d => exact key _
    | task i d => exact key _

theorem receive_split (z : Bool) (p : Proto) (a b : List Bytes) (c : Conn) :
    receive z p never c (a ++ b) = (receive z p never c a).bind fun c' => receive z p never c' b := by
  induction a generalizing c with
  | nil => rfl
  | cons s t ih =>
    show (Traffic.onTraffic z p never c s).bind (fun c1 => receive z p never c1 (t ++ b)) =
      ((Traffic.onTraffic z p never c s).bind (fun c1 => receive z p never c1 t)).bind _
    rw [Option.bind_assoc]
    congr 1
    funext c1
    exact ih c1

/-- A server at rest that is not behind counts, after an answer to a heartbeat has arrived, at most the heartbeats written since before it arrived. -/
theorem counted {z : Bool} {gb : Bytes → Option Bytes} {e : Env} (h16 : ∀ x, (e.md5 x).length = 16) {t0 : Int} {qs : List Packet}
    (hs : Sendable z e.proto qs) {steps : List Step} {rest : Bytes} (hst : (segments steps).flatten ++ rest = qs.flatMap raw)
    (hk : KeptUp qs (segments steps))
    (hwin : ∀ bytes d now, Step.data bytes d now ∈ steps → ∀ n ac, d.find n = some ac → 1 ≤ ac.mtWindowSize)
    (hone : (qs.filter fun q => q.cmd = loginCmd e.proto).length ≤ 1)
    (hc : (run z gb e t0 steps).tk.base.crashed = false) (ho : (run z gb e t0 steps).tk.base.isOpen = true)
    (hr : Settled gb e (run z gb e t0 steps).tk)
    {j : Nat} {q : Packet} (hq : qs[j]? = some q) (hans : AnswersHeartbeat e.proto q)
    (hj : j < arrived qs (segments steps) (segments steps).length)
    {s0 s0' : List Step} (hs0 : steps = s0 ++ s0') (hj0 : arrived qs (segments s0) (segments s0).length ≤ j) :
    heartbeats e.proto (run z gb e t0 s0) + (run z gb e t0 steps).tk.nAt.toNat ≤ heartbeats e.proto (run z gb e t0 steps) := by
  obtain ⟨a, d, now, b, s1, bytes, s2, c, c', h1, h3, hacc, hlogin, k1, k2, k3, k4, k5, k6, _⟩ :=
    packet_at (gb := gb) (t0 := t0) hs hst hk hwin hone hq hj
  rw [heartbeats_eq e.proto (run z gb e t0 steps)]
  rw [h1] at hc ho hr ⊢
  have hcount := ServerTicks.answer_counted_partial gb e h16 t0 a b _ _ _ d now hans hacc hlogin hc ho hr
  have hnat := (ServerTicks.session_history gb e h16 t0 (a ++ .base (.packet q.cmd q.seq q.body d) now :: b)).2
  have hjl : j < qs.length := (List.getElem?_eq_some_iff.1 hq).1
  have hpre : ∃ w, s1 = s0 ++ w := by
    have hap : s1 ++ .data bytes d now :: s2 = s0 ++ s0' := by rw [← k1, hs0]
    rcases List.append_eq_append_iff.1 hap with ⟨w, hw, _⟩ | ⟨w, hw, _⟩
    · -- `s0` goes on behind `s1`
      cases w with
      | nil => exact ⟨[], by rw [hw]; simp⟩
      | cons y w =>
        exfalso
        have hy : y = .data bytes d now := by
          rw [hw, List.append_assoc] at hap
          exact (List.cons.inj (List.append_cancel_left hap)).1.symm
        subst hy
        have hst0 : (segments s0).flatten ++ ((segments s0').flatten ++ rest) = qs.flatMap raw := by
          rw [← List.append_assoc, ← List.flatten_append, ← segments_append, ← hs0, hst]
        obtain ⟨n, held, g1, _, _, g4, _⟩ := Traffic.handed_exactly z e.proto never (fun _ _ => rfl) qs hs _ _ hst0
        have hn := g4 (segments s0).length (Nat.le_refl _)
        have e0 : segments s0 = segments (s1 ++ [.data bytes d now]) ++ segments w := by
          rw [hw, ← segments_append]; simp
        rw [e0, receive_split, k5, Option.bind_some] at g1
        have := handed_grows z e.proto _ _ _ g1
        rw [k6] at this
        simp only [List.length_take] at this
        omega
    · exact ⟨w, hw⟩
  obtain ⟨w, hw⟩ := hpre
  have hmono : heartbeats e.proto (run z gb e t0 s0) ≤ ServerTicks.beatFrames e.proto (ServerTicks.run gb e t0 a) := by
    rw [← k2, ← heartbeats_eq, hw]; exact heartbeats_mono z gb e t0 _ s0 w
  have hle : (ServerTicks.run gb e t0 (a ++ .base (.packet q.cmd q.seq q.body d) now :: b)).nAt.toNat ≤
      unanswered (ServerTicks.log gb e t0 (a ++ .base (.packet q.cmd q.seq q.body d) now :: b)) := by
    rw [hnat]; exact Nat.mod_le _ _
  omega

theorem down_run (z : Bool) (gb : Bytes → Option Bytes) (e : Env) (t0 : Int) (a b : List Step)
    (h : (run z gb e t0 a).tk.base.crashed = true ∨ (run z gb e t0 a).tk.base.isOpen = false) : (run z gb e t0 (a ++ b)).tk = (run z gb e t0 a).tk := by
  induction b using snoc_induction with
  | nil => simp
  | snoc b x ih =>
    rw [← List.append_assoc, run_snoc]
    rw [← ih] at h ⊢
    generalize run z gb e t0 (a ++ b) = s at *
    cases x with
    | data bytes d now => simp only [step]; rw [if_pos (by simpa using h)]
    | run i now => simp only [step]; exact down_stays h _
    | drop i now => simp only [step]; exact down_stays h _
    | loop now => simp only [step]; exact down_stays h _
    | close now => simp only [step]; exact down_stays h _
    | tick d => simp only [step]; exact down_stays h _
    | task i d => simp only [step]; exact down_stays h _

/-- Where a termination comes from: a tick, while the connection was open. -/
theorem termination_tick (z : Bool) (gb : Bytes → Option Bytes) (e : Env) (h16 : ∀ x, (e.md5 x).length = 16) (t0 : Int) (steps : List Step)
    (f : Bytes) (hf : f ∈ written (run z gb e t0 steps)) (hcmd : Spec.ServerTraffic.command f = be32 (terminateCmd e.proto)) :
    ∃ s1 d s2, steps = s1 ++ .tick d :: s2 ∧ (run z gb e t0 s1).tk.base.crashed = false ∧ (run z gb e t0 s1).tk.base.isOpen = true ∧
      ((run z gb e t0 s1).tk.lastUse + d.force < d.now ∨ 2 < (run z gb e t0 s1).tk.nAt) := by
  induction steps using snoc_induction with
  | nil => cases hf
  | snoc steps x ih =>
    by_cases hold : f ∈ written (run z gb e t0 steps)
    · obtain ⟨s1, d, s2, h1, h2⟩ := ih hold
      exact ⟨s1, d, s2 ++ [x], by rw [h1]; simp, h2⟩
    · obtain ⟨ts, c, h1, h2, h3, h4, _⟩ := life_inv z gb e t0 (steps ++ [x])
      have hf' := hf
      rw [written_eq, h1] at hf'
      obtain ⟨pre, post, hw⟩ := List.append_of_mem hf'
      obtain ⟨a, d, b, i, t, c', g1, g2, _⟩ := ServerTicks.termination_origin gb e h16 t0 ts pre post f hw hcmd
      rw [List.append_assoc, List.cons_append] at g1
      obtain ⟨s1, y, s2, _, _, k1, km, k2, _⟩ := h4 a _ _ g1
      cases y <;> simp only [Makes] at km
      subst km
      rw [← k2] at g2
      refine ⟨s1, _, s2, k1, ?_⟩
      have halive : ¬ ((run z gb e t0 s1).tk.base.crashed = true ∨ (run z gb e t0 s1).tk.base.isOpen = false) := by
        intro hdown
        have e1 : (run z gb e t0 (steps ++ [x])).tk = (run z gb e t0 s1).tk := by rw [k1]; exact down_run z gb e t0 s1 _ hdown
        rcases List.eq_nil_or_concat s2 with rfl | ⟨s2', w, rfl⟩
        · obtain ⟨rfl, _⟩ := List.append_inj' k1 rfl
          exact hold (by rw [written_eq, ← e1, ← written_eq]; exact hf)
        · rw [List.concat_eq_append, ← List.cons_append, ← List.append_assoc] at k1
          obtain ⟨k1', _⟩ := List.append_inj' k1 rfl
          have e2 : (run z gb e t0 steps).tk = (run z gb e t0 s1).tk := by rw [k1']; exact down_run z gb e t0 s1 _ hdown
          exact hold (by rw [written_eq, e2, ← e1, ← written_eq]; exact hf)
      exact ⟨by simpa using fun h => halive (.inl h), by simpa using fun h => halive (.inr h), g2⟩

/-- **C144, the part that holds: a termination is sent because the session was not used for `Server.ForceCloseConnTime`, or else, of a server that was at rest and
not behind with reading, because three heartbeats had been written since before any answer to a heartbeat arrived.** -/
theorem termination_reason_partial (z : Bool) (gb : Bytes → Option Bytes) (e : Env) (h16 : ∀ x, (e.md5 x).length = 16) (t0 : Int)
    (qs : List Packet) (hs : Sendable z e.proto qs) (steps : List Step) (rest : Bytes) (hst : (segments steps).flatten ++ rest = qs.flatMap raw)
    (hwin : ∀ bytes d now, Step.data bytes d now ∈ steps → ∀ n ac, d.find n = some ac → 1 ≤ ac.mtWindowSize)
    (hone : (qs.filter fun q => q.cmd = loginCmd e.proto).length ≤ 1)
    (f : Bytes) (hf : f ∈ written (run z gb e t0 steps)) (hcmd : Spec.ServerTraffic.command f = be32 (terminateCmd e.proto)) :
    ∃ s1 d s2, steps = s1 ++ .tick d :: s2 ∧
      ((run z gb e t0 s1).tk.lastUse + d.force < d.now ∨
        3 ≤ heartbeats e.proto (run z gb e t0 s1) ∧
        (KeptUp qs (segments s1) → Settled gb e (run z gb e t0 s1).tk →
          ∀ j q s0 s0', s1 = s0 ++ s0' → qs[j]? = some q → AnswersHeartbeat e.proto q →
            arrived qs (segments s0) (segments s0).length ≤ j → j < arrived qs (segments s1) (segments s1).length →
            heartbeats e.proto (run z gb e t0 s0) + 3 ≤ heartbeats e.proto (run z gb e t0 s1))) := by
  obtain ⟨s1, d, s2, h1, hc, ho, hor⟩ := termination_tick z gb e h16 t0 steps f hf hcmd
  refine ⟨s1, d, s2, h1, ?_⟩
  rcases hor with h | h
  · exact .inl h
  · right
    have h2 : 2 < (run z gb e t0 s1).tk.nAt.toNat := h
    refine ⟨?_, fun hk hr j q s0 s0' hs0 hq hans hj0 hj => ?_⟩
    · obtain ⟨ts, c, g1, _⟩ := life_inv z gb e t0 s1
      have hnat := (ServerTicks.session_history gb e h16 t0 ts).2
      have hb := ServerTicks.beats_written gb e t0 [] ts
      have hl : ServerTicks.log gb e t0 ts = ServerTicks.history gb e (ServerTicks.run gb e t0 []) ts := rfl
      have hu := ServerTicks.unansweredFrom_le 0 (ServerTicks.log gb e t0 ts)
      have hle : (ServerTicks.run gb e t0 ts).nAt.toNat ≤ unanswered (ServerTicks.log gb e t0 ts) := by rw [hnat]; exact Nat.mod_le _ _
      rw [heartbeats_eq, g1]
      rw [g1] at h2
      rw [List.nil_append, ← hl] at hb
      unfold unanswered at hle
      omega
    · have hst1 : (segments s1).flatten ++ ((segments (.tick d :: s2)).flatten ++ rest) = qs.flatMap raw := by
        rw [← List.append_assoc, ← List.flatten_append, ← segments_append, ← h1, hst]
      have := counted (z := z) (gb := gb) (t0 := t0) h16 hs hst1 hk
        (fun bytes d' now hm => hwin bytes d' now (by rw [h1]; exact List.mem_append_left _ hm)) hone hc ho hr hq hans hj hs0 hj0
      omega

/-- The point at which packet `j` arrives. -/
theorem crossing (qs : List Packet) (j : Nat) (steps : List Step) (h : j < arrived qs (segments steps) (segments steps).length) :
    ∃ s0 bytes d now s0', steps = s0 ++ .data bytes d now :: s0' ∧ arrived qs (segments s0) (segments s0).length ≤ j ∧
      j < arrived qs (segments (s0 ++ [.data bytes d now])) (segments (s0 ++ [.data bytes d now])).length := by
  induction steps using snoc_induction with
  | nil =>
    exfalso
    have : arrived qs (segments []) (segments []).length = 0 := by
      cases qs with
      | nil => rfl
      | cons q t =>
        show wholeIn (q :: t) 0 = 0
        unfold wholeIn
        rw [if_neg (by rw [Traffic.length_raw]; omega)]
    omega
  | snoc steps x ih =>
    by_cases hj : j < arrived qs (segments steps) (segments steps).length
    · obtain ⟨s0, bytes, d, now, s0', g1, g2⟩ := ih hj
      exact ⟨s0, bytes, d, now, s0' ++ [x], by rw [g1]; simp, g2⟩
    · cases x with
      | data bytes d now => exact ⟨steps, bytes, d, now, [], rfl, by omega, h⟩
      | run i now => rw [segments_snoc] at h; exact absurd (by simpa [segments] using h) hj
      | drop i now => rw [segments_snoc] at h; exact absurd (by simpa [segments] using h) hj
      | loop now => rw [segments_snoc] at h; exact absurd (by simpa [segments] using h) hj
      | close now => rw [segments_snoc] at h; exact absurd (by simpa [segments] using h) hj
      | tick d => rw [segments_snoc] at h; exact absurd (by simpa [segments] using h) hj
      | task i d => rw [segments_snoc] at h; exact absurd (by simpa [segments] using h) hj

theorem nth_such (P : Packet → Bool) (qs : List Packet) (n k : Nat) (hk : 1 ≤ k) (h : k ≤ ((qs.take n).filter P).length) :
    ∃ j q, j < n ∧ qs[j]? = some q ∧ P q = true ∧ ((qs.take (j + 1)).filter P).length = k := by
  induction n with
  | zero => simp at h; omega
  | succ n ih =>
    by_cases hn : k ≤ ((qs.take n).filter P).length
    · obtain ⟨j, q, h1, h2⟩ := ih hn
      exact ⟨j, q, by omega, h2⟩
    · have h' := h
      rw [List.take_add_one] at h
      cases hq : qs[n]? with
      | none => rw [hq] at h; simp at h; omega
      | some q =>
        rw [hq, List.filter_append, List.length_append] at h
        have hP : P q = true := by
          cases hP : P q with
          | true => rfl
          | false => simp [hP] at h; omega
        refine ⟨n, q, by omega, hq, hP, Nat.le_antisymm ?_ h'⟩
        rw [List.take_add_one, hq, List.filter_append, List.length_append]
        simp [hP]
        omega

theorem data_writes_nothing (z : Bool) (gb : Bytes → Option Bytes) (e : Env) (p : Proto) (s : State) (bytes : Bytes) (d : Draw) (now : Int) :
    heartbeats p (step z gb e s (.data bytes d now)) = heartbeats p s := by
  have key : ∀ y, (∀ n, y ≠ ServerTicks.Step.base .loop n) → (ServerTicks.step gb e s.tk y).wire = s.tk.wire := by
    intro y hy
    rcases ServerTicks.step_wire gb e s.tk y with h | ⟨n, _, _, h, _⟩
    · exact h
    · exact absurd h (hy n)
  have hw : (step z gb e s (.data bytes d now)).tk.wire = s.tk.wire := by
    simp only [step]
    split
    · rfl
    · split
      · rfl
      · rfl
      · exact key _ (by simp)
      · exact key _ (by simp)
  unfold heartbeats written
  rw [hw]

/-- **C144, the part that holds: a client that answers every heartbeat is not cut off for missing answers**, wherever the network cuts or joins its bytes and
whatever else it sends, if the server is at rest and not behind with reading at the ticks: then a termination is only sent if the session was not used for
`Server.ForceCloseConnTime`. -/
theorem answering_client_kept_partial (z : Bool) (gb : Bytes → Option Bytes) (e : Env) (h16 : ∀ x, (e.md5 x).length = 16) (t0 : Int)
    (qs : List Packet) (hs : Sendable z e.proto qs) (steps : List Step) (rest : Bytes) (hst : (segments steps).flatten ++ rest = qs.flatMap raw)
    (hwin : ∀ bytes d now, Step.data bytes d now ∈ steps → ∀ n ac, d.find n = some ac → 1 ≤ ac.mtWindowSize)
    (hone : (qs.filter fun q => q.cmd = loginCmd e.proto).length ≤ 1)
    (hans : Answering z gb e t0 qs steps)
    (hrest : ∀ a d b, steps = a ++ .tick d :: b → KeptUp qs (segments a) ∧ Settled gb e (run z gb e t0 a).tk)
    (f : Bytes) (hf : f ∈ written (run z gb e t0 steps)) (hcmd : Spec.ServerTraffic.command f = be32 (terminateCmd e.proto)) :
    ∃ s1 d s2, steps = s1 ++ .tick d :: s2 ∧ (run z gb e t0 s1).tk.lastUse + d.force < d.now := by
  obtain ⟨s1, d, s2, h1, hor⟩ := termination_reason_partial z gb e h16 t0 qs hs steps rest hst hwin hone f hf hcmd
  rcases hor with h | ⟨h3, h⟩
  · exact ⟨s1, d, s2, h1, h⟩
  · exfalso
    obtain ⟨hk, hr⟩ := hrest s1 d s2 h1
    have hA := hans s1.length (by rw [h1]; simp)
    rw [h1, List.take_left, List.drop_left] at hA
    have hge := hA.2 rfl
    obtain ⟨j, q, hj, hq, hP, hcnt⟩ := nth_such (fun q => decide (AnswersHeartbeat e.proto q)) qs _ _ (by omega) hge
    obtain ⟨s0, bytes, d', now, s0', g1, g2, g3⟩ := crossing qs j s1 hj
    have := h hk hr j q s0 _ g1 hq (by simpa using hP) g2 hj
    have hB := (hans (s0 ++ [Step.data bytes d' now]).length (by rw [h1, g1]; simp)).1
    rw [h1, g1, show s0 ++ .data bytes d' now :: s0' ++ .tick d :: s2 = (s0 ++ [.data bytes d' now]) ++ (s0' ++ .tick d :: s2) by simp,
      List.take_left, run_snoc, data_writes_nothing] at hB
    unfold answersArrived at hB
    have hle : ((qs.take (j + 1)).filter fun q => decide (AnswersHeartbeat e.proto q)).length ≤
        ((qs.take (arrived qs (segments (s0 ++ [.data bytes d' now])) (segments (s0 ++ [.data bytes d' now])).length)).filter
          fun q => decide (AnswersHeartbeat e.proto q)).length := by
      refine (List.Sublist.filter _ ?_).length_le
      have hmin : qs.take (j + 1) = (qs.take (arrived qs (segments (s0 ++ [.data bytes d' now])) (segments (s0 ++ [.data bytes d' now])).length)).take (j + 1) := by
        rw [List.take_take, Nat.min_eq_left (by omega)]
      rw [hmin]
      exact List.take_sublist _ _
    omega

/-! ## A client that is cut off although it answers, and one that is not -/

def sec (n : Int) : Int := n * 1000000000
def okDraw (n : UInt64) : Draw := { account := some {}, id := n, rptId := n + 100, rptSeq := 9 }
def loginQ : Packet := ⟨1, 1, ServerTraffic.demoLogin⟩
def submitQ (n : UInt32) : Packet := ⟨4, n, Handlers.exampleSubmitBody [97]⟩
def answerQ (n : UInt32) : Packet := ⟨0x80000008, n, [0]⟩

/-- A tick, and the heartbeat it brings about. -/
def beatSteps (t : Int) (n : UInt32) : List Step := [.tick { now := t, force := sec 600 }, .task 0 { now := t, seq := n }, .loop t]

/-- A login; four submits, which arrive together; then three heartbeats, each of which is answered within a second. -/
def behind : List Step :=
  [.data (raw loginQ) ServerTraffic.demoDraw 0, .run 0 1, .run 0 1, .loop 1,
   .data (raw (submitQ 2) ++ raw (submitQ 3) ++ raw (submitQ 4) ++ raw (submitQ 5)) (okDraw 1) 2,
   .run 0 3, .run 0 3, .loop 3, .run 0 3, .loop 3, .run 0 3] ++
  beatSteps (sec 100) 21 ++ [.data (raw (answerQ 21)) (okDraw 2) (sec 101),
    .run 0 (sec 101), .run 0 (sec 101), .loop (sec 101), .run 0 (sec 101), .loop (sec 101), .run 0 (sec 101)] ++
  beatSteps (sec 200) 22 ++ [.data (raw (answerQ 22)) (okDraw 3) (sec 201),
    .run 0 (sec 201), .run 0 (sec 201), .loop (sec 201), .run 0 (sec 201), .loop (sec 201), .run 0 (sec 201)] ++
  beatSteps (sec 300) 23 ++ [.data (raw (answerQ 23)) (okDraw 4) (sec 301),
    .run 0 (sec 301), .run 0 (sec 301), .loop (sec 301), .run 0 (sec 301), .loop (sec 301), .run 0 (sec 301)] ++
  beatSteps (sec 400) 24
def behindQs : List Packet := [loginQ, submitQ 2, submitQ 3, submitQ 4, submitQ 5, answerQ 21, answerQ 22, answerQ 23]

/-- A login; a heartbeat, which is answered; then nothing more until the server ends the session. -/
def silent : List Step :=
  [.data (raw loginQ) ServerTraffic.demoDraw 0, .run 0 1, .run 0 1, .loop 1] ++
  beatSteps (sec 100) 21 ++ [.data ((raw (answerQ 21)).take 5) {} (sec 101), .data ((raw (answerQ 21)).drop 5) {} (sec 101), .run 0 (sec 101), .run 0 (sec 101)] ++
  beatSteps (sec 702) 24
def silentQs : List Packet := [loginQ, answerQ 21]

/-- What holds at every tick of a history, checked. -/
def atTicks (c : List Step → ServerTicks.TickDraw → Bool) (steps : List Step) : Bool :=
  (List.range steps.length).all fun i => match steps.drop i with
    | .tick d :: _ => c (steps.take i) d
    | _ => true

theorem atTicks_spec {c : List Step → ServerTicks.TickDraw → Bool} {steps : List Step} (h : atTicks c steps = true) {a b : List Step} {d : ServerTicks.TickDraw}
    (hs : steps = a ++ .tick d :: b) : c a d = true := by
  unfold atTicks at h
  rw [List.all_eq_true] at h
  have := h a.length (by rw [hs, List.mem_range]; simp)
  rw [hs, List.drop_left, List.take_left] at this
  exact this

/-- Nothing is left to do. -/
def calm (steps : List Step) (_ : ServerTicks.TickDraw) : Bool :=
  let s := (run true some ServerTraffic.demoEnv 0 steps).tk
  s.own.length == 0 && s.queue.length == 0 && s.base.tasks.length == 0

/-- The session was used within the time. -/
def inTime (steps : List Step) (d : ServerTicks.TickDraw) : Bool := decide (d.now ≤ (run true some ServerTraffic.demoEnv 0 steps).tk.lastUse + d.force)

theorem calm_settled {a : List Step} {d : ServerTicks.TickDraw} (h : calm a d = true) :
    Settled some ServerTraffic.demoEnv (run true some ServerTraffic.demoEnv 0 a).tk := by
  simp only [calm, Bool.and_eq_true, beq_iff_eq] at h
  exact ServerTicks.settled_of_empty h.1.1 h.1.2 h.2

/-- Answering, as a check. -/
def answers (qs : List Packet) (steps : List Step) : Bool :=
  (List.range (steps.length + 1)).all fun i =>
    decide (answersArrived .cmpp qs (steps.take i) ≤ heartbeats .cmpp (run true some ServerTraffic.demoEnv 0 (steps.take i))) &&
    (!tickNext (steps.drop i) ||
      decide (heartbeats .cmpp (run true some ServerTraffic.demoEnv 0 (steps.take i)) ≤ answersArrived .cmpp qs (steps.take i)))

theorem answers_spec {qs : List Packet} {steps : List Step} (h : answers qs steps = true) :
    Answering true some ServerTraffic.demoEnv 0 qs steps := by
  intro i hi
  unfold answers at h
  rw [List.all_eq_true] at h
  have := h i (by rw [List.mem_range]; omega)
  rw [Bool.and_eq_true, Bool.or_eq_true] at this
  refine ⟨of_decide_eq_true this.1, fun ht => ?_⟩
  rcases this.2 with h' | h'
  · rw [ht] at h'; cases h'
  · exact of_decide_eq_true h'

/-- Accounts that can be looked up in these histories have windows. -/
theorem demo_windows {steps : List Step} (h : (steps.all fun | .data _ d _ => (d.find []).all (fun ac => decide (1 ≤ ac.mtWindowSize)) | _ => true) = true)
    (hc : ∀ bytes d now, Step.data bytes d now ∈ steps → ∀ n, d.find n = d.find []) :
    ∀ bytes d now, Step.data bytes d now ∈ steps → ∀ n ac, d.find n = some ac → 1 ≤ ac.mtWindowSize := by
  intro bytes d now hm n ac hf
  have := List.all_eq_true.1 h _ hm
  rw [hc bytes d now hm n] at hf
  dsimp only at this
  rw [hf] at this
  simpa using this

set_option maxRecDepth 20000 in
theorem behind_demo : answers behindQs behind = true ∧ atTicks calm behind = true ∧ atTicks inTime behind = true ∧
    ((written (run true some ServerTraffic.demoEnv 0 behind)).map fun f => (Spec.ServerTraffic.command f, seqOf .cmpp f)).getLast? =
      some (be32 (terminateCmd .cmpp), be32 24) ∧
    (segments behind).flatten = behindQs.flatMap raw := by
  refine ⟨?_, ?_, ?_, ?_, ?_⟩ <;> decide +kernel

/-- **C144 fails: a client that answers every heartbeat within a second is cut off**, although the server is at rest at every tick and the session is used: it had
sent four submits at once, and each arrival makes the server read one packet only, so that instead of the answers it reads the submits. -/
theorem answering_client_cut_off_fails : ∃ (e : Env) (qs : List Packet) (steps : List Step), (∀ x, (e.md5 x).length = 16) ∧
    Sendable true e.proto qs ∧ (segments steps).flatten = qs.flatMap raw ∧
    (∀ bytes d now, Step.data bytes d now ∈ steps → ∀ n ac, d.find n = some ac → 1 ≤ ac.mtWindowSize) ∧
    (qs.filter fun q => q.cmd = loginCmd e.proto).length ≤ 1 ∧ Answering true some e 0 qs steps ∧
    (∀ a d b, steps = a ++ .tick d :: b → Settled some e (run true some e 0 a).tk ∧ d.now ≤ (run true some e 0 a).tk.lastUse + d.force) ∧
    ∃ f ∈ written (run true some e 0 steps), Spec.ServerTraffic.command f = be32 (terminateCmd e.proto) := by
  obtain ⟨h1, h2, h3, h4, h5⟩ := behind_demo
  refine ⟨ServerTraffic.demoEnv, behindQs, behind, by simp [ServerTraffic.demoEnv], ?_, h5, demo_windows (by decide +kernel) ?_, by decide +kernel,
    answers_spec h1, fun a d b hs => ⟨calm_settled (atTicks_spec h2 hs), of_decide_eq_true (atTicks_spec h3 hs)⟩, ?_⟩
  · intro q hq
    simp only [behindQs, List.mem_cons, List.not_mem_nil, or_false] at hq
    rcases hq with rfl | rfl | rfl | rfl | rfl | rfl | rfl | rfl <;> refine ⟨?_, ?_, ?_⟩ <;> decide +kernel
  · intro bytes d now hm n
    simp only [behind, beatSteps, List.cons_append, List.nil_append, List.mem_cons, List.not_mem_nil, or_false, reduceCtorEq, false_or, Step.data.injEq] at hm
    rcases hm with ⟨_, rfl, _⟩ | ⟨_, rfl, _⟩ | ⟨_, rfl, _⟩ | ⟨_, rfl, _⟩ | ⟨_, rfl, _⟩ <;> rfl
  · have hm := List.mem_of_getLast? h4
    obtain ⟨f, hf, he⟩ := List.mem_map.1 hm
    exact ⟨f, hf, (Prod.mk.inj he).1⟩

set_option maxRecDepth 20000 in
theorem silent_demo : answers silentQs silent = true ∧ atTicks calm silent = true ∧
    atTicks (fun a _ => decide (∀ i, i ≤ (segments a).length → arrived silentQs (segments a) (segments a).length - arrived silentQs (segments a) i ≤ (segments a).length - i))
      silent = true ∧
    ((written (run true some ServerTraffic.demoEnv 0 silent)).map fun f => (Spec.ServerTraffic.command f, seqOf .cmpp f)) =
      [(be32 0x80000001, be32 1), (be32 8, be32 21), (be32 (terminateCmd .cmpp), be32 24)] ∧
    (segments silent).flatten = silentQs.flatMap raw := by
  refine ⟨?_, ?_, ?_, ?_, ?_⟩ <;> decide +kernel

/-- The hypotheses of `answering_client_kept_partial` are met: the session ends because it is no longer used. -/
example : ∃ s1 d s2, silent = s1 ++ .tick d :: s2 ∧ (run true some ServerTraffic.demoEnv 0 s1).tk.lastUse + d.force < d.now := by
  obtain ⟨h1, h2, h3, h4, h5⟩ := silent_demo
  have hm : ((be32 (terminateCmd .cmpp), be32 24) : Bytes × Bytes) ∈
      (written (run true some ServerTraffic.demoEnv 0 silent)).map fun f => (Spec.ServerTraffic.command f, seqOf .cmpp f) := by rw [h4]; simp
  obtain ⟨f, hf, he⟩ := List.mem_map.1 hm
  refine answering_client_kept_partial true some ServerTraffic.demoEnv (by simp [ServerTraffic.demoEnv]) 0 silentQs ?_ silent [] (by simpa using h5)
    (demo_windows (by decide +kernel) ?_) (by decide +kernel) (answers_spec h1)
    (fun a d b hs => ⟨(by unfold KeptUp; exact of_decide_eq_true (atTicks_spec h3 hs)), calm_settled (atTicks_spec h2 hs)⟩) f hf (Prod.mk.inj he).1
  · intro q hq
    simp only [silentQs, List.mem_cons, List.not_mem_nil, or_false] at hq
    rcases hq with rfl | rfl <;> refine ⟨?_, ?_, ?_⟩ <;> decide +kernel
  · intro bytes d now hm n
    simp only [silent, beatSteps, List.cons_append, List.nil_append, List.mem_cons, List.not_mem_nil, or_false, reduceCtorEq, false_or, Step.data.injEq] at hm
    rcases hm with ⟨_, rfl, _⟩ | ⟨_, rfl, _⟩ | ⟨_, rfl, _⟩ <;> rfl

end Gosms.ServerLife
