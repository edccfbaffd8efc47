import Verif.Props.ServerHistory

/-! # How many frames the server sends on its own account, and that terminations are sent (C49, C68, C90) -/

namespace Gosms.ServerTicks
open ServerTraffic (Env After Draw answer verdict Accounts onPackets)
open Handlers Spec.ServerTraffic
open Spec.ServerTicks (heartbeat termination entry activity)
open Spec (unanswered lastActivity)

def Own.kind : Own → OwnAfter
  | .active => .beat
  | .deliver .. => .dly
  | .terminate => .close

def Item.is (k : OwnAfter) : Item → Bool
  | .own _ a => a = k
  | .reply _ => false

/-- Tasks and frames of one kind. -/
def count (k : OwnAfter) (s : State) : Nat :=
  (s.own.filter fun o => o.kind = k).length + (s.queue.filter (Item.is k)).length + (s.wire.filter (Item.is k)).length

theorem work_kind {gb : Bytes → Option Bytes} {p : Proto} {lu : Int} {d : TaskDraw} {o : Own} {f : Bytes} {a : OwnAfter}
    (h : work gb p lu d o = some (f, a)) : a = o.kind := by
  cases work_sent h <;> rfl

theorem work_terminate (gb : Bytes → Option Bytes) (p : Proto) (lu : Int) (d : TaskDraw) : ∃ f, work gb p lu d .terminate = some (f, .close) := by
  cases p with
  | cmpp => simp only [work, Cmpp.terminateEncode, Cmpp.newTerminate, header_encode, Option.map_some]; exact ⟨_, rfl⟩
  | smgp => simp only [work, Smgp.exitEncode, Smgp.newExit, header_encode, Option.map_some]; exact ⟨_, rfl⟩
  | sgip => simp only [work, Sgip.unbindEncode, Sgip.newUnbind, sheader_encode, Option.map_some]; exact ⟨_, rfl⟩

theorem filter_eraseIdx {α : Type} (P : α → Bool) : ∀ (l : List α) (i : Nat) (x : α), l[i]? = some x →
    ((l.eraseIdx i).filter P).length + (if P x then 1 else 0) = (l.filter P).length := by
  intro l
  induction l with
  | nil => intro i x h; cases h
  | cons y l ih =>
    intro i x h
    cases i with
    | zero =>
      simp only [List.getElem?_cons_zero, Option.some.injEq] at h
      subst h
      rw [List.eraseIdx_cons_zero, List.filter_cons]
      split <;> simp
    | succ i =>
      have := ih i x (by simpa using h)
      rw [List.eraseIdx_cons_succ, List.filter_cons, List.filter_cons]
      split <;> (try simp only [List.length_cons]) <;> omega

/-- A tick that may start a task of the kind. -/
def mayStart (k : OwnAfter) : Step → Bool
  | .tick d => match k with
    | .beat => true
    | .dly => d.enable && !d.dice && d.account.isSome
    | .close => true
  | _ => false

theorem mock_kinds (d : TickDraw) : (mockDelivery d).length ≤ (if mayStart .dly (.tick d) then 1 else 0) ∧ ∀ o ∈ mockDelivery d, o.kind = .dly := by
  unfold mockDelivery mayStart
  split
  · simp
  · rename_i h1
    have h2 : d.enable = true := by
      cases h : d.enable
      · exact absurd (.inl h) h1
      · rfl
    have h3 : d.dice = false := by
      cases h : d.dice
      · rfl
      · exact absurd (.inr h) h1
    split
    · simp
    · rename_i cli hc
      simp only [h2, h3, hc]
      split
      · simp
      · split
        · simp
        · split
          · simp [Own.kind]
          · simp

theorem count_mock (k : OwnAfter) (d : TickDraw) : ((mockDelivery d).filter fun o => o.kind = k).length ≤
    if k = .dly then (if mayStart .dly (.tick d) then 1 else 0) else 0 := by
  obtain ⟨h1, h2⟩ := mock_kinds d
  by_cases hk : k = .dly
  · rw [if_pos hk]; exact Nat.le_trans (List.length_filter_le _ _) h1
  · rw [if_neg hk]
    have : (mockDelivery d).filter (fun o => decide (o.kind = k)) = [] := by
      rw [List.filter_eq_nil_iff]
      intro o ho
      rw [h2 o ho]
      simpa using fun h => hk h.symm
    rw [this]; simp

theorem count_tick (k : OwnAfter) (s : State) (d : TickDraw) :
    count k (onTick s d) ≤ count k s + (if mayStart k (.tick d) then 1 else 0) ∧ count k s ≤ count k (onTick s d) := by
  obtain ⟨_, h2, h3, _⟩ := onTick_same s d
  unfold count
  rw [h2, h3]
  have hm := count_mock k d
  have key : ((onTick s d).own.filter fun o => o.kind = k).length ≤
      (s.own.filter fun o => o.kind = k).length + (if mayStart k (.tick d) then 1 else 0) ∧
      (s.own.filter fun o => o.kind = k).length ≤ ((onTick s d).own.filter fun o => o.kind = k).length := by
    unfold onTick
    have t1 : (((if d.pool1 = true then [Own.terminate] else []) : List Own).filter fun o => o.kind = k).length ≤
        if k = .close then 1 else 0 := by
      cases d.pool1 <;> cases k <;> simp [Own.kind]
    have t2 : (((if d.pool1 = true then [Own.active] else []) : List Own).filter fun o => o.kind = k).length ≤
        if k = .beat then 1 else 0 := by
      cases d.pool1 <;> cases k <;> simp [Own.kind]
    split
    · simp only [List.filter_append, List.length_append]
      cases k <;> simp only [mayStart, reduceCtorEq, if_true, if_false] at t1 ⊢ <;> omega
    · split
      · simp only [List.filter_append, List.length_append]
        cases k <;> simp only [mayStart, reduceCtorEq, if_true, if_false] at t1 ⊢ <;> omega
      · split
        · simp only [List.filter_append, List.length_append]
          cases k with
          | beat => simp only [mayStart, reduceCtorEq, if_true, if_false] at t2 hm ⊢; omega
          | dly => simp only [if_true] at hm; simp only [reduceCtorEq, if_false] at t2; constructor <;> omega
          | close => simp only [reduceCtorEq, if_false] at t2 hm ⊢; omega
        · omega
  omega

theorem count_step (gb : Bytes → Option Bytes) (e : Env) (s : State) (x : Step) (k : OwnAfter) :
    count k (step gb e s x) ≤ count k s + (if mayStart k x then 1 else 0) ∧ (k = .close → count k s ≤ count k (step gb e s x)) := by
  unfold step
  by_cases hd : s.base.crashed ∨ s.base.isOpen = false
  · rw [if_pos hd]; exact ⟨Nat.le_add_right _ _, fun _ => Nat.le_refl _⟩
  rw [if_neg hd]
  have hb : ∀ (s' : State) (z : ServerTraffic.Step), s'.own = s.own → s'.wire = s.wire → s'.queue = s.queue →
      count k (onBase e s' z) = count k s := by
    intro s' z h1 h2 h3
    unfold count onBase
    simp only [h1, h2, h3, List.filter_append, List.length_append]
    have : ∀ l : List (Nat × Bytes × After), (l.map Item.reply).filter (Item.is k) = [] := by
      intro l
      rw [List.filter_eq_nil_iff]
      intro it hit
      obtain ⟨x, _, rfl⟩ := List.mem_map.1 hit
      simp [Item.is]
    rw [this]
    simp
  have hfin : ∀ {s' : State}, count k s' = count k s → count k s' ≤ count k s + (if mayStart k x then 1 else 0) ∧
      (k = .close → count k s ≤ count k s') := fun h => ⟨by omega, fun _ => by omega⟩
  cases x with
  | base z now =>
    cases z with
    | loop =>
      refine hfin ?_
      simp only [onLoop]
      cases hq : s.queue with
      | nil => rfl
      | cons it q =>
        have hc : ∀ (s' : State), s'.own = s.own → s'.queue = q → s'.wire = s.wire ++ [it] → count k s' = count k s := by
          intro s' h1 h2 h3
          unfold count
          rw [h1, h2, h3, hq, List.filter_append, List.length_append, List.filter_cons, List.filter_cons, List.filter_nil]
          split <;> simp only [List.length_cons, List.length_nil] <;> omega
        cases it with
        | reply x => exact hc _ rfl rfl rfl
        | own f a => cases a <;> exact hc _ rfl rfl rfl
    | run i =>
      obtain ⟨_, h2, h3, h4, _⟩ := onRun_same s i now
      exact hfin (hb _ _ h4 h3 h2)
    | packet c q b d => exact hfin (hb _ _ rfl rfl rfl)
    | drop i => exact hfin (hb _ _ rfl rfl rfl)
    | close => exact hfin (hb _ _ rfl rfl rfl)
  | tick d => exact ⟨(count_tick k s d).1, fun _ => (count_tick k s d).2⟩
  | task i d =>
    simp only [onTask]
    split
    · exact hfin rfl
    · rename_i o ho
      have h1 := filter_eraseIdx (fun o => decide (o.kind = k)) s.own i o ho
      have e1 : mayStart k (.task i d) = false := rfl
      rw [e1, if_neg (by simp)]
      unfold count
      simp only [List.filter_append, List.length_append]
      cases hw : work gb e.proto s.lastUse d o with
      | none =>
        refine ⟨by simp only [Option.map_none, Option.toList_none, List.filter_nil, List.length_nil]; omega, fun hk => ?_⟩
        have : o.kind ≠ k := by
          intro hok
          cases o with
          | terminate => obtain ⟨f, hf⟩ := work_terminate gb e.proto s.lastUse d; rw [hf] at hw; cases hw
          | active => rw [← hok] at hk; cases hk
          | deliver => rw [← hok] at hk; cases hk
        simp only [this, decide_false] at h1
        simp only [Option.map_none, Option.toList_none, List.filter_nil, List.length_nil]
        simp only [Bool.false_eq_true, if_false] at h1
        omega
      | some y =>
        obtain ⟨f, a⟩ := y
        have hk := work_kind hw
        subst hk
        have e2 : ([Item.own f o.kind].filter (Item.is k)).length = if o.kind = k then 1 else 0 := by
          by_cases h : o.kind = k <;> simp [List.filter_cons, Item.is, h]
        simp only [Option.map_some, Option.toList_some, e2]
        simp only [decide_eq_true_eq] at h1
        exact ⟨by omega, fun _ => by omega⟩

theorem count_run (gb : Bytes → Option Bytes) (e : Env) (t0 : Int) (k : OwnAfter) (steps : List Step) :
    count k (run gb e t0 steps) ≤ (steps.filter (mayStart k)).length := by
  induction steps using snoc_induction with
  | nil => simp [run, count]
  | snoc l x ih =>
    rw [run_snoc, List.filter_append, List.length_append, List.filter_cons, List.filter_nil]
    have := (count_step gb e (run gb e t0 l) x k).1
    split <;> simp_all <;> omega

/-- Frames of the wire by kind. -/
theorem frames_le_count (gb : Bytes → Option Bytes) (e : Env) (t0 : Int) (steps : List Step) (k : OwnAfter) (P : Bytes → Bool)
    (h1 : ∀ f x, Item.own f x ∈ (run gb e t0 steps).wire → P f = true → x = k)
    (h2 : ∀ x, Item.reply x ∈ (run gb e t0 steps).wire → P x.2.1 = false) :
    ((frames (run gb e t0 steps)).filter P).length ≤ (steps.filter (mayStart k)).length := by
  refine Nat.le_trans ?_ (count_run gb e t0 k steps)
  unfold frames count
  refine Nat.le_trans ?_ (Nat.le_add_left _ _)
  generalize (run gb e t0 steps).wire = w at *
  induction w with
  | nil => simp
  | cons it w ih =>
    have ih := ih (fun f x hx => h1 f x (List.mem_cons_of_mem _ hx)) (fun x hx => h2 x (List.mem_cons_of_mem _ hx))
    rw [List.map_cons, List.filter_cons, List.filter_cons]
    cases it with
    | reply x =>
      have : P (Item.reply x).frame = false := h2 x List.mem_cons_self
      rw [this]
      simpa [Item.is] using ih
    | own f a =>
      by_cases hp : P f = true
      · have := h1 f a List.mem_cons_self hp
        subst this
        have e1 : P (Item.own f a).frame = true := hp
        rw [e1]
        simp only [if_true, Item.is, decide_true, List.length_cons]
        exact Nat.succ_le_succ ih
      · have e1 : ¬ P (Item.own f a).frame = true := hp
        rw [if_neg e1]
        split
        · exact Nat.le_trans ih (Nat.le_succ _)
        · exact ih

theorem reply_command {gb : Bytes → Option Bytes} {e : Env} (h16 : ∀ x, (e.md5 x).length = 16) {t0 : Int} {steps : List Step}
    {x : Nat × Bytes × After} (hx : Item.reply x ∈ (run gb e t0 steps).wire) {c : UInt32} (hc : c.toNat ≤ 8) (hd : c ≠ deliverCmd e.proto) :
    command x.2.1 ≠ be32 c := by
  have hs := sim_run gb e t0 steps
  have hx : x ∈ (ServerTraffic.run e (answering gb e t0 steps)).wire := by
    rw [← hs.2, hs.1.wire]; exact List.mem_filterMap.2 ⟨_, hx, rfl⟩
  obtain ⟨r, hr, hg, hE⟩ := ServerTraffic.wire_entry h16 (ServerTraffic.inv_run_all e _) hx
  intro h
  by_cases hrpt : x.2.2 = .rpt
  · have := (ServerTraffic.entry_report hE hrpt).1
    rw [h] at this
    exact hd (be32_inj this)
  · have := (ServerTraffic.entry_answer hg hE hrpt).1
    rw [h] at this
    exact small_ne hc this

/-- C90: at most one heartbeat per tick. -/
theorem heartbeats_per_tick (gb : Bytes → Option Bytes) (e : Env) (h16 : ∀ x, (e.md5 x).length = 16) (t0 : Int) (steps : List Step) (c : UInt32)
    (hc : activeCmd e.proto = some c) :
    ((frames (run gb e t0 steps)).filter fun f => command f = be32 c).length ≤ (steps.filter fun | .tick _ => true | _ => false).length := by
  have k1 : ∀ p c, activeCmd p = some c → c.toNat ≤ 8 ∧ c ≠ deliverCmd p := by
    intro p c hc; cases p <;> simp [activeCmd] at hc <;> subst hc <;> decide
  obtain ⟨k2, k3⟩ := k1 _ c hc
  refine Nat.le_trans (frames_le_count gb e t0 steps .beat _ ?_ ?_) (Nat.le_of_eq ?_)
  · intro f x hx hp
    obtain ⟨lu, t, o, h⟩ := own_on_wire gb e t0 steps hx
    exact (own_command h).2.1.2 ⟨c, hc, by simpa using hp⟩
  · intro x hx
    simpa using reply_command h16 hx k2 k3
  · congr 2

/-- C90: at most one termination per tick. -/
theorem terminations_per_tick (gb : Bytes → Option Bytes) (e : Env) (h16 : ∀ x, (e.md5 x).length = 16) (t0 : Int) (steps : List Step) :
    ((frames (run gb e t0 steps)).filter fun f => command f = be32 (terminateCmd e.proto)).length ≤
      (steps.filter fun | .tick _ => true | _ => false).length := by
  have k1 : ∀ p, (terminateCmd p).toNat ≤ 8 ∧ terminateCmd p ≠ deliverCmd p := by intro p; cases p <;> decide
  obtain ⟨k2, k3⟩ := k1 e.proto
  refine Nat.le_trans (frames_le_count gb e t0 steps .close _ ?_ ?_) (Nat.le_of_eq ?_)
  · intro f x hx hp
    obtain ⟨lu, t, o, h⟩ := own_on_wire gb e t0 steps hx
    exact (own_command h).2.2.2.2 (by simpa using hp)
  · intro x hx
    simpa using reply_command h16 hx k2 k3
  · congr 2

/-- C90: simulated texts: at most one per tick at which they are enabled, the dice allow it and the account is known. -/
theorem deliveries_per_tick (gb : Bytes → Option Bytes) (e : Env) (h16 : ∀ x, (e.md5 x).length = 16) (t0 : Int) (steps : List Step) :
    ((frames (run gb e t0 steps)).filter fun f => command f = be32 (deliverCmd e.proto)).length ≤
      (steps.filter (onPacketSteps fun c _ _ d => c = submitCmd e.proto ∧ verdict d = .accepted ∧ e.proto ≠ .sgip)).length +
      (steps.filter fun | .tick d => d.enable && !d.dice && d.account.isSome | _ => false).length := by
  have hs := sim_run gb e t0 steps
  have h1 := ServerTraffic.reports_at_most_once e h16 (answering gb e t0 steps)
  have h2 : ((answering gb e t0 steps).filter (onPackets fun c _ _ d => c = submitCmd e.proto ∧ verdict d = .accepted ∧ e.proto ≠ .sgip)).length =
      (steps.filter (onPacketSteps fun c _ _ d => c = submitCmd e.proto ∧ verdict d = .accepted ∧ e.proto ≠ .sgip)).length :=
    project_packets gb e _ steps { lastUse := t0 }
  rw [← hs.2] at h1
  have h3 := count_run gb e t0 .dly steps
  have e3 : (steps.filter (mayStart .dly)).length =
      (steps.filter fun | .tick d => d.enable && !d.dice && d.account.isSome | _ => false).length := by
    congr 2
  rw [e3] at h3
  have h4 : ((frames (run gb e t0 steps)).filter fun f => command f = be32 (deliverCmd e.proto)).length ≤
      ((ServerTraffic.frames (run gb e t0 steps).base).filter fun f => command f = be32 (deliverCmd e.proto)).length +
      ((run gb e t0 steps).wire.filter (Item.is .dly)).length := by
    have hown : ∀ f x, Item.own f x ∈ (run gb e t0 steps).wire → command f = be32 (deliverCmd e.proto) → x = .dly := by
      intro f x hx hp
      obtain ⟨lu, t, o, h⟩ := own_on_wire gb e t0 steps hx
      exact (own_command h).2.2.1.2 hp
    have hw := hs.1.wire
    unfold frames ServerTraffic.frames
    rw [hw]
    generalize (run gb e t0 steps).wire = w at *
    clear hw h1 hs h3
    induction w with
    | nil => simp
    | cons it w ih =>
      have ih := ih fun f x hx => hown f x (List.mem_cons_of_mem _ hx)
      cases it with
      | reply x =>
        have e1 : replies (Item.reply x :: w) = x :: replies w := rfl
        have e2 : (Item.reply x :: w).filter (Item.is .dly) = w.filter (Item.is .dly) := rfl
        rw [e1, e2, List.map_cons, List.map_cons, List.filter_cons, List.filter_cons]
        show (if decide (command x.2.1 = be32 (deliverCmd e.proto)) = true then _ else _ : List Bytes).length ≤ _
        split
        · simp only [List.length_cons]; omega
        · exact ih
      | own f x =>
        rw [replies_own, List.map_cons, List.filter_cons]
        show (if decide (command f = be32 (deliverCmd e.proto)) = true then _ else _ : List Bytes).length ≤ _
        by_cases hd : command f = be32 (deliverCmd e.proto)
        · have := hown f x List.mem_cons_self hd
          subst this
          have e2 : (Item.own f .dly :: w).filter (Item.is .dly) = Item.own f .dly :: w.filter (Item.is .dly) := rfl
          rw [if_pos (by simpa using hd), e2]
          simp only [List.length_cons]; omega
        · rw [if_neg (by simpa using hd), List.filter_cons]
          split
          · simp only [List.length_cons]; omega
          · exact ih
  have h5 : ((run gb e t0 steps).wire.filter (Item.is .dly)).length ≤ count .dly (run gb e t0 steps) := by unfold count; omega
  omega

/-! ## Terminations are sent -/

theorem alive_step (gb : Bytes → Option Bytes) (e : Env) (s : State) (x : Step) (h : (step gb e s x).base.crashed = false ∧
    (step gb e s x).base.isOpen = true) : s.base.crashed = false ∧ s.base.isOpen = true := by
  by_cases hd : s.base.crashed ∨ s.base.isOpen = false
  · unfold step at h; rw [if_pos hd] at h; exact h
  · exact ⟨by simpa using fun hh => hd (.inl hh), by simpa using fun hh => hd (.inr hh)⟩

theorem alive_foldl (gb : Bytes → Option Bytes) (e : Env) (b : List Step) : ∀ s : State, (b.foldl (step gb e) s).base.crashed = false ∧
    (b.foldl (step gb e) s).base.isOpen = true → s.base.crashed = false ∧ s.base.isOpen = true := by
  induction b with
  | nil => intro s h; exact h
  | cons x b ih => intro s h; exact alive_step gb e s x (ih _ h)

theorem count_mono (gb : Bytes → Option Bytes) (e : Env) (b : List Step) : ∀ s : State, count .close s ≤ count .close (b.foldl (step gb e) s) := by
  induction b with
  | nil => intro s; exact Nat.le_refl _
  | cons x b ih => intro s; exact Nat.le_trans ((count_step gb e s x .close).2 rfl) (ih _)

theorem settled_nil {gb : Bytes → Option Bytes} {e : Env} {s : State} (hc : s.base.crashed = false) (ho : s.base.isOpen = true)
    (h : Settled gb e s) : s.own = [] ∧ s.queue = [] := by
  have hn : ¬ (s.base.crashed ∨ s.base.isOpen = false) := by simp [hc, ho]
  constructor
  · have := h (.task 0 { now := 0 }) trivial
    unfold step at this
    rw [if_neg hn] at this
    dsimp only at this
    unfold onTask at this
    cases hown : s.own with
    | nil => rfl
    | cons o l =>
      rw [hown] at this
      simp only [List.getElem?_cons_zero] at this
      have := congrArg (fun s => s.own.length) this
      simp [hown] at this
  · have := h (.base .loop 0) trivial
    unfold step at this
    rw [if_neg hn] at this
    dsimp only at this
    cases hq : s.queue with
    | nil => rfl
    | cons it q =>
      exfalso
      have hql := congrArg (fun s => s.queue.length) this
      simp only [onLoop, hq] at hql
      cases it with
      | reply y => simp at hql
      | own f a => cases a <;> simp at hql

/-- C49, C68: if at a tick the history shows no use for longer than `Server.ForceCloseConnTime`, or three to 255 heartbeats in a row
unanswered, and the goroutine pool takes the task, then a server at rest has written a termination and asked for the
connection to be closed. -/
theorem silent_session_terminated (gb : Bytes → Option Bytes) (e : Env) (h16 : ∀ x, (e.md5 x).length = 16) (t0 : Int) (a b : List Step) (d : TickDraw)
    (hpool : d.pool1 = true)
    (hwhy : lastActivity t0 (log gb e t0 a) + d.force < d.now ∨ 3 ≤ unanswered (log gb e t0 a) ∧ unanswered (log gb e t0 a) ≤ 255)
    (hc : (run gb e t0 (a ++ .tick d :: b)).base.crashed = false) (ho : (run gb e t0 (a ++ .tick d :: b)).base.isOpen = true)
    (hs : Settled gb e (run gb e t0 (a ++ .tick d :: b))) :
    (∃ f ∈ frames (run gb e t0 (a ++ .tick d :: b)), command f = be32 (terminateCmd e.proto)) ∧
    (run gb e t0 (a ++ .tick d :: b)).closing = true := by
  obtain ⟨n1, n2⟩ := settled_nil hc ho hs
  have hrun : run gb e t0 (a ++ .tick d :: b) = b.foldl (step gb e) (step gb e (run gb e t0 a) (.tick d)) := by
    rw [run_append]; rfl
  have hal := alive_foldl gb e b _ (by rw [← hrun]; exact ⟨hc, ho⟩)
  obtain ⟨a1, a2⟩ := alive_step gb e _ _ hal
  have hstep : step gb e (run gb e t0 a) (.tick d) = onTick (run gb e t0 a) d := by
    unfold step; rw [if_neg (by simp [a1, a2])]
  obtain ⟨s1, s2⟩ := session_history gb e h16 t0 a
  have hterm : 1 ≤ count .close (onTick (run gb e t0 a) d) := by
    have h1 : (run gb e t0 a).lastUse + d.force < d.now ∨ (run gb e t0 a).nAt > 2 := by
      rcases hwhy with h | ⟨h, h'⟩
      · left; rw [s1]; exact h
      · right
        show 2 < (run gb e t0 a).nAt.toNat
        rw [s2, Nat.mod_eq_of_lt (by omega)]; omega
    unfold onTick count
    by_cases h2 : (run gb e t0 a).lastUse + d.force < d.now
    · rw [if_pos h2]
      simp only [hpool, if_true, List.filter_append, List.length_append]
      simp [Own.kind]; omega
    · rw [if_neg h2, if_pos (h1.resolve_left h2)]
      simp only [hpool, if_true, List.filter_append, List.length_append]
      simp [Own.kind]; omega
  have hmono := count_mono gb e b (step gb e (run gb e t0 a) (.tick d))
  rw [← hrun, hstep] at hmono
  have hpos : 0 < ((run gb e t0 (a ++ .tick d :: b)).wire.filter (Item.is .close)).length := by
    unfold count at hmono hterm
    rw [n1, n2] at hmono
    simp only [List.filter_nil, List.length_nil] at hmono
    omega
  obtain ⟨it, hit⟩ := List.exists_mem_of_length_pos hpos
  obtain ⟨hm, hi⟩ := List.mem_filter.1 hit
  cases it with
  | reply x => cases hi
  | own f x =>
    simp only [Item.is, decide_eq_true_eq] at hi
    subst hi
    obtain ⟨lu, t, o, h⟩ := own_on_wire gb e t0 _ hm
    exact ⟨⟨f, List.mem_map.2 ⟨_, hm, rfl⟩, (own_command h).2.2.2.1 rfl⟩, (dly_inv gb e t0 _).2 f hm⟩

/-! ## The server comes to rest -/

/-- A bound for what is left to do. -/
def measure (s : State) : Nat := 2 * s.own.length + (s.base.tasks.map ServerTraffic.weight).sum + s.queue.length

theorem ending_changes {e : Env} {s : State} {i : Nat} (hn : ¬ (s.base.crashed ∨ s.base.isOpen = false)) {k : Kind} (h : ending s i = some k) :
    ServerTraffic.step e s.base (.run i) ≠ s.base := by
  unfold ServerTraffic.step
  rw [if_neg hn]
  dsimp only
  unfold ending at h
  have key : ∀ t, s.base.tasks[i]? = some t → t.acts = [] → (t.phase = .free ∨ ∃ g, t.phase = .inside g) →
      ServerTraffic.onRun s.base i ≠ s.base := by
    intro t ht ha hp hh
    have hlt : i < s.base.tasks.length := by
      rcases Nat.lt_or_ge i s.base.tasks.length with h | h
      · exact h
      · rw [List.getElem?_eq_none h] at ht; cases ht
    have hgo : ServerTraffic.onRun s.base i = { s.base with tasks := s.base.tasks.eraseIdx i, slots := ServerTraffic.freed s.base t } := by
      unfold ServerTraffic.onRun
      rw [ht]
      dsimp only
      rcases hp with hp | ⟨g, hp⟩ <;> rw [hp] <;> simp only [ServerTraffic.onGo, ha]
    rw [hgo] at hh
    have := congrArg (fun s => s.tasks.length) hh
    simp only [List.length_eraseIdx, hlt, if_true] at this
    omega
  split at h
  · rename_i k' ht; exact key _ ht rfl (.inl rfl)
  · rename_i k' g ht; exact key _ ht rfl (.inr ⟨g, rfl⟩)
  · cases h

theorem measure_step (gb : Bytes → Option Bytes) (e : Env) (s : State) (x : Step) (hx : Internal x) :
    step gb e s x = s ∨ measure (step gb e s x) < measure s := by
  unfold step
  by_cases hd : s.base.crashed ∨ s.base.isOpen = false
  · rw [if_pos hd]; exact .inl rfl
  rw [if_neg hd]
  have hbase : ∀ (s' : State) (z : ServerTraffic.Step), z ≠ .loop → ServerTraffic.Internal z → s'.own = s.own → s'.base = s.base → s'.queue = s.queue →
      (ServerTraffic.step e s.base z = s.base → s' = s) →
      onBase e s' z = s ∨ measure (onBase e s' z) < measure s := by
    intro s' z hl hz h1 h2 h3 h4
    rcases ServerTraffic.measure_step e s.base z hz with h | h
    · left
      have := h4 h
      subst this
      unfold onBase
      rw [h]
      simp
    · right
      obtain ⟨⟨t, ht⟩, _⟩ := base_step e s.base z hl
      unfold measure onBase
      simp only [h1, h2, h3, List.length_append, List.length_map, List.length_drop]
      unfold ServerTraffic.measure at h
      have hlen := congrArg List.length ht
      simp only [List.length_append] at hlen
      omega
  cases x with
  | tick d => cases hx
  | task i d =>
    simp only [onTask]
    split
    · exact .inl rfl
    · rename_i o ho
      right
      have hlt : i < s.own.length := by
        rcases Nat.lt_or_ge i s.own.length with h | h
        · exact h
        · rw [List.getElem?_eq_none h] at ho; cases ho
      unfold measure
      simp only [List.length_eraseIdx, hlt, if_true, List.length_append]
      cases work gb e.proto s.lastUse d o with
      | none => simp only [Option.map_none, Option.toList_none, List.length_nil]; omega
      | some y => simp only [Option.map_some, Option.toList_some, List.length_cons, List.length_nil]; omega
  | base z now =>
    cases z with
    | packet => cases hx
    | close => cases hx
    | loop =>
      simp only [onLoop]
      cases hq : s.queue with
      | nil => exact .inl rfl
      | cons it q =>
        right
        cases it with
        | own f a => cases a <;> (unfold measure; simp only [hq, List.length_cons]; omega)
        | reply x =>
          have ht : (ServerTraffic.step e s.base .loop).tasks = s.base.tasks := by
            unfold ServerTraffic.step
            rw [if_neg hd]
            dsimp only
            unfold ServerTraffic.onLoop
            split
            · rfl
            · unfold ServerTraffic.onAfter
              split <;> first | rfl | (split <;> rfl)
          unfold measure
          simp only [hq, List.length_cons, ht]
          omega
    | run i =>
      obtain ⟨h1, h2, _, h4, _⟩ := onRun_same s i now
      rcases hbase (onRun s i now) (.run i) (by simp) trivial h4 h1 h2 (fun h => by
        cases he : ending s i with
        | none => unfold onRun; rw [he]
        | some k => exact absurd h (ending_changes hd he)) with h | h
      · exact .inl h
      · exact .inr h
    | drop i =>
      rcases hbase s (.drop i) (by simp) trivial rfl rfl rfl (fun _ => rfl) with h | h
      · exact .inl h
      · exact .inr h

/-- Steps of the server that each have an effect. -/
def Effective (gb : Bytes → Option Bytes) (e : Env) : State → List Step → Prop
  | _, [] => True
  | s, x :: l => Internal x ∧ step gb e s x ≠ s ∧ Effective gb e (step gb e s x) l

/-- C76, C90: without further packets and ticks the server comes to rest: whatever the order its tasks and its event loop run in, only a
bounded number of steps have any effect. -/
theorem server_settles (gb : Bytes → Option Bytes) (e : Env) (l : List Step) : ∀ s, Effective gb e s l → l.length ≤ measure s := by
  induction l with
  | nil => intro s _; exact Nat.zero_le _
  | cons x l ih =>
    intro s h
    obtain ⟨h1, h2, h3⟩ := h
    have := ih _ h3
    rcases measure_step gb e s x h1 with h | h
    · exact absurd h h2
    · rw [List.length_cons]; omega

/-! ## A run that meets the hypotheses -/

/-- A login; a tick that starts a heartbeat and a simulated text, which are sent; a later tick that starts a termination, which is sent. -/
def ownSteps : List Step :=
  [.base (.packet 1 1 ServerTraffic.demoLogin ServerTraffic.demoDraw) 0, .base (.run 0) 1, .base (.run 0) 2, .base .loop 5,
   .tick { now := 60000000006, force := 600000000000, enable := true, account := some ServerTraffic.demoAccount, contents := [ascii "12_,_hi"] },
   .task 0 { now := 60000000007, seq := 9 }, .task 0 { now := 60000000008, seq := 10, id := 5 }, .base .loop 60000000009, .base .loop 60000000010]
def lastTick : TickDraw := { now := 600000000006, force := 600000000000 }
def endSteps : List Step := [.task 0 { now := 600000000007, seq := 11 }, .base .loop 600000000008, .base (.run 0) 600000000009]

set_option maxRecDepth 20000 in
theorem own_demo : ((frames (run some ServerTraffic.demoEnv 0 (ownSteps ++ .tick lastTick :: endSteps))).map fun f => (command f, seqOf .cmpp f)) =
    [(be32 0x80000001, be32 1), (be32 8, be32 9), (be32 5, be32 10), (be32 2, be32 11)] ∧
    (run some ServerTraffic.demoEnv 0 (ownSteps ++ .tick lastTick :: endSteps)).own.length = 0 ∧
    (run some ServerTraffic.demoEnv 0 (ownSteps ++ .tick lastTick :: endSteps)).queue.length = 0 ∧
    (run some ServerTraffic.demoEnv 0 (ownSteps ++ .tick lastTick :: endSteps)).base.tasks.length = 0 ∧
    (run some ServerTraffic.demoEnv 0 (ownSteps ++ .tick lastTick :: endSteps)).base.crashed = false ∧
    (run some ServerTraffic.demoEnv 0 (ownSteps ++ .tick lastTick :: endSteps)).base.isOpen = true ∧
    log some ServerTraffic.demoEnv 0 ownSteps = [.use 5, .beat 60000000009] ∧
    (run some ServerTraffic.demoEnv 0 ownSteps).dly = 1 := by
  refine ⟨?_, ?_, ?_, ?_, ?_, ?_, ?_, ?_⟩ <;> decide +kernel

theorem settled_of_empty {gb : Bytes → Option Bytes} {e : Env} {s : State} (hown : s.own.length = 0) (hq : s.queue.length = 0)
    (ht : s.base.tasks.length = 0) : Settled gb e s := by
  have h1 : s.own = [] := List.eq_nil_of_length_eq_zero hown
  have h2 : s.queue = [] := List.eq_nil_of_length_eq_zero hq
  have h3 : s.base.tasks = [] := List.eq_nil_of_length_eq_zero ht
  intro x hx
  unfold step
  split
  · rfl
  · cases x with
    | tick => cases hx
    | task i d => simp [onTask, h1]
    | base z now =>
      cases z with
      | packet => cases hx
      | close => cases hx
      | loop => simp [onLoop, h2]
      | run i =>
        have he : ending s i = none := by unfold ending; simp [h3]
        have hr : onRun s i now = s := by unfold onRun; rw [he]
        show onBase e (onRun s i now) (.run i) = s
        rw [hr]
        unfold onBase
        have : ServerTraffic.step e s.base (.run i) = s.base := by
          unfold ServerTraffic.step
          split
          · rfl
          · simp [ServerTraffic.onRun, h3]
        rw [this]
        simp
      | drop i =>
        show onBase e s (.drop i) = s
        unfold onBase
        have : ServerTraffic.step e s.base (.drop i) = s.base := by
          unfold ServerTraffic.step
          split
          · rfl
          · simp [ServerTraffic.onDrop, h3]
        rw [this]
        simp

/-- The hypotheses of `silent_session_terminated` are met. -/
example : (∃ f ∈ frames (run some ServerTraffic.demoEnv 0 (ownSteps ++ .tick lastTick :: endSteps)), command f = be32 (terminateCmd .cmpp)) ∧
    (run some ServerTraffic.demoEnv 0 (ownSteps ++ .tick lastTick :: endSteps)).closing = true := by
  obtain ⟨_, h1, h2, h3, h4, h5, h6, _⟩ := own_demo
  exact silent_session_terminated some ServerTraffic.demoEnv (by simp [ServerTraffic.demoEnv]) 0 ownSteps endSteps lastTick rfl
    (.inl (by rw [h6]; decide)) h4 h5 (settled_of_empty h1 h2 h3)

/-- The configured text of the demonstration. -/
example : entry (ascii "12_,_hi") (ascii "12") (ascii "hi") := mockText_entry (by decide)

end Gosms.ServerTicks
