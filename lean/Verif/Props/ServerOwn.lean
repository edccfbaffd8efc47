import Verif.Props.ServerTicks
import Verif.Spec.ServerTicks

/-! # Where the server's own frames come from (C90) -/

namespace Gosms.ServerTicks
open ServerTraffic (Env After)
open Handlers Spec.ServerTraffic
open Spec.ServerTicks (heartbeat termination entry)

theorem splitFirst_spec (sep : Bytes) (hs : sep ≠ []) : ∀ (s : Bytes),
    (∀ a b, splitFirst sep s = some (a, b) → s = a ++ sep ++ b ∧ ∀ i < a.length, ¬ sep <+: s.drop i) ∧
    (splitFirst sep s = none → ∀ i, ¬ sep <+: s.drop i) := by
  intro s
  induction s with
  | nil =>
    have h0 : sep.isPrefixOf ([] : Bytes) = false := by cases sep <;> simp_all
    refine ⟨fun a b h => ?_, fun _ i h => ?_⟩
    · rw [splitFirst, h0] at h; cases h
    · simp only [List.drop_nil, List.prefix_nil] at h
      exact hs h
  | cons c s ih =>
    by_cases hp : sep.isPrefixOf (c :: s) = true
    · refine ⟨fun a b h => ?_, fun h => ?_⟩
      · rw [splitFirst, if_pos hp] at h
        cases h
        obtain ⟨t, ht⟩ := List.isPrefixOf_iff_prefix.1 hp
        refine ⟨?_, by simp⟩
        rw [← ht, List.drop_left]; simp
      · rw [splitFirst, if_pos hp] at h; cases h
    · have hn : ¬ sep <+: (c :: s) := fun h => hp (List.isPrefixOf_iff_prefix.2 h)
      refine ⟨fun a b h => ?_, fun h i => ?_⟩
      · rw [splitFirst, if_neg hp] at h
        obtain ⟨⟨a', b'⟩, h1, h2⟩ := Option.map_eq_some_iff.1 h
        cases h2
        obtain ⟨e1, e2⟩ := ih.1 _ _ h1
        refine ⟨by rw [e1]; simp, fun i hi => ?_⟩
        cases i with
        | zero => exact hn
        | succ i => exact e2 i (by simpa using hi)
      · rw [splitFirst, if_neg hp, Option.map_eq_none_iff] at h
        cases i with
        | zero => exact hn
        | succ i => exact ih.2 h i

theorem mockText_entry {content number text : Bytes} (h : mockText content = some (number, text)) : entry content number text := by
  unfold mockText at h
  obtain ⟨⟨a, b⟩, h1, h2⟩ := Option.map_eq_some_iff.1 h
  have hne : separator ≠ [] := by decide
  obtain ⟨e1, e2⟩ := (splitFirst_spec separator hne content).1 _ _ h1
  simp only [Prod.mk.injEq] at h2
  obtain ⟨rfl, h3⟩ := h2
  cases hb : splitFirst separator b with
  | none =>
    rw [hb] at h3
    simp only [Option.map_none, Option.getD_none] at h3
    subst h3
    refine ⟨[], ?_, .inl rfl, e2, fun i _ => ?_⟩
    · rw [e1]; simp [separator]
    · rw [List.append_nil]; exact (splitFirst_spec separator hne b).2 hb i
  | some y =>
    obtain ⟨t, r⟩ := y
    rw [hb] at h3
    simp only [Option.map_some, Option.getD_some] at h3
    subst h3
    obtain ⟨f1, f2⟩ := (splitFirst_spec separator hne b).1 _ _ hb
    refine ⟨separator ++ r, ?_, .inr ⟨r, rfl⟩, e2, ?_⟩
    · rw [e1, f1]; simp [separator]
    · rw [← List.append_assoc, ← f1]; exact f2

/-- Why a tick starts a task. -/
inductive Started (s : State) (d : TickDraw) : Own → Prop
  | terminate : s.lastUse + d.force < d.now ∨ s.nAt > 2 → Started s d .terminate
  | active : ¬ s.lastUse + d.force < d.now → ¬ s.nAt > 2 → s.base.stat = .login → Started s d .active
  | deliver (cli : AuthConf) (content number text : Bytes) : s.base.stat = .login → d.enable = true → d.dice = false →
      d.account = some cli → content ∈ d.contents → entry content number text → Started s d (.deliver cli number text)

theorem mock_started {s : State} {d : TickDraw} (hl : s.base.stat = .login) {o : Own} (ho : o ∈ mockDelivery d) : Started s d o := by
  unfold mockDelivery at ho
  by_cases h1 : d.enable = false ∨ d.dice = true
  · rw [if_pos h1] at ho; cases ho
  · rw [if_neg h1] at ho
    cases h2 : d.account with
    | none => rw [h2] at ho; cases ho
    | some cli =>
      rw [h2] at ho
      dsimp only at ho
      split at ho
      · cases ho
      · rename_i content h3
        split at ho
        · cases ho
        · rename_i number text h4
          split at ho
          · rw [List.mem_singleton] at ho
            subst ho
            refine .deliver cli content number text hl ?_ ?_ h2 ?_ (mockText_entry h4)
            · cases he : d.enable
              · exact absurd (.inl he) h1
              · rfl
            · cases he : d.dice
              · rfl
              · exact absurd (.inr he) h1
            · obtain ⟨i, _, hi⟩ := Option.bind_eq_some_iff.1 h3
              exact List.mem_of_getElem? hi
          · cases ho

theorem tick_started {s : State} {d : TickDraw} {o : Own} (ho : o ∈ (onTick s d).own) : o ∈ s.own ∨ Started s d o := by
  unfold onTick at ho
  split at ho
  · rename_i h
    rcases List.mem_append.1 ho with h' | h'
    · exact .inl h'
    · split at h'
      · rw [List.mem_singleton] at h'; subst h'; exact .inr (.terminate (.inl h))
      · cases h'
  · rename_i h1
    split at ho
    · rename_i h
      rcases List.mem_append.1 ho with h' | h'
      · exact .inl h'
      · split at h'
        · rw [List.mem_singleton] at h'; subst h'; exact .inr (.terminate (.inr h))
        · cases h'
    · rename_i h2
      split at ho
      · rename_i h3
        rcases List.mem_append.1 ho with h' | h'
        · rcases List.mem_append.1 h' with h' | h'
          · exact .inl h'
          · split at h'
            · rw [List.mem_singleton] at h'; subst h'; exact .inr (.active h1 h2 h3)
            · cases h'
        · exact .inr (mock_started h3 h')
      · exact .inl ho

/-- What a task sends, against the specification. -/
inductive Sent (gb : Bytes → Option Bytes) (p : Proto) (lastUse : Int) (d : TaskDraw) : Own → Bytes → OwnAfter → Prop
  | active (f : Bytes) : heartbeat p d.seq = some f → lastUse + 60 * 1000000000 < d.now → Sent gb p lastUse d .active f .beat
  | cmpp (cli : AuthConf) (number text f : Bytes) : p = .cmpp →
      (Cmpp.newDelivery cli (ascii "18600001111") text number cli.serviceId d.seq d.id).encode d.g = some f →
      Sent gb p lastUse d (.deliver cli number text) f .dly
  | smgp (cli : AuthConf) (number text f : Bytes) : p = .smgp →
      (Smgp.newDeliver gb cli (ascii "13300001111") number text d.seq d.bcd d.clock).encode = some f →
      Sent gb p lastUse d (.deliver cli number text) f .dly
  | terminate : Sent gb p lastUse d .terminate (termination p d.seq d.seq3) .close

theorem work_sent {gb : Bytes → Option Bytes} {p : Proto} {lu : Int} {d : TaskDraw} {o : Own} {f : Bytes} {a : OwnAfter}
    (h : work gb p lu d o = some (f, a)) : Sent gb p lu d o f a := by
  have e60 : (60 * 1000000000 : Int) = minute := by decide
  cases o with
  | active =>
    simp only [work] at h
    split at h
    · rename_i hl
      rw [← e60] at hl
      cases p with
      | cmpp =>
        simp only [Cmpp.activeTestEncode, Cmpp.newActiveTest, header_encode, Option.map_some] at h
        cases h
        exact .active _ (by simp [heartbeat, Header.clamp, Cmpp.ACTIVE_TEST, zeros]) hl
      | smgp =>
        simp only [Smgp.activeTestEncode, Smgp.newActiveTest, header_encode, Option.map_some] at h
        cases h
        exact .active _ (by simp [heartbeat, Header.clamp, Smgp.ACTIVE_TEST, zeros]) hl
      | sgip => cases h
    · cases h
  | deliver cli subNo text =>
    cases p with
    | cmpp =>
      obtain ⟨f', h1, h2⟩ := Option.map_eq_some_iff.1 h
      cases h2
      exact .cmpp cli subNo text _ rfl h1
    | smgp =>
      obtain ⟨f', h1, h2⟩ := Option.map_eq_some_iff.1 h
      cases h2
      exact .smgp cli subNo text _ rfl h1
    | sgip => cases h
  | terminate =>
    cases p with
    | cmpp =>
      simp only [work, Cmpp.terminateEncode, Cmpp.newTerminate, header_encode, Option.map_some] at h
      cases h
      have : Header.clamp ⟨12, Cmpp.TERMINATE, d.seq⟩ = ⟨12, 2, d.seq⟩ := rfl
      rw [this]
      exact Sent.terminate
    | smgp =>
      simp only [work, Smgp.exitEncode, Smgp.newExit, header_encode, Option.map_some] at h
      cases h
      have : Header.clamp ⟨12, Smgp.EXIT, d.seq⟩ = ⟨12, 6, d.seq⟩ := rfl
      rw [this]
      exact Sent.terminate
    | sgip =>
      simp only [work, Sgip.unbindEncode, Sgip.newUnbind, sheader_encode, Option.map_some] at h
      cases h
      have : SHeader.clamp ⟨20, Sgip.UNBIND, d.seq3.1, d.seq3.2.1, d.seq3.2.2⟩ = ⟨20, 2, d.seq3.1, d.seq3.2.1, d.seq3.2.2⟩ := rfl
      rw [this]
      exact Sent.terminate

/-- Where a task comes from: a tick. -/
def TaskFrom (gb : Bytes → Option Bytes) (e : Env) (t0 : Int) (steps : List Step) (o : Own) : Prop :=
  ∃ a d b, steps = a ++ .tick d :: b ∧ Started (run gb e t0 a) d o

/-- Where one of the server's own frames comes from: a tick, and later its task. -/
def OwnFrom (gb : Bytes → Option Bytes) (e : Env) (t0 : Int) (steps : List Step) (f : Bytes) (x : OwnAfter) : Prop :=
  ∃ a i t b o, steps = a ++ .task i t :: b ∧ TaskFrom gb e t0 a o ∧ Sent gb e.proto (run gb e t0 a).lastUse t o f x

theorem TaskFrom.snoc {gb : Bytes → Option Bytes} {e : Env} {t0 : Int} {steps : List Step} {o : Own} (x : Step)
    (h : TaskFrom gb e t0 steps o) : TaskFrom gb e t0 (steps ++ [x]) o := by
  obtain ⟨a, d, b, h1, h2⟩ := h
  exact ⟨a, d, b ++ [x], by rw [h1]; simp, h2⟩

theorem OwnFrom.snoc {gb : Bytes → Option Bytes} {e : Env} {t0 : Int} {steps : List Step} {f : Bytes} {y : OwnAfter} (x : Step)
    (h : OwnFrom gb e t0 steps f y) : OwnFrom gb e t0 (steps ++ [x]) f y := by
  obtain ⟨a, i, t, b, o, h1, h2⟩ := h
  exact ⟨a, i, t, b ++ [x], o, by rw [h1]; simp, h2⟩

theorem run_snoc (gb : Bytes → Option Bytes) (e : Env) (t0 : Int) (l : List Step) (x : Step) :
    run gb e t0 (l ++ [x]) = step gb e (run gb e t0 l) x := by simp [run]

/-- Every own frame written or queued, and every waiting task, has its origin. -/
theorem own_inv (gb : Bytes → Option Bytes) (e : Env) (t0 : Int) (steps : List Step) :
    (∀ o ∈ (run gb e t0 steps).own, TaskFrom gb e t0 steps o) ∧
    ∀ f x, Item.own f x ∈ (run gb e t0 steps).wire ++ (run gb e t0 steps).queue → OwnFrom gb e t0 steps f x := by
  induction steps using snoc_induction with
  | nil => simp [run]
  | snoc l y ih =>
    obtain ⟨i1, i2⟩ := ih
    have i1' := fun o ho => (i1 o ho).snoc y
    have i2' := fun f x hx => (i2 f x hx).snoc y
    rw [run_snoc]
    unfold step
    by_cases hd : (run gb e t0 l).base.crashed ∨ (run gb e t0 l).base.isOpen = false
    · rw [if_pos hd]; exact ⟨i1', i2'⟩
    rw [if_neg hd]
    have hbase : ∀ (s : State) (z : ServerTraffic.Step), s.own = (run gb e t0 l).own → s.wire = (run gb e t0 l).wire →
        s.queue = (run gb e t0 l).queue →
        (∀ o ∈ (onBase e s z).own, TaskFrom gb e t0 (l ++ [y]) o) ∧
        ∀ f x, Item.own f x ∈ (onBase e s z).wire ++ (onBase e s z).queue → OwnFrom gb e t0 (l ++ [y]) f x := by
      intro s z h1 h2 h3
      refine ⟨fun o ho => i1' o (by rw [← h1]; exact ho), fun f x hx => i2' f x ?_⟩
      simp only [onBase, h2, h3] at hx
      rcases List.mem_append.1 hx with h | h
      · exact List.mem_append_left _ h
      · rcases List.mem_append.1 h with h | h
        · exact List.mem_append_right _ h
        · obtain ⟨_, _, h⟩ := List.mem_map.1 h
          cases h
    cases y with
    | base z now =>
      cases z with
      | loop =>
        simp only [onLoop]
        split
        · exact ⟨i1', i2'⟩
        · rename_i x q hq
          refine ⟨i1', fun f x' hx => i2' f x' ?_⟩
          rw [hq]
          simp only [List.mem_append, List.mem_cons, reduceCtorEq, List.not_mem_nil, or_false, false_or] at hx ⊢
          exact hx
        · rename_i f a q hq
          have : ∀ f' x', Item.own f' x' ∈ ((run gb e t0 l).wire ++ [Item.own f a]) ++ q →
              OwnFrom gb e t0 (l ++ [.base .loop now]) f' x' := by
            intro f' x' hx
            refine i2' f' x' ?_
            rw [hq]
            simpa using hx
          cases a <;> exact ⟨i1', this⟩
      | run i =>
        obtain ⟨h1, h2, h3, h4, _⟩ := onRun_same (run gb e t0 l) i now
        exact hbase _ _ h4 h3 h2
      | packet c q b d => exact hbase _ _ rfl rfl rfl
      | drop i => exact hbase _ _ rfl rfl rfl
      | close => exact hbase _ _ rfl rfl rfl
    | tick d =>
      obtain ⟨h1, h2, h3, _⟩ := onTick_same (run gb e t0 l) d
      refine ⟨fun o ho => ?_, fun f x hx => i2' f x (by rw [h2, h3] at hx; exact hx)⟩
      rcases tick_started ho with h | h
      · exact i1' o h
      · exact ⟨l, d, [], rfl, h⟩
    | task i d =>
      simp only [onTask]
      split
      · exact ⟨i1', i2'⟩
      · rename_i o ho
        refine ⟨fun o' ho' => i1' o' (List.eraseIdx_subset ho'), fun f x hx => ?_⟩
        simp only [← List.append_assoc] at hx
        rcases List.mem_append.1 hx with h | h
        · exact i2' f x h
        · cases hw : work gb e.proto (run gb e t0 l).lastUse d o with
          | none => rw [hw] at h; cases h
          | some y =>
            rw [hw] at h
            simp only [Option.map_some, Option.toList_some, List.mem_singleton] at h
            cases h
            exact ⟨l, i, d, [], o, rfl, i1 o (List.mem_of_getElem? ho), work_sent hw⟩

end Gosms.ServerTicks
