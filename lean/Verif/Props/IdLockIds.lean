import Verif.Props.IdLockGens

/-!
# C117: what the callers of the five generators can rely on
-/

namespace Gosms.IdLock
open Gosms.Spec.IdLock

variable {σ κ R L : Type} {B : Body σ κ R L}

/-- **C117, one value per call.** What each goroutine sees is calls one after the other, each taking one value between call and return and
returning exactly this value. -/
theorem ids_own (B : Body σ κ R L) (m : σ) (ops : List (Op κ)) (i : Nat) : Calls i (of i (run B m ops).log) :=
  calls_run B m ops i

/-- Two goroutines at once: the second one waits at the mutex while the first one is between the reading and the writing of the counter. -/
def twoCallers : List (Op Unit) :=
  [.call 0, .lock 0, .access 0 (), .call 1, .lock 1, .access 0 (), .access 0 (), .lock 1, .access 0 (), .access 0 (), .unlock 0, .lock 1, .access 1 (),
   .access 1 (), .ret 0, .access 1 (), .access 1 (), .access 1 (), .unlock 1, .ret 1]

example : (run cycleBody (newCycleSequence 0 1) twoCallers).log =
    [.call 0, .call 1, .take 0 0x10000001#32, .ret 0 0x10000001#32, .take 1 0x10000002#32, .ret 1 0x10000002#32] := by decide

/-! ### 32-bit sequence numbers -/

theorem cycle_iter (n : Nat) : ∀ (m : CycleSeq) (cs : List Unit),
    ∃ m' c', iter (fun m cs => some (CycleSeq.nextVal m, cs)) m cs n = some ((List.range n).map m.nth, m', c') := by
  induction n with
  | zero => intro m cs; exact ⟨m, cs, rfl⟩
  | succ n ih =>
    intro m cs
    obtain ⟨m', c', h⟩ := ih m.nextVal.2 cs
    refine ⟨m', c', ?_⟩
    rw [iter]
    simp only [Option.bind_some, h, Option.map_some]
    rw [List.range_succ_eq_map, List.map_cons, List.map_map]
    rfl

/-- **C117, CycleSequence.** Any number of goroutines, any schedule: the values taken are the first ones of the generator, in order, and no two of
2^26 calls got the same. -/
theorem cycle_concurrent (d w : BitVec 32) (ops : List (Op Unit)) :
    let log := (run cycleBody (newCycleSequence d w) ops).log
    taken log = (List.range (taken log).length).map (newCycleSequence d w).nth ∧
      ((taken log).length ≤ 2 ^ 26 → (returned log).Nodup) := by
  intro log
  have h1 : taken log = (List.range (taken log).length).map (newCycleSequence d w).nth := by
    obtain ⟨m', rest, h⟩ := taken_iter cycle_does (newCycleSequence d w) ops
    obtain ⟨m'', c'', h2⟩ := cycle_iter (taken log).length (newCycleSequence d w) (run cycleBody (newCycleSequence d w) ops).seen
    rw [h2] at h
    simp only [Option.some.injEq, Prod.mk.injEq] at h
    exact h.1.symm
  refine ⟨h1, fun hl => ?_⟩
  have := returned_nodup id cycleBody (newCycleSequence d w) ops (by
    rw [List.map_id]
    show (taken log).Nodup
    rw [h1, List.nodup_iff_pairwise_ne, List.pairwise_map, List.pairwise_iff_getElem]
    intro i j hi hj hij e
    rw [List.length_range] at hi hj
    rw [List.getElem_range, List.getElem_range] at e
    have := (cycle_unique d w i j).1 e
    omega)
  rw [List.map_id] at this
  exact this

/-! ### BCD message ids -/

theorem bcd_iter (n : Nat) : ∀ (m m' : BcdSeq) (cs rest : List Bytes) (rs : List Bytes), iter bcdNext m cs n = some (rs, m', rest) →
    ∃ used, cs = used ++ rest ∧ rs = m.run used := by
  induction n with
  | zero =>
    intro m m' cs rest rs h
    simp only [iter, Option.some.injEq, Prod.mk.injEq] at h
    obtain ⟨rfl, rfl, rfl⟩ := h
    exact ⟨[], rfl, rfl⟩
  | succ n ih =>
    intro m m' cs rest rs h
    rw [iter] at h
    cases cs with
    | nil => cases h
    | cons c cs =>
      simp only [bcdNext, Option.bind_some] at h
      cases hy : iter bcdNext (m.nextVal c).2 cs n with
      | none => rw [hy] at h; cases h
      | some y =>
        rw [hy] at h
        simp only [Option.map_some, Option.some.injEq, Prod.mk.injEq] at h
        obtain ⟨rfl, h3⟩ := h
        obtain ⟨used, rfl, h4⟩ := ih _ m' cs rest y.1 (by rw [hy, ← h3])
        exact ⟨c :: used, rfl, by rw [h4]; rfl⟩

/-- **C117, BcdSequence.** Any number of goroutines, any schedule, clock readings as in C04: the ids taken are those of calls one after the other
with the readings made, and no two calls got the same id. -/
theorem bcd_concurrent (tf : BcdSeq) (node : Bytes) (hnode : tf.HasNode node) (hfresh : tf.timestamp = []) (ops : List (Op Bytes)) :
    let s := run bcdBody tf ops
    (∃ used rest, s.seen = used ++ rest ∧ taken s.log = tf.run used) ∧
    ((∀ m ∈ s.seen, IsDigits m ∧ m.length = 8) → NeverReturns s.seen → (∀ m ∈ s.seen, s.seen.count m ≤ 1000000) →
      (returned s.log).Nodup) := by
  intro s
  obtain ⟨m', rest, h⟩ := taken_iter bcd_does tf ops
  obtain ⟨used, hu, ht⟩ := bcd_iter _ _ _ _ _ _ h
  have hu' : s.seen = used ++ rest := hu
  refine ⟨⟨used, rest, hu, ht⟩, fun h1 h2 h3 => ?_⟩
  have hnr : NeverReturns used := by
    intro i j k hk hij hjk e
    have hk' : k < s.seen.length := by rw [hu', List.length_append]; omega
    have g : ∀ x (hx : x < used.length), s.seen[x]'(by rw [hu', List.length_append]; omega) = used[x] := by
      intro x hx
      simp only [hu']
      exact List.getElem_append_left hx
    have := h2 i j k hk' hij hjk (by rw [g i (by omega), g k hk]; exact e)
    rw [g j (by omega), g k hk] at this
    exact this
  have := returned_nodup id bcdBody tf ops (by
    rw [List.map_id, ht]
    exact (bcd_ids_unique tf node used hnode hfresh (fun m hm => h1 m (by rw [hu']; simp [hm])) hnr (fun m hm => by
      have := h3 m (by rw [hu']; simp [hm])
      rw [hu', List.count_append] at this
      omega)).2)
  rw [List.map_id] at this
  exact this

example : (run bcdBody (newBcdSequence (ascii "")) [.call 0, .lock 0, .access 0 (ascii "01021504"), .call 1, .access 0 [], .access 0 [], .access 0 [],
    .access 0 [], .access 0 [], .access 0 [], .unlock 0, .lock 1, .access 1 (ascii "01021504"), .ret 0]).seen =
      [ascii "01021504", ascii "01021504"] := by decide

/-! ### SGIP sequence numbers -/

theorem sgip_iter (n : Nat) : ∀ (m m' : SgipSeq) (cs rest : List Clock) (rs : List (UInt32 × UInt32 × UInt32)),
    iter sgipNext m cs n = some (rs, m', rest) → ∃ used, cs = used ++ rest ∧ rs = m.run used ∧ used.length = n := by
  induction n with
  | zero =>
    intro m m' cs rest rs h
    simp only [iter, Option.some.injEq, Prod.mk.injEq] at h
    obtain ⟨rfl, rfl, rfl⟩ := h
    exact ⟨[], rfl, rfl, rfl⟩
  | succ n ih =>
    intro m m' cs rest rs h
    rw [iter] at h
    cases cs with
    | nil => cases h
    | cons c cs =>
      simp only [sgipNext, Option.bind_some] at h
      cases hy : iter sgipNext (m.nextVal c).2 cs n with
      | none => rw [hy] at h; cases h
      | some y =>
        rw [hy] at h
        simp only [Option.map_some, Option.some.injEq, Prod.mk.injEq] at h
        obtain ⟨rfl, h3⟩ := h
        obtain ⟨used, rfl, h4, h5⟩ := ih _ m' cs rest y.1 (by rw [hy, ← h3])
        exact ⟨c :: used, rfl, by rw [h4]; rfl, by simp [h5]⟩

/-- **C117, SGIP.** Any number of goroutines, any schedule, any clock: the numbers taken are those of calls one after the other with the
readings made, and no two of 2^32 calls got the same number, already in the third word. -/
theorem sgip_concurrent (node worker : UInt32) (ops : List (Op Clock)) :
    let s := run sgipBody (newSgipSequencer node worker) ops
    (∃ used rest, s.seen = used ++ rest ∧ taken s.log = (newSgipSequencer node worker).run used) ∧
    ((taken s.log).length ≤ 2 ^ 32 → ((returned s.log).map (·.2.2)).Nodup) := by
  intro s
  obtain ⟨m', rest, h⟩ := taken_iter sgip_does (newSgipSequencer node worker) ops
  obtain ⟨used, hu, ht, hl⟩ := sgip_iter _ _ _ _ _ _ h
  refine ⟨⟨used, rest, hu, ht⟩, fun h1 => ?_⟩
  apply returned_nodup
  rw [ht]
  exact (sgip_sequence_unique node worker used (by rw [hl]; exact h1)).1

/-! ### Snowflake ids -/

theorem snow_iter (n : Nat) : ∀ (m m' : Snowflake) (cs rest : List Int) (rs : List (BitVec 64)),
    iter Snowflake.nextVal m cs n = some (rs, m', rest) → m.run cs n = some rs := by
  induction n with
  | zero =>
    intro m m' cs rest rs h
    simp only [iter, Option.some.injEq, Prod.mk.injEq] at h
    rw [← h.1]; rfl
  | succ n ih =>
    intro m m' cs rest rs h
    rw [iter] at h
    rw [Snowflake.run]
    cases hx : m.nextVal cs with
    | none => rw [hx] at h; cases h
    | some x =>
      rw [hx] at h
      simp only [Option.bind_some] at h ⊢
      cases hy : iter Snowflake.nextVal x.1.2 x.2 n with
      | none => rw [hy] at h; cases h
      | some y =>
        rw [hy] at h
        simp only [Option.map_some, Option.some.injEq, Prod.mk.injEq] at h
        obtain ⟨rfl, h3⟩ := h
        rw [ih _ y.2.1 _ y.2.2 y.1 hy]
        rfl

theorem pairwise_pick {α : Type} {r : α → α → Prop} {a b : α} {l1 l2 l3 : List α}
    (h : (l1 ++ a :: l2 ++ b :: l3).Pairwise r) : r a b := by
  rw [List.pairwise_append] at h
  exact h.2.2 a (by simp) b (by simp)

/-- **C117, Snowflake.** Any number of goroutines, any schedule, clock readings that do not go backwards and lie in the 41-bit range: the ids taken are
those of calls one after the other with the readings made, in increasing order; no two calls got the same id; a call that starts after another one
returned gets a greater id, whichever goroutines they are of. -/
theorem snowflake_concurrent (d w : BitVec 64) (hd : d.toNat < 8) (hw : w.toNat < 128) (ops : List (Op Int)) :
    let s := run snowBody (newSnowflake d w) ops
    s.seen.Pairwise (· ≤ ·) → (∀ c ∈ s.seen, SfInRange c) →
    (newSnowflake d w).run s.seen (taken s.log).length = some (taken s.log) ∧
    (taken s.log).Pairwise (fun a b => a.toNat < b.toNat) ∧ (returned s.log).Nodup ∧
    ∀ a b c e i j r r', s.log = a ++ .ret i r :: b ++ .call j :: c ++ .ret j r' :: e → (∀ x, Ev.ret j x ∉ c) → r.toNat < r'.toNat := by
  intro s hmono hr
  obtain ⟨m', rest, h⟩ := taken_iter snow_does (newSnowflake d w) ops
  have hrun := snow_iter _ _ _ _ _ _ h
  obtain ⟨_, h2, h3, _⟩ := snowflake_ids_increasing d w hd hw _ hmono hr _ _ hrun
  refine ⟨hrun, h2, ?_, ?_⟩
  · have := returned_nodup id snowBody (newSnowflake d w) ops (by rw [List.map_id]; exact h3)
    rw [List.map_id] at this
    exact this
  · intro a b c e i j r r' hl hc
    obtain ⟨t1, t2, t3, ht⟩ := order_kept snowBody (newSnowflake d w) ops a b c e i j r r' hl hc
    rw [ht] at h2
    exact pairwise_pick (r := fun (x y : BitVec 64) => x.toNat < y.toNat) h2

/-- Two goroutines in the same millisecond, the second one calling while the first one is in the body; then the first one again, after both returned. -/
def threeCalls : List (Op Int) :=
  [.call 0, .lock 0, .access 0 1577808000005, .call 1, .lock 1, .access 0 0, .access 0 0, .access 0 0, .access 0 0, .lock 1, .access 0 0, .access 0 0,
   .unlock 0, .lock 1, .access 1 1577808000005, .ret 0, .access 1 0, .access 1 0, .access 1 0, .access 1 0, .access 1 0, .access 1 0, .access 1 0, .access 1 0,
   .unlock 1, .ret 1, .call 0, .lock 0, .access 0 1577808000009, .access 0 0, .access 0 0, .access 0 0, .access 0 0, .access 0 0, .access 0 0, .unlock 0, .ret 0]

example : (run snowBody (newSnowflake 1 2) threeCalls).seen = [1577808000005, 1577808000005, 1577808000009] ∧
    (run snowBody (newSnowflake 1 2) threeCalls).log =
      [.call 0, .call 1, .take 0 0x1482000#64, .ret 0 0x1482000#64, .take 1 0x1482001#64] ++ .ret 1 0x1482001#64 :: [] ++ .call 0 ::
        [.take 0 0x2482000#64] ++ .ret 0 0x2482000#64 :: [] := by decide

theorem snow32_iter (n : Nat) : ∀ (m m' : Snowflake32) (cs rest : List Int) (rs : List (BitVec 32)),
    iter Snowflake32.nextVal m cs n = some (rs, m', rest) → m.run cs n = some (rs, m', rest) := by
  induction n with
  | zero =>
    intro m m' cs rest rs h
    exact h
  | succ n ih =>
    intro m m' cs rest rs h
    rw [iter] at h
    rw [Snowflake32.run]
    cases hx : m.nextVal cs with
    | none => rw [hx] at h; cases h
    | some x =>
      rw [hx] at h
      simp only [Option.bind_some] at h ⊢
      cases hy : iter Snowflake32.nextVal x.1.2 x.2 n with
      | none => rw [hy] at h; cases h
      | some y =>
        rw [hy] at h
        simp only [Option.map_some, Option.some.injEq, Prod.mk.injEq] at h
        obtain ⟨rfl, h3⟩ := h
        rw [ih _ m' _ rest y.1 (by rw [hy, ← h3])]
        rfl

/-- **C117, Snowflake32.** The same during one day. -/
theorem snowflake32_concurrent (d w : BitVec 32) (hd : d.toNat < 4) (hw : w.toNat < 8) (ops : List (Op Int)) :
    let s := run snow32Body (newSnowflake32 d w) ops
    s.seen.Pairwise (· ≤ ·) → (∀ c ∈ s.seen, SecOfDay c) →
    (∃ m' rest, (newSnowflake32 d w).run s.seen (taken s.log).length = some (taken s.log, m', rest)) ∧
    (taken s.log).Pairwise (fun a b => a.toNat < b.toNat) ∧ (returned s.log).Nodup ∧
    ∀ a b c e i j r r', s.log = a ++ .ret i r :: b ++ .call j :: c ++ .ret j r' :: e → (∀ x, Ev.ret j x ∉ c) → r.toNat < r'.toNat := by
  intro s hmono hr
  obtain ⟨m', rest, h⟩ := taken_iter snow32_does (newSnowflake32 d w) ops
  have hrun := snow32_iter _ _ _ _ _ _ h
  obtain ⟨_, h2, h3, _⟩ := snowflake32_ids_increasing d w hd hw _ hmono hr _ _ _ _ hrun
  refine ⟨⟨m', rest, hrun⟩, h2, ?_, ?_⟩
  · have := returned_nodup id snow32Body (newSnowflake32 d w) ops (by rw [List.map_id]; exact h3)
    rw [List.map_id] at this
    exact this
  · intro a b c e i j r r' hl hc
    obtain ⟨t1, t2, t3, ht⟩ := order_kept snow32Body (newSnowflake32 d w) ops a b c e i j r r' hl hc
    rw [ht] at h2
    exact pairwise_pick (r := fun (x y : BitVec 32) => x.toNat < y.toNat) h2

/-! ### Nobody waits for ever -/

/-- Alone and with the clock showing `c`, the body comes to its end within `n` accesses. -/
def ends (B : Body σ κ R L) (c : κ) : Nat → L → σ → Prop
  | 0, _, _ => False
  | n + 1, l, m => match B.step l c m with
    | (m', .inl l') => ends B c n l' m'
    | (_, .inr _) => True

/-- The readings in a schedule. -/
def Readings (P : κ → Prop) (ops : List (Op κ)) : Prop := ∀ i c, Op.access i c ∈ ops → P c

theorem finish_body (P : κ → Prop) {c : κ} (hc : P c) (i : Nat) (n : Nat) : ∀ (s : State B) (l : L), s.pc i = .inside l → ends B c n l s.mem →
    ∃ ops r, Readings P ops ∧ (ops.foldl step s).pc i = .leaving r ∧ (ops.foldl step s).holder = s.holder ∧
      ∀ u, u ≠ i → (ops.foldl step s).pc u = s.pc u := by
  induction n with
  | zero => intro s l _ h; exact absurd h id
  | succ n ih =>
    intro s l hp he
    rw [ends] at he
    cases hst : B.step l c s.mem with
    | mk m x =>
      rw [hst] at he
      cases x with
      | inl l' =>
        simp only at he
        have h1 : step s (.access i c) =
            { s with mem := m, seen := if B.reads l then s.seen ++ [c] else s.seen }.goto i (.inside l') := by
          simp only [step, hp, hst]
        obtain ⟨ops, r, h2, h3, h4, h5⟩ := ih (step s (.access i c)) l' (by rw [h1]; simp [State.goto]) (by rw [h1]; exact he)
        refine ⟨.access i c :: ops, r, ?_, h3, ?_, ?_⟩
        · intro j c' hm
          simp only [List.mem_cons, Op.access.injEq] at hm
          rcases hm with ⟨_, rfl⟩ | hm
          · exact hc
          · exact h2 j c' hm
        · rw [List.foldl_cons, h4, h1]; rfl
        · intro u hu
          rw [List.foldl_cons, h5 u hu, h1]
          simp [State.goto, hu]
      | inr r =>
        have h1 : step s (.access i c) =
            { s with mem := m, seen := if B.reads l then s.seen ++ [c] else s.seen, log := s.log ++ [Ev.take i r] }.goto i (.leaving r) := by
          simp only [step, hp, hst]
        refine ⟨[.access i c], r, ?_, ?_, ?_, ?_⟩
        · intro j c' hm
          simp only [List.mem_cons, Op.access.injEq, List.not_mem_nil, or_false] at hm
          rw [hm.2]; exact hc
        · simp [h1, State.goto]
        · simp [h1, State.goto]
        · intro u hu; simp [h1, State.goto, hu]

theorem readings_append {P : κ → Prop} {a b : List (Op κ)} (ha : Readings P a) (hb : Readings P b) : Readings P (a ++ b) := by
  intro i c h
  rcases List.mem_append.1 h with h | h
  · exact ha i c h
  · exact hb i c h

/-- **C117, progress.** If a body alone always comes to its end with readings that the clock can show, then nobody is stuck: in every state
reached by any schedule, every call under way returns in some continuation. -/
theorem pending_returns (P : κ → Prop) (hcan : ∀ l m, ∃ c n, P c ∧ ends B c n l m) (m : σ) (ops : List (Op κ)) (i : Nat)
    (hp : (run B m ops).pc i ≠ .idle) :
    ∃ ops' a r, Readings P ops' ∧ (run B m (ops ++ ops')).log = a ++ [.ret i r] := by
  have hI := inv_run B m ops
  have hfold : ∀ ops', run B m (ops ++ ops') = ops'.foldl step (run B m ops) := by
    intro ops'; unfold run; rw [List.foldl_append]
  simp only [hfold]
  generalize run B m ops = s at hp hI
  have hleave : ∀ (s : State B) r, s.pc i = .leaving r →
      ∃ a, ([.unlock i, .ret i].foldl step s : State B).log = a ++ [.ret i r] := by
    intro s r h
    have h1 : step s (.unlock i) = { s with holder := none }.goto i (.returning r) := by simp only [step, h]
    have h2 : (step s (.unlock i)).pc i = .returning r := by rw [h1]; simp [State.goto]
    refine ⟨(step s (.unlock i)).log, ?_⟩
    simp only [List.foldl_cons, List.foldl_nil]
    rw [show step (step s (.unlock i)) (.ret i) =
      { step s (.unlock i) with log := (step s (.unlock i)).log ++ [Ev.ret i r] }.goto i .idle from by
        generalize step s (.unlock i) = t at h2; simp only [step, h2]]
    rfl
  have hnoread : Readings P ([.unlock i, .ret i] : List (Op κ)) := by
    intro j c h; simp at h
  have hinside : ∀ (s : State B) l, s.pc i = .inside l → ∃ ops' a r, Readings P ops' ∧ (ops'.foldl step s).log = a ++ [.ret i r] := by
    intro s l h
    obtain ⟨c, n, hc, he⟩ := hcan l s.mem
    obtain ⟨ops', r, h1, h2, _, _⟩ := finish_body P hc i n s l h he
    obtain ⟨a, ha⟩ := hleave _ r h2
    exact ⟨ops' ++ [.unlock i, .ret i], a, r, readings_append h1 hnoread, by rw [List.foldl_append]; exact ha⟩
  have hwait : ∀ (s : State B), s.pc i = .waiting → s.holder = none →
      ∃ ops' a r, Readings P ops' ∧ (ops'.foldl step s).log = a ++ [.ret i r] := by
    intro s h hh
    have h1 : step s (.lock i) = { s with holder := some i }.goto i (.inside B.start) := by simp only [step, h, hh, if_true]
    obtain ⟨ops', a, r, h2, h3⟩ := hinside (step s (.lock i)) B.start (by rw [h1]; simp [State.goto])
    refine ⟨.lock i :: ops', a, r, ?_, h3⟩
    intro j c hm
    simp only [List.mem_cons, reduceCtorEq, false_or] at hm
    exact h2 j c hm
  have hfree : ∀ (s : State B) j r, s.pc i = .waiting → s.pc j = .leaving r →
      ∃ ops' a r, Readings P ops' ∧ (ops'.foldl step s).log = a ++ [.ret i r] := by
    intro s j r h hj
    have hne : i ≠ j := by intro e; subst e; rw [h] at hj; cases hj
    have h1 : step s (.unlock j) = { s with holder := none }.goto j (.returning r) := by simp only [step, hj]
    obtain ⟨ops', a, r, h2, h3⟩ := hwait (step s (.unlock j)) (by rw [h1]; simp [State.goto, hne, h]) (by rw [h1]; rfl)
    refine ⟨.unlock j :: ops', a, r, ?_, h3⟩
    intro j' c hm
    simp only [List.mem_cons, reduceCtorEq, false_or] at hm
    exact h2 j' c hm
  cases h : s.pc i with
  | idle => exact absurd h hp
  | returning r =>
    refine ⟨[.ret i], s.log, r, by intro j c hm; simp at hm, ?_⟩
    simp only [List.foldl_cons, List.foldl_nil, step, h]
    rfl
  | leaving r =>
    obtain ⟨a, ha⟩ := hleave s r h
    exact ⟨_, a, r, hnoread, ha⟩
  | inside l => exact hinside s l h
  | waiting =>
    cases hh : s.holder with
    | none => exact hwait s h hh
    | some j =>
      have hj := (hI.held j).2 hh
      have hne : i ≠ j := by intro e; subst e; rw [h] at hj; exact hj
      cases hpj : s.pc j with
      | inside l =>
        obtain ⟨c, n, hc, he⟩ := hcan l s.mem
        obtain ⟨ops', r, h1, h2, _, h4⟩ := finish_body P hc j n s l hpj he
        obtain ⟨ops'', a, r', h5, h6⟩ := hfree (ops'.foldl step s) j r (by rw [h4 i hne]; exact h) h2
        exact ⟨ops' ++ ops'', a, r', readings_append h1 h5, by rw [List.foldl_append]; exact h6⟩
      | leaving r => exact hfree s j r h hpj
      | idle => rw [hpj] at hj; exact absurd hj id
      | waiting => rw [hpj] at hj; exact absurd hj id
      | returning r => rw [hpj] at hj; exact absurd hj id

theorem ends_inl {c : κ} {n : Nat} {l l' : L} {m m' : σ} (h : B.step l c m = (m', .inl l')) (he : ends B c n l' m') : ends B c (n + 1) l m := by
  rw [ends, h]; exact he

theorem ends_inr {c : κ} {n : Nat} {l : L} {m m' : σ} {r : R} (h : B.step l c m = (m', .inr r)) : ends B c (n + 1) l m := by
  rw [ends, h]; trivial

theorem cycle_ends (c : Unit) (m : CycleSeq) : ∀ l, ends cycleBody c 5 l m
  | .ldSeq => ends_inl rfl (ends_inl rfl (ends_inl rfl (ends_inl rfl (ends_inr rfl))))
  | .stSeq _ => ends_inl rfl (ends_inl rfl (ends_inl rfl (ends_inr rfl)))
  | .ldDc => ends_inl rfl (ends_inl rfl (ends_inr rfl))
  | .ldWorker _ => ends_inl rfl (ends_inr rfl)
  | .ldRes _ _ => ends_inr rfl

theorem bcd_ends_time (c : Bytes) (n : Nat) (m : BcdSeq) (mi : Bytes) : ends bcdBody c (n + 4) (.stTime mi) m :=
  ends_inl rfl (ends_inl rfl (ends_inl rfl (ends_inr rfl)))

theorem bcd_ends_cmp (c : Bytes) (n : Nat) (m : BcdSeq) (mi : Bytes) : ends bcdBody c (n + 7) (.cmp mi) m := by
  by_cases h : m.timestamp = mi
  · have e : bcdBody.step (.cmp mi) c m = (m, .inl (.ldSeq mi)) := by simp only [bcdBody, if_pos h]
    exact ends_inl e (ends_inl rfl (ends_inl rfl (bcd_ends_time c n _ mi)))
  · have e : bcdBody.step (.cmp mi) c m = (m, .inl (.zero mi)) := by simp only [bcdBody, if_neg h]
    exact ends_inl e (ends_inl rfl (bcd_ends_time c (n + 1) _ mi))

theorem bcd_ends (c : Bytes) (m : BcdSeq) : ∀ l, ends bcdBody c 9 l m
  | .now => ends_inl rfl (bcd_ends_cmp c 1 m c)
  | .cmp mi => bcd_ends_cmp c 2 m mi
  | .ldSeq mi => ends_inl rfl (ends_inl rfl (bcd_ends_time c 3 _ mi))
  | .stSeq mi _ => ends_inl rfl (bcd_ends_time c 4 _ mi)
  | .zero mi => ends_inl rfl (bcd_ends_time c 4 _ mi)
  | .stTime mi => bcd_ends_time c 5 m mi
  | .ldWorker => ends_inl rfl (ends_inl rfl (ends_inr rfl))
  | .ldTime _ => ends_inl rfl (ends_inr rfl)
  | .ldRes _ _ => ends_inr rfl

theorem sgip_ends_second (k : Clock) (n : Nat) (m : SgipSeq) (c : Clock) (a : UInt32) : ends sgipBody k (n + 4) (.ldSecond c a) m :=
  ends_inl rfl (ends_inl rfl (ends_inl rfl (ends_inr rfl)))

theorem sgip_ends_hour (k : Clock) (n : Nat) (m : SgipSeq) (c : Clock) (a : UInt32) : ends sgipBody k (n + 8) (.ldHour c a) m :=
  ends_inl rfl (ends_inl rfl (ends_inl rfl (ends_inl rfl (sgip_ends_second k n _ c a))))

theorem sgip_ends_month (k : Clock) (n : Nat) (m : SgipSeq) (c : Clock) (a : UInt32) : ends sgipBody k (n + 11) (.month c a) m :=
  ends_inl rfl (ends_inl rfl (ends_inl rfl (sgip_ends_hour k n _ c a)))

theorem sgip_ends (k : Clock) (m : SgipSeq) : ∀ l, ends sgipBody k 15 l m
  | .ldSeq => ends_inl rfl (ends_inl rfl (ends_inl rfl (ends_inl rfl (sgip_ends_month k 0 _ k _))))
  | .stSeq _ => ends_inl rfl (ends_inl rfl (ends_inl rfl (sgip_ends_month k 1 _ k _)))
  | .now => ends_inl rfl (ends_inl rfl (sgip_ends_month k 2 _ k _))
  | .ldNode c => ends_inl rfl (sgip_ends_month k 3 _ c _)
  | .month c a => sgip_ends_month k 4 _ c a
  | .ldDay c a => ends_inl rfl (ends_inl rfl (sgip_ends_hour k 5 _ c a))
  | .day c a _ => ends_inl rfl (sgip_ends_hour k 6 _ c a)
  | .ldHour c a => sgip_ends_hour k 7 _ c a
  | .hour c a _ => ends_inl rfl (ends_inl rfl (ends_inl rfl (sgip_ends_second k 8 _ c a)))
  | .ldMinute c a => ends_inl rfl (ends_inl rfl (sgip_ends_second k 9 _ c a))
  | .minute c a _ => ends_inl rfl (sgip_ends_second k 10 _ c a)
  | .ldSecond c a => sgip_ends_second k 11 _ c a
  | .second _ _ _ => ends_inl rfl (ends_inl rfl (ends_inr rfl))
  | .ldTime _ => ends_inl rfl (ends_inr rfl)
  | .ldRes _ _ => ends_inr rfl

/-- **C117, progress of CycleSequence.** In every state every call under way returns in some continuation. -/
theorem cycle_pending_returns (m : CycleSeq) (ops : List (Op Unit)) (i : Nat) (hp : (run cycleBody m ops).pc i ≠ .idle) :
    ∃ ops' a r, (run cycleBody m (ops ++ ops')).log = a ++ [.ret i r] := by
  obtain ⟨ops', a, r, _, h⟩ := pending_returns (fun _ => True) (fun l m => ⟨(), 5, trivial, cycle_ends () m l⟩) m ops i hp
  exact ⟨ops', a, r, h⟩

/-- **C117, progress of BcdSequence**, whatever the clock shows, even if it stands still. -/
theorem bcd_pending_returns (c : Bytes) (m : BcdSeq) (ops : List (Op Bytes)) (i : Nat) (hp : (run bcdBody m ops).pc i ≠ .idle) :
    ∃ ops' a r, Readings (· = c) ops' ∧ (run bcdBody m (ops ++ ops')).log = a ++ [.ret i r] :=
  pending_returns (· = c) (fun l m => ⟨c, 9, rfl, bcd_ends c m l⟩) m ops i hp

/-- **C117, progress of the SGIP sequencer**, whatever the clock shows. -/
theorem sgip_pending_returns (c : Clock) (m : SgipSeq) (ops : List (Op Clock)) (i : Nat) (hp : (run sgipBody m ops).pc i ≠ .idle) :
    ∃ ops' a r, Readings (· = c) ops' ∧ (run sgipBody m (ops ++ ops')).log = a ++ [.ret i r] :=
  pending_returns (· = c) (fun l m => ⟨c, 15, rfl, sgip_ends c m l⟩) m ops i hp

theorem snow_ends_time (c : Int) (n : Nat) (m : Snowflake) (now : Int) : ends snowBody c (n + 4) (.stTime now) m := by
  by_cases h : now - sfEpoch > sfTimestampMax
  · have e : snowBody.step (.stTime now) c m = (m, .inr 0) := by simp only [snowBody, if_pos h]
    exact ends_inr e
  · have e : snowBody.step (.stTime now) c m = ({ m with timestamp := now }, .inl (.ldDc (now - sfEpoch))) := by simp only [snowBody, if_neg h]
    exact ends_inl e (ends_inl rfl (ends_inl rfl (ends_inr rfl)))

theorem snow_ends_again (c : Int) (n : Nat) (m : Snowflake) (h : m.timestamp < c) : ends snowBody c (n + 6) .again m := by
  have e : snowBody.step (.loop c) c m = (m, .inl (.stTime c)) := by simp only [snowBody, if_neg (Int.not_le.2 h)]
  exact ends_inl rfl (ends_inl e (snow_ends_time c n m c))

theorem snow_ends_loop (c : Int) (n : Nat) (m : Snowflake) (now : Int) (h : m.timestamp < c) : ends snowBody c (n + 7) (.loop now) m := by
  by_cases hl : now ≤ m.timestamp
  · have e : snowBody.step (.loop now) c m = (m, .inl .again) := by simp only [snowBody, if_pos hl]
    exact ends_inl e (snow_ends_again c n m h)
  · have e : snowBody.step (.loop now) c m = (m, .inl (.stTime now)) := by simp only [snowBody, if_neg hl]
    exact ends_inl e (snow_ends_time c (n + 2) m now)

theorem snow_ends_chk (c : Int) (n : Nat) (m : Snowflake) (now : Int) (h : m.timestamp < c) : ends snowBody c (n + 8) (.chk now) m := by
  by_cases hz : m.sequence = 0
  · have e : snowBody.step (.chk now) c m = (m, .inl (.loop now)) := by simp only [snowBody, if_pos hz]
    exact ends_inl e (snow_ends_loop c n m now h)
  · have e : snowBody.step (.chk now) c m = (m, .inl (.stTime now)) := by simp only [snowBody, if_neg hz]
    exact ends_inl e (snow_ends_time c (n + 3) m now)

theorem snow_ends_cmp (c : Int) (n : Nat) (m : Snowflake) (now : Int) (h : m.timestamp < c) : ends snowBody c (n + 11) (.cmp now) m := by
  by_cases hz : m.timestamp = now
  · have e : snowBody.step (.cmp now) c m = (m, .inl (.ldSeq now)) := by simp only [snowBody, if_pos hz]
    exact ends_inl e (ends_inl rfl (ends_inl rfl (snow_ends_chk c n _ now h)))
  · have e : snowBody.step (.cmp now) c m = (m, .inl (.zero now)) := by simp only [snowBody, if_neg hz]
    exact ends_inl e (ends_inl rfl (snow_ends_time c (n + 5) _ now))

theorem snow_ends (c : Int) (m : Snowflake) (h : m.timestamp < c) : ∀ l, ends snowBody c 12 l m
  | .now => ends_inl rfl (snow_ends_cmp c 0 m c h)
  | .cmp now => snow_ends_cmp c 1 m now h
  | .ldSeq now => ends_inl rfl (ends_inl rfl (snow_ends_chk c 2 _ now h))
  | .stSeq now _ => ends_inl rfl (snow_ends_chk c 3 _ now h)
  | .chk now => snow_ends_chk c 4 m now h
  | .loop now => snow_ends_loop c 5 m now h
  | .again => snow_ends_again c 6 m h
  | .zero now => ends_inl rfl (snow_ends_time c 7 _ now)
  | .stTime now => snow_ends_time c 8 m now
  | .ldDc _ => ends_inl rfl (ends_inl rfl (ends_inr rfl))
  | .ldWorker _ _ => ends_inl rfl (ends_inr rfl)
  | .ldRes _ _ _ => ends_inr rfl

/-- **C117, progress of Snowflake.** In every state every call under way returns in some continuation, whatever the clock has shown so far: it is
enough that it moves on. -/
theorem snowflake_pending_returns (c0 : Int) (m : Snowflake) (ops : List (Op Int)) (i : Nat) (hp : (run snowBody m ops).pc i ≠ .idle) :
    ∃ ops' a r, Readings (c0 ≤ ·) ops' ∧ (run snowBody m (ops ++ ops')).log = a ++ [.ret i r] :=
  pending_returns _ (fun l m => ⟨max c0 (m.timestamp + 1), 12, by omega, snow_ends _ m (by omega) l⟩) m ops i hp

/-- A call under way: at the mutex. -/
example : (run snowBody (newSnowflake 1 2) [.call 0, .lock 0, .access 0 1577808000005, .call 1, .lock 1]).pc 1 matches .waiting := rfl

/-! ### The last second of the day -/

/-- What a body alone does with the clock showing `c`: the fields and the value at its end, if it comes there within `n` accesses. -/
def solo (B : Body σ κ R L) (c : κ) : Nat → L → σ → Option (σ × R)
  | 0, _, _ => none
  | n + 1, l, m => match B.step l c m with
    | (m', .inl l') => solo B c n l' m'
    | (m', .inr r) => some (m', r)

theorem solo_inl {c : κ} {n : Nat} {l l' : L} {m m' : σ} {x : Option (σ × R)} (h : B.step l c m = (m', .inl l')) (he : solo B c n l' m' = x) :
    solo B c (n + 1) l m = x := by
  rw [solo, h]; exact he

theorem solo_inr {c : κ} {n : Nat} {l : L} {m m' : σ} {r : R} (h : B.step l c m = (m', .inr r)) : solo B c (n + 1) l m = some (m', r) := by
  rw [solo, h]

theorem finish_solo {c : κ} (i : Nat) (n : Nat) : ∀ (s : State B) (l : L) (m' : σ) (r : R), s.pc i = .inside l →
    solo B c n l s.mem = some (m', r) →
    ∃ ops, Readings (· = c) ops ∧ (ops.foldl step s).pc i = .leaving r ∧ (ops.foldl step s).mem = m' ∧
      ∀ u, u ≠ i → (ops.foldl step s).pc u = s.pc u := by
  induction n with
  | zero => intro s l m' r _ h; cases h
  | succ n ih =>
    intro s l m' r hp he
    rw [solo] at he
    cases hst : B.step l c s.mem with
    | mk m x =>
      rw [hst] at he
      cases x with
      | inl l' =>
        simp only at he
        have h1 : step s (.access i c) =
            { s with mem := m, seen := if B.reads l then s.seen ++ [c] else s.seen }.goto i (.inside l') := by
          simp only [step, hp, hst]
        obtain ⟨ops, h2, h3, h4, h5⟩ := ih (step s (.access i c)) l' m' r (by rw [h1]; simp [State.goto]) (by rw [h1]; exact he)
        refine ⟨.access i c :: ops, ?_, h3, h4, ?_⟩
        · intro j c' hm
          simp only [List.mem_cons, Op.access.injEq] at hm
          rcases hm with ⟨_, rfl⟩ | hm
          · rfl
          · exact h2 j c' hm
        · intro u hu
          rw [List.foldl_cons, h5 u hu, h1]
          simp [State.goto, hu]
      | inr r' =>
        simp only [Option.some.injEq, Prod.mk.injEq] at he
        obtain ⟨rfl, rfl⟩ := he
        have h1 : step s (.access i c) =
            { s with mem := m, seen := if B.reads l then s.seen ++ [c] else s.seen, log := s.log ++ [Ev.take i r'] }.goto i (.leaving r') := by
          simp only [step, hp, hst]
        refine ⟨[.access i c], ?_, ?_, ?_, ?_⟩
        · intro j c' hm
          simp only [List.mem_cons, Op.access.injEq, List.not_mem_nil, or_false] at hm
          exact hm.2
        · simp [h1, State.goto]
        · simp [h1, State.goto]
        · intro u hu; simp [h1, State.goto, hu]

/-- Nobody is in `NextVal`, and nobody holds the mutex. -/
def Quiet (s : State B) : Prop := s.holder = none ∧ ∀ u, s.pc u = .idle

/-- One undisturbed call. -/
theorem solo_call {c : κ} {n : Nat} {s : State B} {m' : σ} {r : R} (hq : Quiet s) (h : solo B c n B.start s.mem = some (m', r)) :
    ∃ ops, Readings (· = c) ops ∧ Quiet (ops.foldl step s) ∧ (ops.foldl step s).mem = m' := by
  obtain ⟨hh, hp⟩ := hq
  obtain ⟨t, ht⟩ : ∃ t, t = [Op.call 0, .lock 0].foldl step s := ⟨_, rfl⟩
  have ht' : t = step (step s (.call 0)) (.lock 0) := ht
  have hp0 := hp 0
  simp only [step, hp0, hh, State.goto, if_true] at ht'
  have h0 : t.pc 0 = .inside B.start := by rw [ht']; simp
  have hm : t.mem = s.mem := by rw [ht']
  have ho : ∀ u, u ≠ 0 → t.pc u = .idle := by intro u hu; rw [ht']; simp [hu, hp u]
  obtain ⟨ops, h1, h2, h3, h4⟩ := finish_solo 0 n t B.start m' r h0 (by rw [hm]; exact h)
  refine ⟨[.call 0, .lock 0] ++ (ops ++ [.unlock 0, .ret 0]), ?_, ?_⟩
  · apply readings_append
    · intro j c' hj; simp at hj
    · apply readings_append h1
      intro j c' hj; simp at hj
  · rw [List.foldl_append, List.foldl_append, ← ht]
    generalize ops.foldl step t = u at h2 h3 h4
    simp only [List.foldl_cons, List.foldl_nil, step, h2, State.goto, if_true]
    refine ⟨⟨rfl, fun v => ?_⟩, h3⟩
    by_cases hv : v = 0
    · simp [hv]
    · simp [hv, h4 v hv, ho v hv]

theorem late_first (d w : BitVec 32) : ∃ r, solo snow32Body 86399 12 .now ⟨0, d, w, 0⟩ = some (⟨86399, d, w, 0⟩, r) :=
  ⟨_, solo_inl rfl (solo_inl (l' := .zero 86399) rfl (solo_inl rfl (solo_inl rfl (solo_inl rfl (solo_inl rfl (solo_inl rfl (solo_inr rfl)))))))⟩

theorem late_next (d w q : BitVec 32) (hq : ¬ (q + 1) &&& 0x1ff#32 = 0) :
    ∃ r, solo snow32Body 86399 12 .now ⟨86399, d, w, q⟩ = some (⟨86399, d, w, (q + 1) &&& 0x1ff#32⟩, r) :=
  ⟨_, solo_inl rfl (solo_inl (l' := .ldSeq 86399) rfl (solo_inl rfl (solo_inl rfl
    (solo_inl (l' := .stTime 86399) (m' := ⟨86399, d, w, (q + 1) &&& 0x1ff#32⟩) (by simp only [snow32Body, if_neg hq])
      (solo_inl rfl (solo_inl rfl (solo_inl rfl (solo_inl rfl (solo_inr rfl)))))))))⟩

/-- 512 ids have been drawn at 23:59:59. -/
theorem late_many (d w : BitVec 32) (k : Nat) (hk : k < 512) :
    ∃ ops, Readings (· = 86399) ops ∧ Quiet (run snow32Body (newSnowflake32 d w) ops) ∧
      (run snow32Body (newSnowflake32 d w) ops).mem = ⟨86399, d, w, BitVec.ofNat 32 k⟩ := by
  induction k with
  | zero =>
    obtain ⟨r, h⟩ := late_first d w
    exact solo_call (s := { mem := newSnowflake32 d w }) ⟨rfl, fun _ => rfl⟩ h
  | succ k ih =>
    obtain ⟨ops, h1, h2, h3⟩ := ih (by omega)
    have e : ((BitVec.ofNat 32 k + 1) &&& 0x1ff#32) = BitVec.ofNat 32 (k + 1) := by
      apply BitVec.eq_of_toNat_eq
      rw [mask9, BitVec.toNat_add, BitVec.toNat_ofNat, BitVec.toNat_ofNat]
      have : (1 : BitVec 32).toNat = 1 := rfl
      omega
    have hz : ¬ ((BitVec.ofNat 32 k + 1) &&& 0x1ff#32) = 0 := by
      rw [e]
      intro hc
      have := congrArg BitVec.toNat hc
      rw [BitVec.toNat_ofNat] at this
      have z : (0 : BitVec 32).toNat = 0 := rfl
      omega
    obtain ⟨r, h⟩ := late_next d w (BitVec.ofNat 32 k) hz
    obtain ⟨ops', h4, h5, h6⟩ := solo_call (s := run snow32Body (newSnowflake32 d w) ops) h2 (by rw [h3]; exact h)
    have hf : run snow32Body (newSnowflake32 d w) (ops ++ ops') = ops'.foldl step (run snow32Body (newSnowflake32 d w) ops) := by
      unfold run; rw [List.foldl_append]
    refine ⟨ops ++ ops', readings_append h1 h4, ?_, ?_⟩
    · rw [hf]; exact h5
    · rw [hf, h6, e]

/-- Where a body is after `n` accesses with the clock showing `c`. -/
def walk (B : Body σ κ R L) (c : κ) : Nat → L → σ → Option (σ × L)
  | 0, l, m => some (m, l)
  | n + 1, l, m => match B.step l c m with
    | (m', .inl l') => walk B c n l' m'
    | (_, .inr _) => none

theorem walk_inside {c : κ} (i : Nat) (n : Nat) : ∀ (s : State B) (l l' : L) (m' : σ), s.pc i = .inside l → walk B c n l s.mem = some (m', l') →
    ((List.replicate n (Op.access i c)).foldl step s).pc i = .inside l' ∧ ((List.replicate n (Op.access i c)).foldl step s).mem = m' ∧
    ((List.replicate n (Op.access i c)).foldl step s).holder = s.holder ∧
      ∀ u, u ≠ i → ((List.replicate n (Op.access i c)).foldl step s).pc u = s.pc u := by
  induction n with
  | zero =>
    intro s l l' m' hp he
    simp only [walk, Option.some.injEq, Prod.mk.injEq] at he
    obtain ⟨rfl, rfl⟩ := he
    exact ⟨hp, rfl, rfl, fun _ _ => rfl⟩
  | succ n ih =>
    intro s l l' m' hp he
    rw [walk] at he
    cases hst : B.step l c s.mem with
    | mk m x =>
      rw [hst] at he
      cases x with
      | inl l1 =>
        simp only at he
        have h1 : step s (.access i c) =
            { s with mem := m, seen := if B.reads l then s.seen ++ [c] else s.seen }.goto i (.inside l1) := by
          simp only [step, hp, hst]
        obtain ⟨h2, h3, h4, h5⟩ := ih (step s (.access i c)) l1 l' m' (by rw [h1]; simp [State.goto]) (by rw [h1]; exact he)
        rw [List.replicate_succ, List.foldl_cons]
        refine ⟨h2, h3, ?_, ?_⟩
        · rw [h4, h1]; rfl
        · intro u hu
          rw [h5 u hu, h1]
          simp [State.goto, hu]
      | inr r => cases he

/-- Goroutine `i` has the mutex and waits for a second that does not come. -/
structure Stuck (i : Nat) (T : List (BitVec 32)) (s : State snow32Body) : Prop where
  here : (∃ now, now ≤ 86399 ∧ s.pc i = .inside (.loop now)) ∨ s.pc i = .inside .again
  secs : s.mem.seconds = 86399
  lock : s.holder = some i
  others : ∀ u, u ≠ i → ¬ Holds (s.pc u)
  same : taken s.log = T

theorem stuck_step {i : Nat} {T : List (BitVec 32)} {s : State snow32Body} (h : Stuck i T s) (op : Op Int)
    (hop : ∀ j c, op = .access j c → SecOfDay c) : Stuck i T (step s op) := by
  have pcs : ∀ (t : State snow32Body) (j : Nat) (p : Pc Snow32L (BitVec 32)) u, (t.goto j p).pc u = if u = j then p else t.pc u :=
    fun _ _ _ _ => rfl
  have hin : ∃ l, s.pc i = .inside l := by
    rcases h.here with ⟨now, _, e⟩ | e
    · exact ⟨_, e⟩
    · exact ⟨_, e⟩
  obtain ⟨l0, hl0⟩ := hin
  -- a step of another goroutine that keeps memory, lock and what was taken
  have other : ∀ (t : State snow32Body) (j : Nat) (p : Pc Snow32L (BitVec 32)), j ≠ i → ¬ Holds p → t.pc = s.pc → t.mem = s.mem → t.holder = s.holder →
      taken t.log = taken s.log → Stuck i T (t.goto j p) := by
    intro t j p hj hp e1 e2 e3 e4
    have hij : ¬ i = j := fun x => hj x.symm
    refine ⟨?_, ?_, ?_, ?_, ?_⟩
    · rw [pcs, if_neg hij, e1]; exact h.here
    · show t.mem.seconds = _; rw [e2]; exact h.secs
    · show t.holder = _; rw [e3]; exact h.lock
    · intro u hu
      rw [pcs]
      split
      · exact hp
      · rw [e1]; exact h.others u hu
    · show taken t.log = _; rw [e4]; exact h.same
  cases op with
  | call j =>
    simp only [step]
    cases e : s.pc j with
    | idle =>
      have hj : j ≠ i := by intro x; subst x; rw [hl0] at e; cases e
      exact other { s with log := s.log ++ [Ev.call j] } j .waiting hj id rfl rfl rfl (by rw [taken_snoc]; simp)
    | _ => exact h
  | lock j =>
    simp only [step]
    cases e : s.pc j with
    | waiting => simp only; rw [if_neg (by rw [h.lock]; simp)]; exact h
    | _ => exact h
  | access j c =>
    by_cases hj : j = i
    · subst hj
      have hc := hop j c rfl
      rcases h.here with ⟨now, hn, e⟩ | e
      · have hst : snow32Body.step (.loop now) c s.mem = (s.mem, .inl .again) := by
          simp only [snow32Body]; rw [if_pos (by rw [h.secs]; exact hn)]
        simp only [step, e, hst]
        refine ⟨Or.inr (by rw [pcs, if_pos rfl]), h.secs, h.lock, ?_, h.same⟩
        intro u hu; rw [pcs, if_neg hu]; exact h.others u hu
      · have hst : snow32Body.step .again c s.mem = (s.mem, .inl (.loop c)) := rfl
        simp only [step, e, hst]
        refine ⟨Or.inl ⟨c, hc.2, by rw [pcs, if_pos rfl]⟩, h.secs, h.lock, ?_, h.same⟩
        intro u hu; rw [pcs, if_neg hu]; exact h.others u hu
    · simp only [step]
      cases e : s.pc j with
      | inside l => exact absurd (by rw [e]; trivial) (h.others j hj)
      | _ => exact h
  | unlock j =>
    by_cases hj : j = i
    · subst hj
      simp only [step, hl0]
      exact h
    · simp only [step]
      cases e : s.pc j with
      | leaving r => exact absurd (by rw [e]; trivial) (h.others j hj)
      | _ => exact h
  | ret j =>
    simp only [step]
    cases e : s.pc j with
    | returning r =>
      have hj : j ≠ i := by intro x; subst x; rw [hl0] at e; cases e
      exact other { s with log := s.log ++ [Ev.ret j r] } j .idle hj id rfl rfl rfl (by rw [taken_snoc]; simp)
    | _ => exact h

/-- **C117, progress fails for Snowflake32.** After 512 ids have been drawn at 23:59:59, the next call keeps the mutex for ever: whatever happens afterwards,
on this day or any later one, no goroutine ever takes another id from this generator. -/
theorem snowflake32_blocks_everyone_fails (d w : BitVec 32) :
    ∃ ops, Readings (· = 86399) ops ∧ ∀ ops', Readings SecOfDay ops' →
      taken (run snow32Body (newSnowflake32 d w) (ops ++ ops')).log = taken (run snow32Body (newSnowflake32 d w) ops).log := by
  obtain ⟨ops, h1, ⟨h2, h2'⟩, h3⟩ := late_many d w 511 (by omega)
  have hf : ∀ a b, run snow32Body (newSnowflake32 d w) (a ++ b) = b.foldl step (run snow32Body (newSnowflake32 d w) a) := by
    intro a b; unfold run; rw [List.foldl_append]
  refine ⟨ops ++ ([.call 0, .lock 0] ++ List.replicate 5 (.access 0 86399)), ?_, ?_⟩
  · apply readings_append h1
    apply readings_append
    · intro j c hj; simp at hj
    · intro j c hj
      have := List.eq_of_mem_replicate hj
      cases this; rfl
  · have hstuck : Stuck 0 (taken (run snow32Body (newSnowflake32 d w) (ops ++ ([.call 0, .lock 0] ++ List.replicate 5 (.access 0 86399)))).log)
        (run snow32Body (newSnowflake32 d w) (ops ++ ([.call 0, .lock 0] ++ List.replicate 5 (.access 0 86399)))) := by
      rw [hf]
      generalize run snow32Body (newSnowflake32 d w) ops = s at h2 h2' h3
      rw [List.foldl_append]
      obtain ⟨t, ht⟩ : ∃ t, t = [Op.call 0, .lock 0].foldl step s := ⟨_, rfl⟩
      have ht' : t = step (step s (.call 0)) (.lock 0) := ht
      have hp0 := h2' 0
      simp only [step, hp0, h2, State.goto, if_true] at ht'
      have hw : walk snow32Body 86399 5 .now t.mem = some (⟨86399, d, w, 0⟩, .loop 86399) := by
        rw [ht', h3]; simp [walk, snow32Body]
      obtain ⟨w1, w2, w3, w4⟩ := walk_inside 0 5 t .now (.loop 86399) _ (by rw [ht']; rfl) hw
      rw [← ht]
      refine ⟨Or.inl ⟨86399, Int.le_refl _, w1⟩, by rw [w2], by rw [w3, ht'], ?_, rfl⟩
      intro u hu
      rw [w4 u hu, ht']
      simp only [hu, if_false]
      rw [h2' u]
      exact id
    intro ops' hr
    rw [hf]
    generalize run snow32Body (newSnowflake32 d w) (ops ++ ([.call 0, .lock 0] ++ List.replicate 5 (.access 0 86399))) = s at hstuck
    generalize taken s.log = T at hstuck
    induction ops' generalizing s with
    | nil => exact hstuck.same
    | cons op ops' ih =>
      exact ih (fun i c hi => hr i c (by simp [hi])) (step s op) (stuck_step hstuck op fun j c e => hr j c (by rw [← e]; simp))

/-! ### Reading without the mutex -/

/-- **C117 fails for `CurVal`.** Called while another goroutine is in `NextVal`, `CurVal` can return a sequence number that was not handed out and, as long as
the clock shows dates, never will be. -/
theorem sgip_curval_torn_fails (node worker : UInt32) :
    ∃ ops, Readings (fun c => c.Valid ∧ 1 ≤ c.day) ops ∧ ∀ ops', Readings (fun c => c.Valid ∧ 1 ≤ c.day) ops' →
      curVal (run sgipBody (newSgipSequencer node worker) ops).mem ∉
        taken (run sgipBody (newSgipSequencer node worker) (ops ++ ops')).log := by
  have hv : (⟨23, 11, 16, 12, 30, 0⟩ : Clock).Valid ∧ 1 ≤ (⟨23, 11, 16, 12, 30, 0⟩ : Clock).day := by
    refine ⟨⟨?_, ?_, ?_, ?_, ?_, ?_⟩, ?_⟩ <;> decide
  obtain ⟨ops, hops⟩ : ∃ ops : List (Op Clock), ops = [.call 0, .lock 0, .access 0 ⟨23, 11, 16, 12, 30, 0⟩, .access 0 ⟨23, 11, 16, 12, 30, 0⟩,
    .access 0 ⟨23, 11, 16, 12, 30, 0⟩, .access 0 ⟨23, 11, 16, 12, 30, 0⟩, .access 0 ⟨23, 11, 16, 12, 30, 0⟩] := ⟨_, rfl⟩
  have hro : Readings (fun c : Clock => c.Valid ∧ 1 ≤ c.day) ops := by
    intro j c hj
    rw [hops] at hj
    simp at hj
    rw [hj.2]; exact hv
  refine ⟨ops, hro, fun ops' hr hm => ?_⟩
  have hcur : (curVal (run sgipBody (newSgipSequencer node worker) ops).mem).2.1 = 1100000000 := by
    rw [hops]; rfl
  have hseen : ∀ l : List (Op Clock), Readings (fun c : Clock => c.Valid ∧ 1 ≤ c.day) l → ∀ c ∈ (run sgipBody (newSgipSequencer node worker) l).seen, c.Valid ∧ 1 ≤ c.day := by
    intro l
    induction l using snoc_induction with
    | nil => intro _ c hc; cases hc
    | snoc l x ih =>
      intro hl c hc
      rw [run_snoc] at hc
      have ih' := ih fun j c h => hl j c (by simp [h])
      generalize run sgipBody (newSgipSequencer node worker) l = s at hc ih'
      cases x with
      | access j c' =>
        simp only [step] at hc
        have hx := hl j c' (by simp)
        cases hp : s.pc j with
        | inside l =>
          rw [hp] at hc
          simp only at hc
          have : c ∈ (if sgipBody.reads l then s.seen ++ [c'] else s.seen) := by
            revert hc
            rcases sgipBody.step l c' s.mem with ⟨m, y⟩
            cases y <;> exact id
          split at this
          · simp only [List.mem_append, List.mem_cons, List.not_mem_nil, or_false] at this
            rcases this with h | rfl
            · exact ih' c h
            · exact hx
          · exact ih' c this
        | _ => rw [hp] at hc; exact ih' c hc
      | call j => simp only [step] at hc; cases hp : s.pc j <;> rw [hp] at hc <;> exact ih' c hc
      | lock j =>
        simp only [step] at hc
        cases hp : s.pc j with
        | waiting => rw [hp] at hc; simp only at hc; split at hc <;> exact ih' c hc
        | _ => rw [hp] at hc; exact ih' c hc
      | unlock j => simp only [step] at hc; cases hp : s.pc j <;> rw [hp] at hc <;> exact ih' c hc
      | ret j => simp only [step] at hc; cases hp : s.pc j <;> rw [hp] at hc <;> exact ih' c hc
  obtain ⟨⟨used, rest, hu, ht⟩, _⟩ := sgip_concurrent node worker (ops ++ ops')
  have hall := hseen (ops ++ ops') (readings_append hro hr)
  have hts : ∀ (cs : List Clock), (∀ c ∈ cs, c.Valid ∧ 1 ≤ c.day) → ∀ (g : SgipSeq), ∀ x ∈ g.run cs, x.2.1.toNat ≠ 1100000000 := by
    intro cs
    induction cs with
    | nil => intro _ g x hx; cases hx
    | cons c cs ih =>
      intro hc g x hx
      rw [SgipSeq.run] at hx
      rcases List.mem_cons.1 hx with rfl | hx
      · have h1 := hc c (by simp)
        rw [sgip_timestamp g c h1.1]
        have := h1.1.month
        have := h1.1.day
        have := h1.1.hour
        have := h1.1.minute
        have := h1.1.second
        omega
      · exact ih (fun y hy => hc y (by simp [hy])) _ x hx
  rw [ht] at hm
  have := hts used (fun c hc => hall c (by rw [hu]; simp [hc])) _ _ hm
  rw [hcur] at this
  exact this (by decide)

end Gosms.IdLock
