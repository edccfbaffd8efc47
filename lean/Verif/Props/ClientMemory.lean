import Verif.Props.ClientResults

/-!
# C103: what is sent does not stay in the client's memory for ever
-/

namespace Gosms.Client
open SyncMap

/-- A response that names the message differently than another response to the same request. Only SGIP responses
are found at all, and their message id is made from the sequence number. -/
def Spec.OneName (steps : List Step) : Prop :=
  ∀ s1 s2 a a' : UInt32, ∀ c c' : UInt8, ∀ t t' : Int,
    .resp (.sgip a s1 s2 c) t ∈ steps → .resp (.sgip a' s1 s2 c') t' ∈ steps → a = a'

/-- The result at index `i` was sent at most `d` before `now`. -/
def Spec.young (heap : List Result) (d now : Int) (i : Nat) : Prop :=
  ∃ r, heap[i]? = some r ∧ now ≤ r.sendTime + d

/-- Everything ever sent was sent more than `d` before `now`. -/
def Spec.allOld (heap : List Result) (d now : Int) : Prop := ∀ r ∈ heap, r.sendTime + d < now

theorem expired_iff {heap : List Result} {d now : Int} {i : Nat} {r : Result} (h : heap[i]? = some r) :
    expired heap d now i = true ↔ ¬ Spec.young heap d now i := by
  unfold expired Spec.young
  rw [h]
  simp only [decide_eq_true_eq]
  constructor
  · rintro h1 ⟨r', hr', h2⟩
    injection hr' with hr'
    subst hr'
    omega
  · intro h1
    by_cases h2 : now ≤ r.sendTime + d
    · exact absurd ⟨r, rfl, h2⟩ h1
    · omega

/-- Deleting, for each old entry, the key its result holds, removes the old entries and no other, if every entry's
key is the one its result holds. -/
theorem clean_keys {heap : List Result} {m : SyncMap Nat} (hd : Distinct m) (d now : Int) (key : Result → Key)
    (hk : ∀ k i, (k, i) ∈ m → ∃ r, heap[i]? = some r ∧ k = key r) (k : Key) (i : Nat) :
    (deleteAll m (m.filterMap fun p => if expired heap d now p.2 then (heap[p.2]?).map key else none)).load k = some i ↔
      m.load k = some i ∧ Spec.young heap d now i := by
  rw [load_deleteAll]
  constructor
  · intro h
    split at h
    · cases h
    · rename_i hn
      refine ⟨h, ?_⟩
      have hm := mem_of_load h
      obtain ⟨r, hr, hkr⟩ := hk k i hm
      by_cases hy : Spec.young heap d now i
      · exact hy
      · refine absurd (List.mem_filterMap.2 ⟨(k, i), hm, ?_⟩) hn
        dsimp only
        rw [if_pos ((expired_iff hr).2 hy), hr, hkr]
        rfl
  · rintro ⟨h, hy⟩
    rw [if_neg, h]
    intro hm
    obtain ⟨⟨k', j⟩, hkj, hx⟩ := List.mem_filterMap.1 hm
    obtain ⟨r, hr, hkr⟩ := hk k' j hkj
    dsimp only at hx
    split at hx
    · rename_i he
      rw [hr] at hx
      injection hx with hx
      rw [hx] at hkr
      subst hkr
      have := load_of_mem hd hkj
      rw [h] at this
      injection this with this
      subst this
      exact (expired_iff hr).1 he hy
    · cases hx

/-- C103, sequence numbers, in every history: a cleaning takes away exactly the requests sent longer than `d` ago. -/
theorem requests_freed (steps : List Step) (d now : Int) (k : Key) (i : Nat) :
    (run (steps ++ [.cleanSeqs d now])).seqMap.load k = some i ↔
      (run steps).seqMap.load k = some i ∧ Spec.young (run steps).heap d now i := by
  rw [run_snoc]
  exact clean_keys (distinct_run steps) d now (fun r => .u64 r.sequenceId) (seqOk_run steps) k i

/-! ## Message ids -/

theorem distinct_msgs (steps : List Step) : Distinct (run steps).msgMap := by
  induction steps using snoc_induction with
  | nil => simp [run, Distinct]
  | snoc steps x ih =>
    rw [run_snoc]
    cases x with
    | send call phone seqs ok now =>
      have e : (step (run steps) (.send call phone seqs ok now)).msgMap = (run steps).msgMap := by
        simp only [step, onSend]; split <;> exact (sendPackets_fields _ _ _ _).2.2.2.2
      rw [e]; exact ih
    | save call id => exact ih
    | resp q now =>
      simp only [step, onResp]
      split
      · exact ih
      · exact ih.store _ _
    | report q now => simp only [step, onReport]; split <;> exact ih
    | cleanQueries order handler d now => exact ih
    | cleanSeqs d now => exact ih
    | cleanMsgs d now => exact ih.deleteAll _

/-- What is known of the named results: the name is the one of a response in the history, with the result's
sequence number, and the entries of the map carry the name their result holds. -/
structure Named (steps : List Step) (s : State) : Prop where
  named : ∀ r ∈ s.heap, r.msgId = [] ∨ ∃ a s1 s2 c t, .resp (.sgip a s1 s2 c) t ∈ steps ∧
    r.sequenceId = sequence2Uint64 s1 s2 ∧ r.msgId = sequence2String a s1 s2
  entry : ∀ k i, (k, i) ∈ s.msgMap → ∃ r, s.heap[i]? = some r ∧ r.msgId ≠ [] ∧ k = .str r.msgId

theorem sequence2String_ne (a b c : UInt32) : sequence2String a b c ≠ [] := by
  intro h
  have := length_sequence2String a b c
  rw [h] at this
  cases this

/-- A step that leaves every old result's name and number and adds only unnamed results, and adds no entry. -/
theorem Named.keep {steps : List Step} {s s' : State} (h : Named steps s)
    (hh : ∀ (i : Nat) (r' : Result), s'.heap[i]? = some r' → r'.msgId = [] ∨ ∃ r, s.heap[i]? = some r ∧
      r'.msgId = r.msgId ∧ r'.sequenceId = r.sequenceId)
    (hf : ∀ (i : Nat) (r : Result), s.heap[i]? = some r → ∃ r', s'.heap[i]? = some r' ∧ r'.msgId = r.msgId)
    (hm : ∀ p ∈ s'.msgMap, p ∈ s.msgMap) : Named steps s' := by
  constructor
  · intro r' hr'
    obtain ⟨i, hi⟩ := List.getElem?_of_mem hr'
    rcases hh i r' hi with h1 | ⟨r, h1, h2, h3⟩
    · exact .inl h1
    · rw [h2, h3]
      exact h.named r (List.mem_of_getElem? h1)
  · intro k i hk
    obtain ⟨r, h1, h2, h3⟩ := h.entry k i (hm _ hk)
    obtain ⟨r', h4, h5⟩ := hf i r h1
    exact ⟨r', h4, by rw [h5]; exact h2, by rw [h5]; exact h3⟩

theorem Named.more {steps : List Step} {s : State} (h : Named steps s) (x : Step) : Named (steps ++ [x]) s := by
  refine ⟨?_, h.entry⟩
  intro r hr
  rcases h.named r hr with h1 | ⟨a, s1, s2, c, t, h1, h2⟩
  · exact .inl h1
  · exact .inr ⟨a, s1, s2, c, t, by simp [h1], h2⟩

theorem Spec.OneName.init {steps : List Step} {x : Step} (h : Spec.OneName (steps ++ [x])) : Spec.OneName steps :=
  fun s1 s2 a a' c c' t t' h1 h2 => h s1 s2 a a' c c' t t' (by simp [h1]) (by simp [h2])

theorem named_run (steps : List Step) (ho : Spec.OneName steps) : Named steps (run steps) := by
  induction steps using snoc_induction with
  | nil => exact ⟨fun r hr => by simp [run] at hr, fun k i hk => by simp [run] at hk⟩
  | snoc steps x ih =>
    have ih := ih ho.init
    rw [run_snoc]
    cases x with
    | send call phone seqs ok now =>
      have e : (step (run steps) (.send call phone seqs ok now)).msgMap = (run steps).msgMap ∧
          (step (run steps) (.send call phone seqs ok now)).heap = (sendPackets (run steps) phone now seqs).heap := by
        simp only [step, onSend]; split <;> exact ⟨(sendPackets_fields _ _ _ _).2.2.2.2, rfl⟩
      refine (ih.more _).keep ?_ ?_ (by rw [e.1]; exact fun p hp => hp)
      · intro i r' hr'
        rw [e.2, (sendPackets_fields _ _ _ _).1] at hr'
        by_cases hi : i < (run steps).heap.length
        · rw [List.getElem?_append_left hi] at hr'
          exact .inr ⟨r', hr', rfl, rfl⟩
        · rw [List.getElem?_append_right (by omega)] at hr'
          obtain ⟨q, _, rfl⟩ := List.mem_map.1 (List.mem_of_getElem? hr')
          exact .inl rfl
      · intro i r hr
        rw [e.2, (sendPackets_fields _ _ _ _).1, List.getElem?_append_left (List.getElem?_eq_some_iff.1 hr).1]
        exact ⟨r, hr, rfl⟩
    | save call id =>
      refine (ih.more _).keep ?_ ?_ (fun p hp => hp)
      · intro i r' hr'
        simp only [step, onSave] at hr'
        rw [List.getElem?_mapIdx] at hr'
        obtain ⟨r, h1, h2⟩ := Option.map_eq_some_iff.1 hr'
        refine .inr ⟨r, h1, ?_⟩
        rw [← h2]
        split <;> exact ⟨rfl, rfl⟩
      · intro i r hr
        simp only [step, onSave]
        rw [List.getElem?_mapIdx, hr]
        refine ⟨_, rfl, ?_⟩
        split <;> rfl
    | report q now =>
      have key : ∀ i, (step (run steps) (.report q now)).heap[i]? =
          ((run steps).heap[i]?).map fun (r : Result) => match (run steps).msgMap.load (.str q.msgId) with
            | some j => if j = i then { r with report := q.stat, reportTime := now } else r
            | none => r := by
        intro i
        simp only [step, onReport]
        cases (run steps).msgMap.load (.str q.msgId) with
        | none => simp only [Option.map_id']
        | some j => simp only [List.getElem?_modify]; rfl
      refine (ih.more _).keep ?_ ?_ (by simp only [step, onReport]; split <;> exact fun p hp => hp)
      · intro i r' hr'
        rw [key] at hr'
        obtain ⟨r, h1, h2⟩ := Option.map_eq_some_iff.1 hr'
        refine .inr ⟨r, h1, ?_⟩
        rw [← h2]
        split
        · split <;> exact ⟨rfl, rfl⟩
        · exact ⟨rfl, rfl⟩
      · intro i r hr
        rw [key, hr]
        refine ⟨_, rfl, ?_⟩
        split
        · split <;> rfl
        · rfl
    | cleanQueries order handler d now =>
      exact (ih.more _).keep (fun i r h => .inr ⟨r, h, rfl, rfl⟩) (fun i r h => ⟨r, h, rfl⟩) fun p hp => hp
    | cleanSeqs d now =>
      exact (ih.more _).keep (fun i r h => .inr ⟨r, h, rfl, rfl⟩) (fun i r h => ⟨r, h, rfl⟩) fun p hp => hp
    | cleanMsgs d now =>
      exact (ih.more _).keep (fun i r h => .inr ⟨r, h, rfl, rfl⟩) (fun i r h => ⟨r, h, rfl⟩) fun p hp => mem_deleteAll hp
    | resp q now =>
      cases hl : (run steps).seqMap.load q.key with
      | none =>
        have e : step (run steps) (.resp q now) = run steps := by simp only [step, onResp, hl]
        rw [e]
        exact ih.more _
      | some j =>
        obtain ⟨r0, hr0, hk⟩ := seqOk_run steps _ _ (mem_of_load hl)
        cases q with
        | cmpp => cases hk
        | smgp => cases hk
        | sgip a s1 s2 c =>
          have hseq : r0.sequenceId = sequence2Uint64 s1 s2 := by
            simp only [Resp.key] at hk
            injection hk with hk
            exact hk.symm
          have e : step (run steps) (.resp (.sgip a s1 s2 c) now) =
              { run steps with
                heap := (run steps).heap.modify j fun x =>
                  { x with result := c.toUInt32, msgId := sequence2String a s1 s2, responseTime := now },
                msgMap := (run steps).msgMap.store (.str (sequence2String a s1 s2)) j } := by
            simp only [step, onResp, hl]; rfl
          rw [e]
          constructor
          · intro r' hr'
            dsimp only at hr'
            obtain ⟨i, hi⟩ := List.getElem?_of_mem hr'
            rw [List.getElem?_modify] at hi
            obtain ⟨r, h1, h2⟩ := Option.map_eq_some_iff.1 hi
            by_cases hji : j = i
            · subst hji
              rw [hr0] at h1
              injection h1 with h1
              subst h1
              rw [if_pos rfl] at h2
              subst h2
              exact .inr ⟨a, s1, s2, c, now, by simp, hseq, rfl⟩
            · rw [if_neg hji] at h2
              subst h2
              exact (ih.more _).named r (List.mem_of_getElem? h1)
          · intro k i hki
            dsimp only at hki ⊢
            rcases List.mem_cons.1 hki with hki | hki
            · injection hki with h1 h2
              subst h1; subst h2
              rw [List.getElem?_modify, hr0]
              refine ⟨_, rfl, ?_, ?_⟩
              · simp [sequence2String_ne]
              · simp
            · obtain ⟨r, h1, h2, h3⟩ := ih.entry k i (mem_delete hki)
              rw [List.getElem?_modify, h1]
              refine ⟨_, rfl, ?_⟩
              dsimp only
              by_cases hji : j = i
              · subst hji
                rw [hr0] at h1
                injection h1 with h1
                subst h1
                rcases (ih.more (.resp (.sgip a s1 s2 c) now)).named r0 (List.mem_of_getElem? hr0) with h4 |
                  ⟨a', s1', s2', c', t', h4, h5, h6⟩
                · exact absurd h4 h2
                · rw [hseq] at h5
                  obtain ⟨e1, e2⟩ := sequence2Uint64_inj h5
                  subst e1; subst e2
                  have := ho s1 s2 a' a c' c t' now h4 (by simp)
                  subst this
                  simp only [if_pos rfl]
                  rw [h3, h6]
                  exact ⟨sequence2String_ne _ _ _, rfl⟩
              · rw [if_neg hji]
                exact ⟨h2, h3⟩

/-- C103, message ids, in every history in which no two responses give one request different ids: a cleaning takes
away exactly the ids of messages sent longer than `d` ago. -/
theorem ids_freed_partial (steps : List Step) (ho : Spec.OneName steps) (d now : Int) (k : Key) (i : Nat) :
    (run (steps ++ [.cleanMsgs d now])).msgMap.load k = some i ↔
      (run steps).msgMap.load k = some i ∧ Spec.young (run steps).heap d now i := by
  rw [run_snoc]
  refine clean_keys (distinct_msgs steps) d now (fun r => .str r.msgId) ?_ k i
  intro k i hk
  obtain ⟨r, h1, _, h3⟩ := (named_run steps ho).entry k i hk
  exact ⟨r, h1, h3⟩

theorem empty_of_load {α : Type} {m : SyncMap α} (h : ∀ k i, m.load k ≠ some i) : m = [] := by
  cases m with
  | nil => rfl
  | cons p m => exact absurd (by rw [load_cons, if_pos rfl]) (h p.1 p.2)

/-- C103, one tick of the cleaner (its three parts in order, `order` containing every key of the map): once everything
ever sent is older than the limit, nothing is left in memory, provided no carrier gave one request two ids. -/
theorem all_freed_partial (steps : List Step) (hp : ∀ x ∈ steps, x.Proper) (ho : Spec.OneName steps)
    (order : List Key) (handler : Bool) (d now : Int)
    (hall : ∀ k l, (run steps).queries.load k = some l → k ∈ order) (hold : Spec.allOld (run steps).heap d now) :
    let s := run (steps ++ [.cleanQueries order handler d now, .cleanSeqs d now, .cleanMsgs d now])
    s.queries = [] ∧ s.seqMap = [] ∧ s.msgMap = [] := by
  intro s
  have no : ∀ i, ¬ Spec.young (run steps).heap d now i := by
    rintro i ⟨r, h1, h2⟩
    have := hold r (List.mem_of_getElem? h1)
    omega
  have e1 : s.queries = (run (steps ++ [.cleanQueries order handler d now])).queries := by
    show (run _).queries = _
    rw [run_append, run_snoc]; rfl
  have e2 : s.seqMap = (run (steps ++ [.cleanSeqs d now])).seqMap := by
    show (run _).seqMap = _
    rw [run_append, run_snoc]; rfl
  have e3 : s.msgMap = (run (steps ++ [.cleanMsgs d now])).msgMap := by
    show (run _).msgMap = _
    rw [run_append, run_snoc]; rfl
  rw [e1, e2, e3]
  refine ⟨empty_of_load ?_, empty_of_load ?_, empty_of_load ?_⟩
  · intro k l hl
    have hb : ∃ l', (run steps).queries.load k = some l' := by
      rw [run_snoc, (clean_exact (run steps) order handler d now k).1] at hl
      cases h : (run steps).queries.load k with
      | none => rw [h] at hl; cases hl
      | some l' => exact ⟨l', rfl⟩
    obtain ⟨l', hl'⟩ := hb
    have := (clean_removes_old steps hp order handler d now k l' hl' (hall k l' hl')).2 (by
      cases l' with
      | nil => exact .inl rfl
      | cons i rest =>
        right
        have hb := (owned_run steps hp).queryBound k _ (mem_of_load hl') i (by simp)
        exact ⟨i, rest, _, rfl, List.getElem?_eq_getElem hb, hold _ (List.getElem_mem hb)⟩)
    rw [this] at hl
    cases hl
  · intro k i h
    exact no i ((requests_freed steps d now k i).1 h).2
  · intro k i h
    exact no i ((ids_freed_partial steps ho d now k i).1 h).2

/-- Two packets are sent, one is answered; a minute later nothing is left. -/
example : (run [.send 0 [49] [7, 8] true 0, .save 0 100, .resp (.sgip 3 0 7 0) 1]).msgMap.length = 1 ∧
    (run [.send 0 [49] [7, 8] true 0, .save 0 100, .resp (.sgip 3 0 7 0) 1, .cleanQueries [.i64 100] false 60 61,
      .cleanSeqs 60 61, .cleanMsgs 60 61]).msgMap = [] := by decide

/-! ## A carrier that gives one request several ids -/

theorem dec10_inj {x y : UInt32} (h : dec10 x = dec10 y) : x = y := by
  have d : ∀ n, n < 10 → x.toNat / 10 ^ (9 - n) % 10 = y.toNat / 10 ^ (9 - n) % 10 := by
    intro n hn
    have := congrArg (fun l => l[n]?) h
    simp only [dec10, List.getElem?_map, List.getElem?_range hn, Option.map_some] at this
    injection this with this
    have h1 := congrArg UInt8.toNat this
    rw [UInt8.toNat_ofNat', UInt8.toNat_ofNat'] at h1
    have a := Nat.mod_lt (x.toNat / 10 ^ (9 - n)) (by decide : 10 > 0)
    have b := Nat.mod_lt (y.toNat / 10 ^ (9 - n)) (by decide : 10 > 0)
    omega
  have m : ∀ n, n ≤ 10 → x.toNat % 10 ^ n = y.toNat % 10 ^ n := by
    intro n hn
    induction n with
    | zero => simp [Nat.mod_one]
    | succ n ih =>
      have := d (9 - n) (by omega)
      rw [show 9 - (9 - n) = n by omega] at this
      rw [Nat.mod_pow_succ, Nat.mod_pow_succ, ih (by omega), this]
  have := m 10 (Nat.le_refl _)
  apply UInt32.toNat_inj.1
  have := x.toNat_lt; have := y.toNat_lt
  omega

theorem sequence2String_inj0 {a b s1 s2 : UInt32} (h : sequence2String a s1 s2 = sequence2String b s1 s2) : a = b := by
  unfold sequence2String at h
  rw [List.append_assoc, List.append_assoc] at h
  exact dec10_inj (List.append_cancel_right h)

/-- A carrier that answers one request `n + 1` times, each time with another node number in the sequence number. -/
def Spec.manyNames (phone : Bytes) (s1 s2 : UInt32) (t : Int) (n : Nat) : List Step :=
  .send 0 phone [sequence2Uint64 s1 s2] true t ::
    (List.range (n + 1)).map fun a => .resp (.sgip (UInt32.ofNat a) s1 s2 0) t

/-- The first result holds the name `n`, the names below `n` are in the map, and the map is about the first result
only. -/
structure Leak (s1 s2 : UInt32) (n : Nat) (s : State) : Prop where
  name : ∃ r, s.heap[0]? = some r ∧ r.msgId = sequence2String (UInt32.ofNat n) s1 s2
  only : ∀ k i, (k, i) ∈ s.msgMap → i = 0
  kept : ∀ a, a < n → s.msgMap.load (.str (sequence2String (UInt32.ofNat a) s1 s2)) = some 0

theorem leak_start (phone : Bytes) (s1 s2 : UInt32) (t : Int) (n : Nat) :
    Leak s1 s2 n (run (Spec.manyNames phone s1 s2 t n)) ∧
    (run (Spec.manyNames phone s1 s2 t n)).msgMap.load (.str (sequence2String (UInt32.ofNat n) s1 s2)) = some 0 ∧
    (run (Spec.manyNames phone s1 s2 t n)).seqMap.load (.u64 (sequence2Uint64 s1 s2)) = some 0 := by
  have one : ∀ (s : State) (r : Result) (a : Nat), s.heap[0]? = some r →
      s.seqMap.load (.u64 (sequence2Uint64 s1 s2)) = some 0 →
      (∀ k i, (k, i) ∈ s.msgMap → i = 0) →
      (∀ b, b < a → s.msgMap.load (.str (sequence2String (UInt32.ofNat b) s1 s2)) = some 0) →
      Leak s1 s2 a (step s (.resp (.sgip (UInt32.ofNat a) s1 s2 0) t)) ∧
      (step s (.resp (.sgip (UInt32.ofNat a) s1 s2 0) t)).msgMap.load (.str (sequence2String (UInt32.ofNat a) s1 s2)) = some 0 ∧
      (step s (.resp (.sgip (UInt32.ofNat a) s1 s2 0) t)).seqMap.load (.u64 (sequence2Uint64 s1 s2)) = some 0 := by
    intro s r a hr hs ho hk
    have e : step s (.resp (.sgip (UInt32.ofNat a) s1 s2 0) t) =
        { s with
          heap := s.heap.modify 0 fun x =>
            { x with result := (0 : UInt8).toUInt32, msgId := sequence2String (UInt32.ofNat a) s1 s2, responseTime := t },
          msgMap := s.msgMap.store (.str (sequence2String (UInt32.ofNat a) s1 s2)) 0 } := by
      simp only [step, onResp, Resp.key, hs]; rfl
    rw [e]
    refine ⟨⟨?_, ?_, ?_⟩, ?_, hs⟩
    · dsimp only
      rw [List.getElem?_modify, hr]
      exact ⟨_, rfl, rfl⟩
    · intro k i hki
      rcases List.mem_cons.1 hki with hki | hki
      · injection hki
      · exact ho k i (mem_delete hki)
    · intro b hb
      dsimp only
      rw [load_store]
      split
      · rfl
      · exact hk b hb
    · dsimp only
      rw [load_store, if_pos rfl]
  have first : run [.send 0 phone [sequence2Uint64 s1 s2] true t] =
      { heap := [{ phone := phone, sequenceId := sequence2Uint64 s1 s2, sendTime := t }],
        seqMap := [(.u64 (sequence2Uint64 s1 s2), 0)],
        pending := (run [.send 0 phone [sequence2Uint64 s1 s2] true t]).pending } := rfl
  induction n with
  | zero =>
    have e : run (Spec.manyNames phone s1 s2 t 0) =
        step (run [.send 0 phone [sequence2Uint64 s1 s2] true t]) (.resp (.sgip (UInt32.ofNat 0) s1 s2 0) t) := rfl
    rw [e, first]
    refine one _ { phone := phone, sequenceId := sequence2Uint64 s1 s2, sendTime := t } 0 rfl ?_ ?_ ?_
    · rw [load_cons, if_pos rfl]
    · intro k i h; cases h
    · intro b hb; cases hb
  | succ n ih =>
    obtain ⟨⟨⟨r, hr, _⟩, ho, hk⟩, hn, hs⟩ := ih
    have e : Spec.manyNames phone s1 s2 t (n + 1) =
        Spec.manyNames phone s1 s2 t n ++ [.resp (.sgip (UInt32.ofNat (n + 1)) s1 s2 0) t] := by
      simp only [Spec.manyNames, List.range_succ (n := n + 1), List.map_append, List.map_cons, List.map_nil, List.cons_append]
    rw [e, run_snoc]
    refine one _ r (n + 1) hr hs ho ?_
    intro b hb
    rcases Nat.lt_succ_iff_lt_or_eq.1 hb with hb | hb
    · exact hk b hb
    · rw [hb]; exact hn

theorem leak_step {s1 s2 : UInt32} {n : Nat} (hn : n < 4294967296) {s : State} (hs : SeqOk s) (h : Leak s1 s2 n s) (x : Step)
    (hx : ¬ Spec.sgipResp x) : Leak s1 s2 n (step s x) := by
  obtain ⟨⟨r, hr, hname⟩, ho, hk⟩ := h
  cases x with
  | send call phone seqs ok now =>
    have e : (step s (.send call phone seqs ok now)).msgMap = s.msgMap ∧
        (step s (.send call phone seqs ok now)).heap = (sendPackets s phone now seqs).heap := by
      simp only [step, onSend]; split <;> exact ⟨(sendPackets_fields _ _ _ _).2.2.2.2, rfl⟩
    refine ⟨⟨r, ?_, hname⟩, by rw [e.1]; exact ho, by rw [e.1]; exact hk⟩
    rw [e.2, (sendPackets_fields _ _ _ _).1, List.getElem?_append_left (List.getElem?_eq_some_iff.1 hr).1]
    exact hr
  | save call id =>
    refine ⟨?_, ho, hk⟩
    simp only [step, onSave]
    rw [List.getElem?_mapIdx, hr]
    refine ⟨_, rfl, ?_⟩
    split <;> exact hname
  | resp q now =>
    cases q with
    | sgip => exact absurd trivial hx
    | cmpp seq m c =>
      have e : step s (.resp (.cmpp seq m c) now) = s := by
        simp only [step, onResp]
        split
        · rfl
        · rename_i i hl
          obtain ⟨r, _, h⟩ := hs _ _ (mem_of_load hl)
          cases h
      rw [e]; exact ⟨⟨r, hr, hname⟩, ho, hk⟩
    | smgp seq m c =>
      have e : step s (.resp (.smgp seq m c) now) = s := by
        simp only [step, onResp]
        split
        · rfl
        · rename_i i hl
          obtain ⟨r, _, h⟩ := hs _ _ (mem_of_load hl)
          cases h
      rw [e]; exact ⟨⟨r, hr, hname⟩, ho, hk⟩
  | report q now =>
    simp only [step, onReport]
    split
    · exact ⟨⟨r, hr, hname⟩, ho, hk⟩
    · refine ⟨?_, ho, hk⟩
      dsimp only
      rw [List.getElem?_modify, hr]
      refine ⟨_, rfl, ?_⟩
      split <;> exact hname
  | cleanQueries order handler d now => exact ⟨⟨r, hr, hname⟩, ho, hk⟩
  | cleanSeqs d now => exact ⟨⟨r, hr, hname⟩, ho, hk⟩
  | cleanMsgs d now =>
    refine ⟨⟨r, hr, hname⟩, fun k i hm => ho k i (mem_deleteAll hm), ?_⟩
    intro a ha
    simp only [step]
    rw [load_deleteAll, if_neg, hk a ha]
    intro hm
    obtain ⟨⟨k', j⟩, hkj, hx⟩ := List.mem_filterMap.1 hm
    have := ho k' j hkj
    subst this
    dsimp only at hx
    rw [hr] at hx
    split at hx
    · simp only [Option.map_some] at hx
      injection hx with hx
      injection hx with hx
      rw [hname] at hx
      have := congrArg UInt32.toNat (sequence2String_inj0 hx)
      rw [UInt32.toNat_ofNat', UInt32.toNat_ofNat'] at this
      omega
    · cases hx

/-- C103 fails: for any n (below 2^32) a carrier can, with n + 1 responses to a single message, leave n entries in the
client's memory that stay there whatever the client does later, however often and however late it is cleaned and
whatever carriers of the other protocols do. -/
theorem ids_freed_fails (phone : Bytes) (s1 s2 : UInt32) (t : Int) (n : Nat) (hn : n < 4294967296) (post : List Step)
    (h : ∀ x ∈ post, ¬ Spec.sgipResp x) :
    ∀ a, a < n → ∃ i, (run (Spec.manyNames phone s1 s2 t n ++ post)).msgMap.load
      (.str (sequence2String (UInt32.ofNat a) s1 s2)) = some i := by
  have main : Leak s1 s2 n (run (Spec.manyNames phone s1 s2 t n ++ post)) := by
    induction post using snoc_induction with
    | nil => rw [List.append_nil]; exact (leak_start phone s1 s2 t n).1
    | snoc post x ih =>
      rw [← List.append_assoc, run_snoc]
      exact leak_step hn (seqOk_run _) (ih fun y hy => h y (by simp [hy])) x (h x (by simp))
  exact fun a ha => ⟨0, main.kept a ha⟩

/-- Two answers to one message, then a cleaning an hour later: one entry is left. -/
example : (run (Spec.manyNames [49] 0 7 0 1 ++ [.cleanMsgs 60 3600, .cleanMsgs 60 7200])).msgMap.length = 1 := by decide

end Gosms.Client
