import Verif.Spec.ClientPool

/-!
# C58: carrier selection; C59: order and health of the pool; C71: size of the pool; C72: sending without connection
-/

namespace Gosms.ClientPool

/-! ## C58 -/

/-- The factories are those the configuration makes. -/
def Made (compile : Bytes → Option Regex) (conf : Conf) (fs : Factories) : Prop :=
  ∀ i f, fs i = some f → conf.account i = true ∧ f = compile (conf.segment i)

theorem create_made {compile conf fs} (h : Made compile conf fs) (i : Isp) :
    Made compile conf (create compile conf fs i).1 ∧
    (create compile conf fs i).2 = if conf.account i then some (compile (conf.segment i)) else none := by
  unfold create
  cases hf : fs i with
  | some f =>
    obtain ⟨h1, h2⟩ := h i f hf
    dsimp only
    rw [if_pos h1, h2]
    exact ⟨h, rfl⟩
  | none =>
    dsimp only
    split
    · rename_i ha
      refine ⟨?_, rfl⟩
      intro j f hj
      dsimp only at hj
      split at hj
      · rename_i e
        injection hj with hj
        subst e
        exact ⟨ha, hj.symm⟩
      · exact h j f hj
    · exact ⟨h, rfl⟩

theorem selectLoop_made {compile conf} (phone : Bytes) (is : List Isp) {fs} (h : Made compile conf fs) :
    Made compile conf (selectLoop compile conf phone is fs).1 := by
  induction is generalizing fs with
  | nil => exact h
  | cons i is ih =>
    have hc := (create_made h i).1
    unfold selectLoop
    split
    · rename_i fs' e; rw [e] at hc; exact ih hc
    · rename_i fs' e; rw [e] at hc; exact hc
    · rename_i fs' re e
      rw [e] at hc
      split
      · exact hc
      · exact ih hc

theorem after_made (compile : Bytes → Option Regex) (conf : Conf) (phones : List Bytes) :
    Made compile conf (after compile conf phones) := by
  induction phones using snoc_induction with
  | nil => intro i f h; cases h
  | snoc ps p ih =>
    unfold after at ih ⊢
    rw [List.foldl_append]
    exact selectLoop_made p _ ih

/-- What the loop decides. -/
theorem selectLoop_choice {compile conf} (phone : Bytes) (is : List Isp) {fs} (h : Made compile conf fs)
    (hp : Spec.PatternsOk compile conf) :
    (selectLoop compile conf phone is fs).2 =
      match is.find? (Spec.serves compile conf phone) with
      | some i => .isp i
      | none => .none := by
  induction is generalizing fs with
  | nil => rfl
  | cons i is ih =>
    obtain ⟨hc, hr⟩ := create_made h i
    unfold selectLoop
    rw [List.find?_cons]
    split
    · rename_i fs' e
      rw [e] at hc hr
      have ha : conf.account i = false := by
        cases ha : conf.account i with
        | false => rfl
        | true => rw [ha] at hr; cases hr
      have : Spec.serves compile conf phone i = false := by unfold Spec.serves; rw [ha]; rfl
      rw [this]
      exact ih hc
    · rename_i fs' e
      rw [e] at hr
      exfalso
      cases ha : conf.account i with
      | false => rw [ha] at hr; cases hr
      | true =>
        rw [ha] at hr
        dsimp only at hr
        rw [if_pos rfl] at hr
        injection hr with hr
        exact hp i ha hr.symm
    · rename_i fs' re e
      rw [e] at hc hr
      have ha : conf.account i = true := by
        cases ha : conf.account i with
        | true => rfl
        | false => rw [ha] at hr; cases hr
      have hre : compile (conf.segment i) = some re := by
        rw [ha] at hr
        dsimp only at hr
        rw [if_pos rfl] at hr
        injection hr with hr
        exact hr.symm
      have : Spec.serves compile conf phone i = re phone := by unfold Spec.serves; rw [ha, hre]; rfl
      rw [this]
      cases re phone with
      | true => rfl
      | false => dsimp only; rw [if_neg (fun h => by cases h)]; exact ih hc

/-- C58, if every pattern compiles: whatever numbers were sent to before, the carrier chosen for a number is the first
usable one, in the order CMPP, SGIP, SMGP, whose pattern matches, and none if no pattern does. -/
theorem select_first_partial (compile : Bytes → Option Regex) (conf : Conf) (hp : Spec.PatternsOk compile conf)
    (before : List Bytes) (phone : Bytes) :
    (select compile conf (after compile conf before) phone).2 =
      match Spec.carrier compile conf phone with
      | some i => .isp i
      | none => .none :=
  selectLoop_choice phone _ (after_made compile conf before) hp

/-- C58 refuted for patterns that do not compile: the error is only logged, and the first number that no earlier carrier
takes makes the client panic. -/
theorem select_bad_pattern_fails (compile : Bytes → Option Regex) (conf : Conf) (before : List Bytes) (phone : Bytes)
    (ha : conf.account .cmpp = true) (hb : compile (conf.segment .cmpp) = none) :
    (select compile conf (after compile conf before) phone).2 = .panic := by
  have h := after_made compile conf before
  obtain ⟨_, hr⟩ := create_made h .cmpp
  rw [if_pos ha, hb] at hr
  unfold select selectLoop
  split
  · rename_i e; rw [e] at hr; cases hr
  · rfl
  · rename_i e; rw [e] at hr; cases hr

/-- The same for the other carriers, for numbers that the carriers before do not take. -/
theorem select_bad_pattern_later_fails (compile : Bytes → Option Regex) (conf : Conf) (before : List Bytes) (phone : Bytes)
    (h1 : conf.account .cmpp = true → ∃ re, compile (conf.segment .cmpp) = some re ∧ re phone = false)
    (ha : conf.account .sgip = true) (hb : compile (conf.segment .sgip) = none) :
    (select compile conf (after compile conf before) phone).2 = .panic := by
  have h := after_made compile conf before
  obtain ⟨hc, hr⟩ := create_made h .cmpp
  have second : ∀ fs, Made compile conf fs → (selectLoop compile conf phone [.sgip, .smgp] fs).2 = .panic := by
    intro fs hfs
    obtain ⟨_, hr⟩ := create_made hfs .sgip
    rw [if_pos ha, hb] at hr
    unfold selectLoop
    split
    · rename_i e; rw [e] at hr; cases hr
    · rfl
    · rename_i e; rw [e] at hr; cases hr
  unfold select selectLoop
  split
  · rename_i e; rw [e] at hc; exact second _ hc
  · rfl
  · rename_i re e
    rw [e] at hr hc
    cases hacc : conf.account .cmpp with
    | false => rw [hacc] at hr; cases hr
    | true =>
      obtain ⟨re', h2, h3⟩ := h1 hacc
      rw [hacc, h2] at hr
      dsimp only at hr
      rw [if_pos rfl] at hr
      injection hr with hr
      injection hr with hr
      subst hr
      rw [h3]
      exact second _ hc

/-- A carrier without a configured pattern: the empty pattern matches everything, so every number that the carriers
before it do not take goes to it. -/
theorem select_empty_segment (compile : Bytes → Option Regex) (hc : compile [] = some fun _ => true) (conf : Conf)
    (hp : Spec.PatternsOk compile conf) (before : List Bytes) (phone : Bytes)
    (ha : conf.account .cmpp = true) (hs : conf.segment .cmpp = []) :
    (select compile conf (after compile conf before) phone).2 = .isp .cmpp := by
  rw [select_first_partial compile conf hp]
  have : Spec.serves compile conf phone .cmpp = true := by unfold Spec.serves; rw [ha, hs, hc]; rfl
  unfold Spec.carrier Spec.order
  rw [List.find?_cons, this]

/-- Non-vacuity: three carriers that take numbers by their first digit; the CMPP account is missing. -/
example :
    let compile : Bytes → Option Regex := fun p => some fun n => n.head? == p.head?
    let conf : Conf := { account := fun i => i != .cmpp, segment := fun i => match i with | .cmpp => [49] | .sgip => [50] | .smgp => [49] }
    Spec.PatternsOk compile conf ∧ Spec.carrier compile conf [49, 51] = some .smgp ∧
    Spec.carrier compile conf [50, 51] = some .sgip ∧ Spec.carrier compile conf [51] = none := by
  refine ⟨?_, by decide, by decide, by decide⟩
  intro i _ h; cases h

/-! ## C59 -/

theorem priority_unhealthy {s : Sess} (h : s.healthy = false) : s.priority = 0 := by
  unfold Sess.priority; rw [if_pos h]

theorem priority_healthy {s : Sess} (h : s.healthy = true) : s.priority = 10000000000 - s.period := by
  unfold Sess.priority; rw [if_neg (by rw [h]; exact fun h => by cases h)]

/-- Any pool can be sorted (the hypothesis of the theorems below is met for every pool). -/
theorem sorted_exists (pool : List Sess) : ∃ sorted, SortedOf pool sorted := by
  refine ⟨pool.mergeSort (fun a b => !less b a), List.mergeSort_perm pool _, ?_⟩
  have := List.pairwise_mergeSort (le := fun a b => !less b a) (l := pool)
    (by
      intro a b c h1 h2
      simp only [less, Bool.not_eq_true', decide_eq_false_iff_not, UInt64.not_lt, gt_iff_lt] at h1 h2 ⊢
      exact UInt64.le_trans h2 h1)
    (by
      intro a b
      simp only [less, Bool.or_eq_true, Bool.not_eq_true', decide_eq_false_iff_not, UInt64.not_lt, gt_iff_lt]
      exact (UInt64.le_total b.priority a.priority))
  refine this.imp ?_
  intro a b h
  simpa using h

/-- C59, first part: a tick keeps exactly the healthy sessions. -/
theorem prune_exact (pool sorted : List Sess) (h : SortedOf pool sorted) :
    ((prune sorted).map (·.id)).Perm ((pool.filter (·.healthy)).map (·.id)) ∧
    ∀ s ∈ prune sorted, s.healthy = true ∧ s.period = 0 := by
  constructor
  · have h1 : (prune sorted).map (·.id) = (sorted.filter (·.healthy)).map (·.id) := by
      unfold prune
      rw [List.map_map]
      rfl
    rw [h1]
    exact (h.1.filter _).map _
  · intro s hs
    unfold prune at hs
    rw [List.mem_map] at hs
    obtain ⟨s0, h0, e⟩ := hs
    rw [List.mem_filter] at h0
    subst e
    exact ⟨h0.2, rfl⟩

/-- C59, second part, for sessions that sent at most 10^10 messages in the period: the kept sessions are ordered by the
number of messages sent, ascending. -/
theorem lru_order_partial (pool sorted : List Sess) (h : SortedOf pool sorted)
    (hc : ∀ s ∈ pool, s.healthy = true → s.period ≤ 10000000000) :
    ∃ kept : List Sess, prune sorted = kept.map Sess.reset ∧ kept.Perm (pool.filter (·.healthy)) ∧
      kept.Pairwise fun a b => a.period ≤ b.period := by
  refine ⟨sorted.filter (·.healthy), rfl, h.1.filter _, ?_⟩
  have hs : (sorted.filter (·.healthy)).Pairwise fun a b => less b a = false := h.2.filter _
  have hm : ∀ s ∈ sorted.filter (·.healthy), s.healthy = true ∧ s.period ≤ 10000000000 := by
    intro s hs
    rw [List.mem_filter] at hs
    exact ⟨hs.2, hc s (h.1.mem_iff.mp hs.1) hs.2⟩
  refine List.Pairwise.imp_of_mem ?_ hs
  intro a b ha hb hl
  obtain ⟨a1, a2⟩ := hm a ha
  obtain ⟨b1, b2⟩ := hm b hb
  unfold less at hl
  rw [priority_healthy a1, priority_healthy b1] at hl
  simp only [gt_iff_lt, decide_eq_false_iff_not, UInt64.not_lt] at hl
  rw [UInt64.le_iff_toNat_le] at hl a2 b2 ⊢
  rw [UInt64.toNat_sub_of_le _ _ (by rw [UInt64.le_iff_toNat_le]; exact b2),
      UInt64.toNat_sub_of_le _ _ (by rw [UInt64.le_iff_toNat_le]; exact a2)] at hl
  have : (10000000000 : UInt64).toNat = 10000000000 := by decide
  omega

/-- C59 refuted beyond that number: the priority wraps around, and a session that sent more than 10^10 messages in the
period comes before every session that sent some, however few. -/
theorem lru_overflow_fails (a b : Sess) (ha : a.healthy = true) (hb : b.healthy = true) (ha0 : a.period ≤ 10000000000)
    (hb1 : 10000000000 < b.period) (sorted : List Sess) (h : SortedOf [a, b] sorted) :
    sorted = [b, a] := by
  have hp : less b a = true := by
    unfold less
    rw [priority_healthy ha, priority_healthy hb]
    apply decide_eq_true
    rw [gt_iff_lt, UInt64.lt_iff_toNat_lt]
    have : (10000000000 : UInt64).toNat = 10000000000 := by decide
    rw [UInt64.toNat_sub_of_le _ _ ha0]
    rw [UInt64.toNat_sub]
    rw [UInt64.lt_iff_toNat_lt] at hb1
    rw [UInt64.le_iff_toNat_le] at ha0
    have hb3 := b.period.toNat_lt
    omega
  have hl := h.1.length_eq
  match sorted, h, hl with
  | [x, y], h, _ =>
    have hx : x = a ∨ x = b := by
      have : x ∈ [a, b] := h.1.mem_iff.mp (by simp)
      simpa using this
    rcases hx with hx | hx
    · subst hx
      have := h.1
      have : [y].Perm [b] := (List.perm_cons x).mp this
      have hy : y = b := by
        have : y ∈ [b] := this.mem_iff.mp (by simp)
        simpa using this
      subst hy
      have := h.2
      rw [List.pairwise_cons] at this
      have := this.1 y (by simp)
      rw [hp] at this
      cases this
    · subst hx
      have h1 : [x, y].Perm [x, a] := h.1.trans (List.Perm.swap _ _ _)
      have : [y].Perm [a] := (List.perm_cons x).mp h1
      have hy : y = a := by
        have : y ∈ [a] := this.mem_iff.mp (by simp)
        simpa using this
      rw [hy]

/-- Non-vacuity: three healthy sessions and a broken one, sorted and pruned. -/
example : SortedOf [{ id := 0, period := 5 }, { id := 1, healthy := false }, { id := 2, period := 3 }, { id := 3, period := 5 }]
      [{ id := 2, period := 3 }, { id := 3, period := 5 }, { id := 0, period := 5 }, { id := 1, healthy := false }] ∧
    prune [{ id := 2, period := 3 }, { id := 3, period := 5 }, { id := 0, period := 5 }, { id := 1, healthy := false }] =
      [{ id := 2 }, { id := 3 }, { id := 0 }] := by
  refine ⟨⟨?_, by decide⟩, by decide⟩
  rw [List.perm_iff_count]
  intro a
  simp only [List.count_cons, List.count_nil]
  omega

theorem peekLoop_sound (env : Env) (n k : Nat) (ret : Option Nat) (i : Nat) (h : peekLoop env n k ret = some i)
    (hr : ∀ j, ret = some j → ∃ m, m < k ∧ (env.pool m).head? = some (some j)) :
    ∃ m m', m ≤ m' ∧ m' < k + n ∧ (env.pool m).head? = some (some i) ∧ env.healthy m' i = true := by
  induction n generalizing k ret with
  | zero => cases h
  | succ n ih =>
    unfold peekLoop at h
    have hr' : ∀ r, look ret (env.pool k) = r → ∀ j, r = some j →
        ∃ m, m < k + 1 ∧ (env.pool m).head? = some (some j) := by
      intro r hr0 j hj
      subst hr0
      cases hp : env.pool k with
      | nil =>
        rw [hp] at hj
        obtain ⟨m, h1, h2⟩ := hr j hj
        exact ⟨m, by omega, h2⟩
      | cons s rest =>
        rw [hp] at hj
        have hj : s = some j := hj
        subst hj
        exact ⟨k, by omega, by rw [hp]; rfl⟩
    generalize look ret (env.pool k) = r at h hr'
    have hr' := hr' r rfl
    split at h
    · rename_i hh
      subst h
      obtain ⟨m, h1, h2⟩ := hr' i rfl
      exact ⟨m, k, by omega, by omega, h2, hh⟩
    · obtain ⟨m, m', h1, h2, h3⟩ := ih (k + 1) r h hr'
      exact ⟨m, m', h1, by omega, h3⟩

/-- `PeekSession` is its limiter test and its loop: the test before the loop never succeeds. -/
theorem peek_eq (env : Env) (allow : Bool) (n : Nat) :
    peek env allow n = if allow then (match peekLoop env n 1 none with | some i => .session i | none => .waiting) else .nil := by
  unfold peek peek.loop
  cases allow with
  | false => rfl
  | true =>
    simp only [Bool.not_true, Bool.false_eq_true, if_false, if_true]
    split
    · simp only [healthCheck, Bool.false_eq_true, if_false]; cases peekLoop env n 1 none <;> rfl
    · cases peekLoop env n 1 none <;> rfl

/-- C59, third part: whatever happens to the pool and to the sessions meanwhile, `PeekSession` only returns a session that
it saw at the head of the pool and that was healthy when it was checked after that. -/
theorem peek_healthy (env : Env) (allow : Bool) (n i : Nat) (h : peek env allow n = .session i) :
    ∃ m m', m ≤ m' ∧ (env.pool m).head? = some (some i) ∧ env.healthy m' i = true := by
  rw [peek_eq] at h
  cases allow with
  | false => cases h
  | true =>
    rw [if_pos rfl] at h
    cases hl : peekLoop env n 1 none with
    | none => rw [hl] at h; cases h
    | some j =>
      rw [hl] at h
      injection h with h
      subst h
      obtain ⟨m, m', h1, _, h2⟩ := peekLoop_sound env n 1 none j hl (fun j h => by cases h)
      exact ⟨m, m', h1, h2⟩

/-! ## C72 -/

theorem peekLoop_found (env : Env) (n k : Nat) (ret : Option Nat) (m i : Nat) (hk : k ≤ m) (hn : m < k + n)
    (h1 : (env.pool m).head? = some (some i)) (h2 : env.healthy m i = true) : ∃ j, peekLoop env n k ret = some j := by
  induction n generalizing k ret with
  | zero => omega
  | succ n ih =>
    unfold peekLoop
    by_cases e : k = m
    · subst e
      cases hp : env.pool k with
      | nil => rw [hp] at h1; cases h1
      | cons s rest =>
        rw [hp] at h1
        injection h1 with h1
        subst h1
        refine ⟨i, ?_⟩
        have : healthCheck env k (look ret (some i :: rest)) = true := h2
        rw [if_pos this]; rfl
    · generalize look ret (env.pool k) = r
      cases r with
      | none =>
        rw [if_neg (by exact fun h => by cases h)]
        exact ih (k + 1) none (by omega) (by omega)
      | some j =>
        by_cases hh : healthCheck env k (some j) = true
        · rw [if_pos hh]; exact ⟨j, rfl⟩
        · rw [if_neg hh]; exact ih (k + 1) (some j) (by omega) (by omega)

theorem peekLoop_stuck (env : Env) (n k : Nat) (ret : Option Nat)
    (hp : ∀ m, k ≤ m → ∀ i, (env.pool m).head? = some (some i) → ∀ m', m ≤ m' → env.healthy m' i = false)
    (hr : ∀ i, ret = some i → ∀ m', k ≤ m' → env.healthy m' i = false) : peekLoop env n k ret = none := by
  induction n generalizing k ret with
  | zero => rfl
  | succ n ih =>
    unfold peekLoop
    have hr' : ∀ r, look ret (env.pool k) = r → ∀ i, r = some i → ∀ m', k ≤ m' → env.healthy m' i = false := by
      intro r h0 i hi m' hm'
      subst h0
      cases h : env.pool k with
      | nil => rw [h] at hi; exact hr i hi m' hm'
      | cons s rest =>
        rw [h] at hi
        have hi : s = some i := hi
        subst hi
        exact hp k (Nat.le_refl k) i (by rw [h]; rfl) m' hm'
    generalize look ret (env.pool k) = r at hr'
    have hr' := hr' r rfl
    rw [if_neg]
    · exact ih (k + 1) r (fun m hm => hp m (by omega)) (fun i hi m' hm' => hr' i hi m' (by omega))
    · cases r with
      | none => exact fun h => by cases h
      | some i =>
        intro h
        have := hr' i rfl k (Nat.le_refl k)
        unfold healthCheck at h
        dsimp only at h
        rw [this] at h
        cases h

/-- C72, the part that holds: a message that the limiter does not admit is dropped at once. Missing: no connection
(`peek_no_connection_fails`). -/
theorem peek_limited_partial (env : Env) (n : Nat) : peek env false n = .nil := by rw [peek_eq]; rfl

/-- C72, the part that holds: if at some later look the head of the pool is healthy, a session is returned by then. -/
theorem peek_returns_partial (env : Env) (m i n : Nat) (h1 : 1 ≤ m) (hn : m ≤ n) (hp : (env.pool m).head? = some (some i))
    (hh : env.healthy m i = true) : ∃ j, peek env true n = .session j := by
  obtain ⟨j, hj⟩ := peekLoop_found env n 1 none m i h1 (by omega) hp hh
  refine ⟨j, ?_⟩
  rw [peek_eq, if_pos rfl, hj]

/-- C72 refuted: while the carrier has no healthy session the call does not return, however long it lasts. -/
theorem peek_no_connection_fails (env : Env)
    (h : ∀ m i, (env.pool m).head? = some (some i) → ∀ m', m ≤ m' → env.healthy m' i = false) (n : Nat) :
    peek env true n = .waiting := by
  rw [peek_eq, if_pos rfl, peekLoop_stuck env n 1 none (fun m _ => h m) (fun i h => by cases h)]

/-- At look `k` the session in the goroutine's hands is `i`: the head of the last pool that was not empty, looks counted from 1. -/
def Holds (env : Env) (k i : Nat) : Prop :=
  ∃ m, 1 ≤ m ∧ m ≤ k ∧ (env.pool m).head? = some (some i) ∧ ∀ m', m < m' → m' ≤ k → env.pool m' = []

theorem holds_look (env : Env) (k : Nat) (ret : Option Nat) (hr : ∀ i, ret = some i ↔ Holds env k i) (i : Nat) :
    look ret (env.pool (k + 1)) = some i ↔ Holds env (k + 1) i := by
  cases hp : env.pool (k + 1) with
  | nil =>
    show ret = some i ↔ _
    rw [hr i]
    constructor
    · rintro ⟨m, h1, h2, h3, h4⟩
      refine ⟨m, h1, by omega, h3, fun m' a b => ?_⟩
      by_cases e : m' = k + 1
      · rw [e]; exact hp
      · exact h4 m' a (by omega)
    · rintro ⟨m, h1, h2, h3, h4⟩
      by_cases e : m = k + 1
      · rw [e, hp] at h3; cases h3
      · exact ⟨m, h1, by omega, h3, fun m' a b => h4 m' a (by omega)⟩
  | cons s rest =>
    show s = some i ↔ _
    constructor
    · intro h
      exact ⟨k + 1, by omega, Nat.le_refl _, by rw [hp, h]; rfl, fun m' a b => by omega⟩
    · rintro ⟨m, h1, h2, h3, h4⟩
      by_cases e : m = k + 1
      · rw [e, hp] at h3; exact Option.some.inj h3
      · have := h4 (k + 1) (by omega) (Nat.le_refl _)
        rw [hp] at this; cases this

theorem holds_unique {env : Env} {k i j : Nat} (h : Holds env k i) (h' : Holds env k j) : i = j := by
  obtain ⟨m, a1, a2, a3, a4⟩ := h
  obtain ⟨m', b1, b2, b3, b4⟩ := h'
  rcases Nat.lt_trichotomy m m' with e | e | e
  · rw [a4 m' e b2] at b3; cases b3
  · subst e; rw [a3] at b3; exact Option.some.inj (Option.some.inj b3)
  · rw [b4 m e a2] at a3; cases a3

theorem peekLoop_exact (env : Env) (n k : Nat) (ret : Option Nat) (hr : ∀ i, ret = some i ↔ Holds env k i) (i : Nat) :
    peekLoop env n (k + 1) ret = some i ↔
      ∃ m, k < m ∧ m ≤ k + n ∧ Holds env m i ∧ env.healthy m i = true ∧
        ∀ m', k < m' → m' < m → ∀ j, Holds env m' j → env.healthy m' j = false := by
  induction n generalizing k ret with
  | zero =>
    constructor
    · intro h; cases h
    · rintro ⟨m, h1, h2, _⟩; omega
  | succ n ih =>
    unfold peekLoop
    have hl := holds_look env k ret hr
    generalize look ret (env.pool (k + 1)) = r at hl
    by_cases hh : healthCheck env (k + 1) r = true
    · rw [if_pos hh]
      cases r with
      | none => cases hh
      | some j =>
        have hj : Holds env (k + 1) j := (hl j).1 rfl
        have hh : env.healthy (k + 1) j = true := hh
        constructor
        · intro h
          have h := Option.some.inj h
          subst h
          exact ⟨k + 1, by omega, by omega, hj, hh, fun m' a b => by omega⟩
        · rintro ⟨m, h1, h2, h3, h4, h5⟩
          by_cases e : m = k + 1
          · subst e; rw [holds_unique hj h3]
          · have := h5 (k + 1) (by omega) (by omega) j hj
            rw [hh] at this; cases this
    · rw [if_neg hh, ih (k + 1) r hl]
      constructor
      · rintro ⟨m, h1, h2, h3, h4, h5⟩
        refine ⟨m, by omega, by omega, h3, h4, fun m' a b j hj => ?_⟩
        by_cases e : m' = k + 1
        · subst e
          have := (hl j).2 hj
          subst this
          cases hx : env.healthy (k + 1) j
          · rfl
          · exact absurd hx hh
        · exact h5 m' (by omega) b j hj
      · rintro ⟨m, h1, h2, h3, h4, h5⟩
        have : m ≠ k + 1 := by
          rintro rfl
          have := (hl i).2 h3
          subst this
          exact hh h4
        exact ⟨m, by omega, by omega, h3, h4, fun m' a b => h5 m' (by omega) b⟩

theorem holds_zero (env : Env) (i : Nat) : (none : Option Nat) = some i ↔ Holds env 0 i := by
  constructor
  · intro h; cases h
  · rintro ⟨m, h1, h2, _⟩; omega

/-- C72 (and C59), exactly: which session an admitted call returns within `n` looks, and when it returns at all. It returns the session it
holds at the first look at which this session is healthy. -/
theorem peek_exactly (env : Env) (n i : Nat) :
    peek env true n = .session i ↔
      ∃ m, 1 ≤ m ∧ m ≤ n ∧ Holds env m i ∧ env.healthy m i = true ∧
        ∀ m', 1 ≤ m' → m' < m → ∀ j, Holds env m' j → env.healthy m' j = false := by
  have h := peekLoop_exact env n 0 none (holds_zero env) i
  rw [peek_eq, if_pos rfl]
  constructor
  · intro hp
    obtain ⟨m, a, b, c⟩ := h.1 (by
      revert hp
      cases peekLoop env n 1 none with
      | none => intro h; cases h
      | some j => intro h; injection h with h; rw [h])
    exact ⟨m, a, by omega, c⟩
  · rintro ⟨m, a, b, c⟩
    rw [show peekLoop env n 1 none = some i from h.2 ⟨m, a, by omega, c⟩]

/-- C72 refuted, exactly: an admitted call is still waiting after `n` looks just when the session it held was unhealthy, or it held none,
at each of them. -/
theorem peek_waits_exactly_fails (env : Env) (n : Nat) :
    peek env true n = .waiting ↔ ∀ m, 1 ≤ m → m ≤ n → ∀ i, Holds env m i → env.healthy m i = false := by
  constructor
  · intro hw m
    induction m using Nat.strongRecOn with
    | ind m ih =>
      intro h1 h2 i hi
      cases hh : env.healthy m i with
      | false => rfl
      | true =>
        have := (peek_exactly env n i).2 ⟨m, h1, h2, hi, hh, fun m' a b j hj => ih m' b a (by omega) j hj⟩
        rw [hw] at this; cases this
  · intro h
    cases hp : peek env true n with
    | nil =>
      rw [peek_eq, if_pos rfl] at hp
      revert hp
      cases peekLoop env n 1 none <;> intro hp <;> cases hp
    | session i =>
      obtain ⟨m, a, b, c, d, _⟩ := (peek_exactly env n i).1 hp
      rw [h m a b i c] at d; cases d
    | waiting => rfl

/-- Non-vacuity: a pool that stays empty; and one that gets a session at the third look. -/
example : peek ⟨fun _ => [], fun _ _ => true⟩ true 1000 = .waiting := peek_no_connection_fails _ (fun m i h => by cases h) _
example : peek ⟨fun k => if k < 3 then [] else [some 7], fun _ _ => true⟩ true 5 = .session 7 := by decide

/-- Non-vacuity: the pool loses its head after the second look; the goroutine keeps the session it saw and returns it when it is healthy. -/
example : peek ⟨fun k => if k < 3 then [some 7] else [], fun k _ => k == 5⟩ true 5 = .session 7 :=
  (peek_exactly _ 5 7).2 ⟨5, by decide, by decide, ⟨2, by decide, by decide, rfl, fun m' a _ => by
    show (if m' < 3 then _ else _) = _
    rw [if_neg (by omega)]⟩, rfl, fun m' _ b j _ => by simp; omega⟩

/-! ## C71 -/

theorem wanted_pos (m : Int) : 1 ≤ wanted m := by
  unfold wanted; split <;> omega

theorem fill_le (want : Nat) (pool : List Sess) (dials : List (Option Nat)) (M : Nat) (hp : pool.length ≤ M) (hw : want ≤ M) :
    (fill want pool dials).length ≤ M := by
  induction dials generalizing pool with
  | nil => exact hp
  | cons r rs ih =>
    unfold fill
    split
    · apply ih
      cases r with
      | none => simpa using hp
      | some i => simp; omega
    · exact hp

theorem prune_le (pool sorted : List Sess) (h : SortedOf pool sorted) : (prune sorted).length ≤ pool.length := by
  unfold prune
  rw [List.length_map]
  have := List.length_filter_le (fun s : Sess => s.healthy) sorted
  have := h.1.length_eq
  omega

/-- C71, the bound: in every history the pool holds at most as many sessions as the largest number configured at any of its
ticks. -/
theorem pool_bound (first : Option Nat) (es : List Event) (pool : List Sess) (h : Run first es pool) (M : Nat) (hM : 1 ≤ M)
    (hc : ∀ m sorted dials, Event.tick m sorted dials ∈ es → wanted m ≤ M) : pool.length ≤ M := by
  induction h with
  | nil => unfold initial; cases first <;> simp; omega
  | @snoc es pool e hr hv ih =>
    have ih := ih (fun m so d hm => hc m so d (by simp [hm]))
    cases e with
    | breaks i => show (pool.modify i _).length ≤ M; rw [List.length_modify]; exact ih
    | sent i n => show (pool.modify i _).length ≤ M; rw [List.length_modify]; exact ih
    | tick m sorted dials =>
      apply fill_le
      · have := prune_le pool sorted hv; omega
      · exact hc m sorted dials (by simp)

/-- C71 with a fixed configuration: never more sessions than configured. -/
theorem pool_never_exceeds (first : Option Nat) (es : List Event) (pool : List Sess) (maxConns : Int)
    (h : Run first es pool) (hc : ∀ m sorted dials, Event.tick m sorted dials ∈ es → m = maxConns) :
    pool.length ≤ if maxConns ≤ 0 then 2 else maxConns.toNat :=
  pool_bound first es pool h (wanted maxConns) (wanted_pos maxConns) (fun m so d hm => by rw [hc m so d hm]; exact Nat.le_refl _)

theorem fill_all (want : Nat) (pool : List Sess) (ids : List Nat) (hp : pool.length ≤ want) (hl : want - pool.length ≤ ids.length) :
    (fill want pool (ids.map some)).length = want := by
  induction ids generalizing pool with
  | nil => unfold fill; simp at hl ⊢; omega
  | cons i ids ih =>
    rw [List.map_cons]
    unfold fill
    split
    · apply ih
      · simp; omega
      · simp at hl ⊢; omega
    · omega

/-- C71, second part: after a tick whose connection attempts succeed, the pool holds exactly the configured number of
sessions, all healthy. -/
theorem pool_filled (first : Option Nat) (es : List Event) (pool : List Sess) (maxConns : Int)
    (h : Run first es pool) (hc : ∀ m sorted dials, Event.tick m sorted dials ∈ es → m = maxConns)
    (sorted : List Sess) (hs : SortedOf pool sorted) (ids : List Nat) (hi : wanted maxConns ≤ ids.length) :
    (step pool (.tick maxConns sorted (ids.map some))).length = wanted maxConns := by
  have h1 := pool_never_exceeds first es pool maxConns h hc
  have h2 := prune_le pool sorted hs
  apply fill_all
  · exact Nat.le_trans h2 h1
  · omega

theorem fill_healthy (want : Nat) (pool : List Sess) (dials : List (Option Nat)) (hp : ∀ s ∈ pool, s.healthy = true) :
    ∀ s ∈ fill want pool dials, s.healthy = true := by
  induction dials generalizing pool with
  | nil => exact hp
  | cons r rs ih =>
    unfold fill
    split
    · apply ih
      intro s hs
      rw [List.mem_append] at hs
      rcases hs with hs | hs
      · exact hp s hs
      · cases r with
        | none => cases hs
        | some i => simp at hs; rw [hs]
    · exact hp

theorem pool_filled_healthy (pool sorted : List Sess) (hs : SortedOf pool sorted) (maxConns : Int) (dials : List (Option Nat)) :
    ∀ s ∈ step pool (.tick maxConns sorted dials), s.healthy = true :=
  fill_healthy _ _ _ (fun s h => ((prune_exact pool sorted hs).2 s h).1)

/-- The number of connections is read again at every tick, but healthy sessions are never given up: after the
configuration is lowered to `m` the pool keeps more than `m` sessions. -/
theorem pool_lowered_fails (pool sorted : List Sess) (m : Int) (dials : List (Option Nat)) (hs : SortedOf pool sorted)
    (hh : ∀ s ∈ pool, s.healthy = true) (hm : wanted m < pool.length) :
    (step pool (.tick m sorted dials)).length = pool.length := by
  have h1 : (prune sorted).length = pool.length := by
    unfold prune
    rw [List.length_map, List.filter_eq_self.mpr, hs.1.length_eq]
    intro s h
    exact hh s (hs.1.mem_iff.mp h)
  show (fill (wanted m) (prune sorted) dials).length = _
  cases dials with
  | nil => exact h1
  | cons r rs => unfold fill; rw [if_neg (by omega)]; exact h1

/-- Non-vacuity of `Run`: a factory whose first connection succeeded, one more session, a break, and a tick that replaces
the broken session. -/
example : Run (some 0) ([.tick 2 [{ id := 0 }] [none, some 1]] ++ [.breaks 0] ++
    [.tick 2 [{ id := 1 }, { id := 0, healthy := false }] [some 2, some 3]]) [{ id := 1 }, { id := 2 }] := by
  have h1 : Run (some 0) [.tick 2 [{ id := 0 }] [none, some 1]] [{ id := 0 }, { id := 1 }] :=
    Run.snoc (es := []) (pool := [{ id := 0 }]) Run.nil ⟨List.Perm.refl _, by decide⟩
  have h2 := Run.snoc h1 (e := .breaks 0) trivial
  have h3 := Run.snoc h2 (e := .tick 2 [{ id := 1 }, { id := 0, healthy := false }] [some 2, some 3])
    ⟨List.Perm.swap _ _ _, by decide⟩
  exact h3

/-! ## The counters are those of the messages sent since the last tick -/

/-- The number of messages sent over the session at place `i` since the last tick. -/
def Spec.sentInPeriod (i : Nat) (es : List Event) : Nat :=
  es.foldl (fun k e => match e with
    | .tick _ _ _ => 0
    | .sent j n => if j = i then k + n.toNat else k
    | .breaks _ => k) 0

theorem fill_period (want : Nat) (pool : List Sess) (dials : List (Option Nat)) (hp : ∀ s ∈ pool, s.period = 0) :
    ∀ s ∈ fill want pool dials, s.period = 0 := by
  induction dials generalizing pool with
  | nil => exact hp
  | cons r rs ih =>
    unfold fill
    split
    · apply ih
      intro s hs
      rw [List.mem_append] at hs
      rcases hs with hs | hs
      · exact hp s hs
      · cases r with
        | none => cases hs
        | some i => simp at hs; rw [hs]
    · exact hp

/-- In every history the counter of a session in the pool is the number of messages sent over it since the last tick (in 64 bits). -/
theorem period_counts (first : Option Nat) (es : List Event) (pool : List Sess) (h : Run first es pool) (i : Nat) (s : Sess)
    (hs : pool[i]? = some s) : s.period.toNat = Spec.sentInPeriod i es % 2 ^ 64 := by
  induction h generalizing s with
  | nil =>
    have : s.period = 0 := by
      have hm := List.mem_of_getElem? hs
      unfold initial at hm
      cases first with
      | none => cases hm
      | some j => simp at hm; rw [hm]
    rw [this]; rfl
  | @snoc es pool e hr hv ih =>
    unfold Spec.sentInPeriod
    rw [List.foldl_append, List.foldl_cons, List.foldl_nil]
    cases e with
    | breaks j =>
      have hs : (pool.modify j _)[i]? = some s := hs
      rw [List.getElem?_modify] at hs
      cases h0 : pool[i]? with
      | none => rw [h0] at hs; cases hs
      | some s0 =>
        rw [h0] at hs
        have := ih s0 h0
        simp only [Option.map_eq_map, Option.map_some, Option.some.injEq] at hs
        rw [← hs]
        split <;> exact this
    | sent j n =>
      have hs : (pool.modify j _)[i]? = some s := hs
      rw [List.getElem?_modify] at hs
      cases h0 : pool[i]? with
      | none => rw [h0] at hs; cases hs
      | some s0 =>
        rw [h0] at hs
        have := ih s0 h0
        simp only [Option.map_eq_map, Option.map_some, Option.some.injEq] at hs
        rw [← hs]
        dsimp only
        by_cases e : j = i
        · rw [if_pos e, if_pos e]
          unfold Sess.addCounterN
          rw [UInt64.toNat_add, this]
          unfold Spec.sentInPeriod
          omega
        · rw [if_neg e, if_neg e]; exact this
    | tick m sorted dials =>
      have : s.period = 0 := fill_period _ _ _ (fun x hx => ((prune_exact pool sorted hv).2 x hx).2) s (List.mem_of_getElem? hs)
      rw [this]; rfl

/-- Three messages over the second session, a tick, and one over the first. -/
example : Run (some 0) ([.tick 2 [{ id := 0 }] [some 1]] ++ [.sent 1 3]) [{ id := 0 }, { id := 1, period := 3 }] ∧
    Spec.sentInPeriod 1 ([.tick 2 [{ id := 0 }] [some 1]] ++ [.sent 1 3]) = 3 := by
  refine ⟨?_, by decide⟩
  have h1 : Run (some 0) [.tick 2 [{ id := 0 }] [some 1]] [{ id := 0 }, { id := 1 }] :=
    Run.snoc (es := []) (pool := [{ id := 0 }]) Run.nil ⟨List.Perm.refl _, by decide⟩
  exact Run.snoc h1 (e := .sent 1 3) trivial

end Gosms.ClientPool
