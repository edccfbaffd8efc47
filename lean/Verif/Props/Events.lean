import Verif.Spec.Events

/-!
# C53, C54: event manager
-/

namespace Gosms.Events
open Gosms.Spec.Registry (State Full Allowed History)

variable {E : Type}

theorem load_del (m : Registry E) (k k' : Bytes) :
    load (del m k) k' = if k' = k then none else load m k' := by
  unfold load del
  rw [List.find?_filter]
  split
  · rename_i h
    subst h
    simp
  · rename_i h
    congr 2
    funext p
    by_cases hp : p.1 = k'
    · simp [hp, h]
    · simp [hp]

theorem load_store (m : Registry E) (k k' : Bytes) (v : List E) :
    load (store m k v) k' = if k' = k then some v else load m k' := by
  have := load_del m k k'
  unfold store
  by_cases h : k' = k
  · subst h; simp [load]
  · rw [if_neg h] at this ⊢
    rw [← this]
    unfold load
    rw [List.find?_cons_of_neg (by simpa using fun x => h x.symm)]

theorem fullKey_full (pre key : Bytes) : Full pre key (fullKey pre key) := by
  unfold fullKey
  by_cases h : pre.isPrefixOf key = true
  · rw [if_pos h]; exact .inl ⟨by simpa using h, rfl⟩
  · rw [if_neg h]; exact .inr ⟨by simpa using h, rfl⟩

theorem fullKey_of_prefix {pre key : Bytes} (h : pre <+: key) : fullKey pre key = key := by
  unfold fullKey; rw [if_pos (by simpa using h)]

theorem fullKey_prefix (pre key : Bytes) : pre <+: fullKey pre key := by
  unfold fullKey
  split
  · rename_i h; simpa using h
  · exact List.prefix_append _ _

theorem fullKey_idem (pre key : Bytes) : fullKey pre (fullKey pre key) = fullKey pre key :=
  fullKey_of_prefix (fullKey_prefix _ _)

theorem fullKey_fix {pre key k : Bytes} (h : fullKey pre key = k) : fullKey pre k = k := by
  subst h; exact fullKey_idem _ _

theorem load_none_iff (m : Registry E) (k : Bytes) : load m k = none ↔ k ∉ m.map Prod.fst := by
  unfold load
  simp only [Option.map_eq_none_iff, List.find?_eq_none, List.mem_map, not_exists, not_and, decide_eq_true_eq]

/-- The keys of the map are different from each other. -/
def Distinct (m : Registry E) : Prop := (m.map Prod.fst).Nodup

theorem distinct_del {m : Registry E} (h : Distinct m) (k : Bytes) : Distinct (del m k) :=
  List.Nodup.sublist (List.Sublist.map _ (List.filter_sublist)) h

theorem distinct_store {m : Registry E} (h : Distinct m) (k : Bytes) (v : List E) : Distinct (store m k v) := by
  have h2 := distinct_del h k
  unfold Distinct store at *
  rw [List.map_cons, List.nodup_cons]
  refine ⟨?_, h2⟩
  rw [← load_none_iff, load_del, if_pos rfl]

theorem step_refines {m m' : Registry E} {op : Op E} {out : Out E} (hd : Distinct m) (h : Step m op out m') :
    Allowed (load m) op out (load m') ∧ Distinct m' := by
  cases h with
  | register pre key events =>
    unfold register
    split
    · rename_i hl
      have : events = [] := List.length_eq_zero_iff.1 (by omega)
      exact ⟨⟨_, fullKey_full pre key, .inr ⟨.inr this, rfl, rfl⟩⟩, hd⟩
    · rename_i hl
      have hne : events ≠ [] := by rintro rfl; exact hl (by simp)
      simp only [get, fullKey_idem]
      split
      · rename_i hg
        refine ⟨⟨_, fullKey_full pre key, .inl ⟨hg, hne, rfl, ?_⟩⟩, distinct_store hd _ _⟩
        funext k
        rw [load_store]; rfl
      · rename_i x hg
        refine ⟨⟨_, fullKey_full pre key, .inr ⟨.inl ?_, rfl, rfl⟩⟩, hd⟩
        rw [hg]; simp
  | get pre key => exact ⟨⟨_, fullKey_full pre key, rfl, rfl⟩, hd⟩
  | call pre key =>
    refine ⟨⟨_, fullKey_full pre key, ?_, rfl⟩, hd⟩
    simp only [call, get, fullKey_idem]
    cases load m (fullKey pre key) <;> rfl
  | delete pre key =>
    refine ⟨⟨_, fullKey_full pre key, rfl, ?_⟩, distinct_del hd _⟩
    funext k
    rw [delete, load_del]; rfl
  | fuzzyCall pre order ho =>
    refine ⟨⟨rfl, order.filter (fun k => pre.isPrefixOf k), ?_, ?_, ?_⟩, hd⟩
    · exact List.Nodup.sublist List.filter_sublist (ho.nodup_iff.2 hd)
    · intro k
      rw [List.mem_filter, ho.mem_iff]
      constructor
      · rintro ⟨a, b⟩
        exact ⟨by simpa using b, fun e => (load_none_iff m k).1 e a⟩
      · rintro ⟨a, b⟩
        refine ⟨Classical.byContradiction fun hc => b ((load_none_iff m k).2 hc), by simpa using a⟩
    · congr 1
      unfold fuzzyCall
      clear ho
      induction order with
      | nil => rfl
      | cons k ks ih =>
        rw [List.flatMap_cons, ih]
        by_cases hp : pre.isPrefixOf k = true
        · rw [if_pos hp, List.filter_cons_of_pos hp, List.flatMap_cons]
          congr 1
          have hk : fullKey pre k = k := fullKey_of_prefix (by simpa using hp)
          simp only [call, get, hk]
          cases load m k <;> rfl
        · rw [if_neg hp, List.filter_cons_of_neg hp, List.nil_append]

theorem run_refines {m m' : Registry E} {h : List (Op E × Out E)} (hd : Distinct m) (hr : Run m h m') :
    History (load m) h (load m') := by
  induction hr with
  | nil => exact .nil _
  | cons hs _ ih =>
    obtain ⟨ha, hd'⟩ := step_refines hd hs
    exact .cons ha (ih hd')

/-- C53. Every history of operations, by managers with any prefixes, starting from the empty registry is a
history of the abstract registry: Register binds a free key and answers true, and otherwise changes nothing
and answers false; Get and Call see exactly what is registered and not deleted; Call runs the registered
functions once each in order; FuzzyCall runs every entry whose key has the prefix exactly once and no
other. -/
theorem event_registry (h : List (Op E × Out E)) (m : Registry E) (hr : Run [] h m) :
    History Spec.Registry.empty h (load m) := by
  have := run_refines (m := ([] : Registry E)) List.nodup_nil hr
  exact this

/-- A history with two managers in which everything happens. -/
example : ∃ m : Registry Nat, Run []
    [(.register [1] [7] [10, 11], .ok true), (.register [1] [1, 7] [12], .ok false),
     (.register [2] [7] [13], .ok true), (.call [1] [7], .ran [10, 11]), (.fuzzyCall [1], .ran [10, 11]),
     (.delete [1] [7], .done), (.get [1] [7], .found none), (.fuzzyCall [], .ran [13])] m := by
  refine ⟨_, .cons (.register ..) (.cons (.register ..) (.cons (.register ..) (.cons (.call ..)
    (.cons (.fuzzyCall _ _ [[2, 7], [1, 7]] ?_) (.cons (.delete ..) (.cons (.get ..)
    (.cons (.fuzzyCall _ _ [[2, 7]] ?_) (.nil _))))))))⟩
  · exact List.Perm.refl _
  · exact List.Perm.refl _

/-- The shutdown hooks: after `RegisterShutdownHookerAddChan` reports success with a channel, the next
`GracefullyShutdown` runs the given functions in order and then the signal on that channel, as one
consecutive block; if the key was taken it returns nil and changes nothing. -/
theorem shutdown_hook (m : Registry E) (key : Bytes) (events : List E) (signal : E) :
    (load m (fullKey shutdownPrefix key) = none →
      (registerShutdownHookerAddChan m key events signal).2 = some signal ∧
      ∀ order, RangeOrder (registerShutdownHookerAddChan m key events signal).1 order →
        ∃ before after, gracefullyShutdown (registerShutdownHookerAddChan m key events signal).1 order =
          before ++ (events ++ [signal]) ++ after) ∧
    (load m (fullKey shutdownPrefix key) ≠ none →
      registerShutdownHookerAddChan m key events signal = (m, none)) := by
  have hlen : ¬ (events ++ [signal]).length < 1 := by simp
  constructor
  · intro hfree
    have e : registerShutdownHookerAddChan m key events signal =
        (store m (fullKey shutdownPrefix key) (events ++ [signal]), some signal) := by
      simp only [registerShutdownHookerAddChan, registerShutdownHooker, register, if_neg hlen, get,
        fullKey_idem, hfree, if_true]
    rw [e]
    refine ⟨rfl, fun order ho => ?_⟩
    have hmem : fullKey shutdownPrefix key ∈ order := by
      rw [List.Perm.mem_iff ho]; simp [store]
    obtain ⟨a, b, rfl⟩ := List.append_of_mem hmem
    refine ⟨fuzzyCall (store m (fullKey shutdownPrefix key) (events ++ [signal])) shutdownPrefix a,
      fuzzyCall (store m (fullKey shutdownPrefix key) (events ++ [signal])) shutdownPrefix b, ?_⟩
    have hp : shutdownPrefix.isPrefixOf (fullKey shutdownPrefix key) = true := by
      simpa using fullKey_prefix shutdownPrefix key
    simp only [gracefullyShutdown, fuzzyCall, List.flatMap_append, List.flatMap_cons, hp, if_true, call, get,
      fullKey_idem, load_store, List.append_assoc]
  · intro h
    obtain ⟨x, hx⟩ := Option.ne_none_iff_exists'.1 h
    simp only [registerShutdownHookerAddChan, registerShutdownHooker, register, if_neg hlen, get,
      fullKey_idem, hx]
    rfl

/-! ## C54 -/

/-- All goroutines at the beginning of `Register`. -/
def concStart (m : Registry E) : Conc E := ⟨m, fun _ => .start⟩

theorem concRun_concat (pre key : Nat → Bytes) (events : Nat → List E) (s : Conc E) (l : List Nat) (i : Nat) :
    concRun pre key events s (l ++ [i]) = concStep pre key events (concRun pre key events s l) i := by
  simp [concRun]

/-- The invariant of concurrent registration of a key `k` that was free at the start. -/
structure ConcInv (pre key : Nat → Bytes) (events : Nat → List E) (k : Bytes) (s : Conc E) : Prop where
  kept : ∀ v, load s.map k = some v →
    ∃ i, fullKey (pre i) (key i) = k ∧ s.pc i = .returned true ∧ v = events i
  won : ∀ i, fullKey (pre i) (key i) = k → s.pc i = .returned true → load s.map k ≠ none
  seen : ∀ i, fullKey (pre i) (key i) = k → events i ≠ [] →
    (s.pc i = .looked true ∨ s.pc i = .returned false) → load s.map k ≠ none

theorem concInv_step (pre key : Nat → Bytes) (events : Nat → List E) (k : Bytes) (s : Conc E) (i : Nat)
    (h : ConcInv pre key events k s) : ConcInv pre key events k (concStep pre key events s i) := by
  unfold concStep
  cases hpc : s.pc i with
  | start =>
    simp only
    split
    · rename_i hl
      have he : events i = [] := List.length_eq_zero_iff.1 (by omega)
      constructor
      · intro v hv
        obtain ⟨j, h1, h2, h3⟩ := h.kept v hv
        exact ⟨j, h1, by dsimp only; rw [if_neg (by rintro rfl; rw [hpc] at h2; cases h2)]; exact h2, h3⟩
      · intro j h1 h2
        dsimp only at h2 ⊢
        split at h2
        · cases h2
        · exact h.won j h1 h2
      · intro j h1 h2 h3
        dsimp only at h3 ⊢
        by_cases hj : j = i
        · subst hj; exact absurd he h2
        · simp only [if_neg hj] at h3; exact h.seen j h1 h2 h3
    · constructor
      · intro v hv
        obtain ⟨j, h1, h2, h3⟩ := h.kept v hv
        exact ⟨j, h1, by dsimp only; rw [if_neg (by rintro rfl; rw [hpc] at h2; cases h2)]; exact h2, h3⟩
      · intro j h1 h2
        dsimp only at h2 ⊢
        split at h2
        · cases h2
        · exact h.won j h1 h2
      · intro j h1 h2 h3
        dsimp only at h3 ⊢
        by_cases hj : j = i
        · subst hj
          simp only [if_true] at h3
          rcases h3 with h3 | h3
          · rw [Pc.looked.injEq] at h3
            rw [get, fullKey_idem, h1] at h3
            intro e; rw [e] at h3; cases h3
          · cases h3
        · simp only [if_neg hj] at h3; exact h.seen j h1 h2 h3
  | looked b =>
    cases b with
    | true =>
      constructor
      · intro v hv
        obtain ⟨j, h1, h2, h3⟩ := h.kept v hv
        exact ⟨j, h1, by dsimp only; rw [if_neg (by rintro rfl; rw [hpc] at h2; cases h2)]; exact h2, h3⟩
      · intro j h1 h2
        dsimp only at h2 ⊢
        split at h2
        · cases h2
        · exact h.won j h1 h2
      · intro j h1 h2 h3
        dsimp only at h3 ⊢
        by_cases hj : j = i
        · subst hj; exact h.seen j h1 h2 (.inl hpc)
        · simp only [if_neg hj] at h3; exact h.seen j h1 h2 h3
    | false =>
      have hmono : load s.map k ≠ none →
          load (store s.map (fullKey (pre i) (key i)) (events i)) k ≠ none := by
        intro hh; rw [load_store]; split
        · simp
        · exact hh
      constructor
      · intro v hv
        dsimp only at hv ⊢
        rw [load_store] at hv
        split at hv
        · rename_i hk
          refine ⟨i, hk.symm, by simp, by simpa using hv.symm⟩
        · obtain ⟨j, h1, h2, h3⟩ := h.kept v hv
          exact ⟨j, h1, by rw [if_neg (by rintro rfl; rw [hpc] at h2; cases h2)]; exact h2, h3⟩
      · intro j h1 h2
        dsimp only at h2 ⊢
        by_cases hj : j = i
        · subst hj; rw [load_store, if_pos h1.symm]; simp
        · rw [if_neg hj] at h2; exact hmono (h.won j h1 h2)
      · intro j h1 h2 h3
        dsimp only at h3 ⊢
        by_cases hj : j = i
        · subst hj; rw [load_store, if_pos h1.symm]; simp
        · simp only [if_neg hj] at h3; exact hmono (h.seen j h1 h2 h3)
  | returned b => exact h

theorem concInv_run (pre key : Nat → Bytes) (events : Nat → List E) (k : Bytes) (l : List Nat) (s : Conc E)
    (h : ConcInv pre key events k s) : ConcInv pre key events k (concRun pre key events s l) := by
  induction l generalizing s with
  | nil => exact h
  | cons i l ih => exact ih _ (concInv_step pre key events k s i h)

theorem concInv_start (pre key : Nat → Bytes) (events : Nat → List E) (k : Bytes) (m : Registry E)
    (hfree : load m k = none) : ConcInv pre key events k (concStart m) := by
  constructor
  · intro v hv; simp [concStart, hfree] at hv
  · intro i _ h; cases h
  · rintro i _ _ (h | h) <;> cases h

/-- C54, what holds in every interleaving: for a key that was free, as soon as some registration of it with
functions has returned there is one that returned true, the key is bound, and what is bound to it are the
functions of a registration that returned true. Missing: that only one returns true (see
`concurrent_register_fails`). -/
theorem concurrent_register_partial (pre key : Nat → Bytes) (events : Nat → List E) (m : Registry E)
    (sched : List Nat) (k : Bytes) (hfree : load m k = none) (i : Nat) (b : Bool)
    (hi : fullKey (pre i) (key i) = k) (he : events i ≠ [])
    (hret : (concRun pre key events (concStart m) sched).pc i = .returned b) :
    ∃ w, fullKey (pre w) (key w) = k ∧
      (concRun pre key events (concStart m) sched).pc w = .returned true ∧
      load (concRun pre key events (concStart m) sched).map k = some (events w) := by
  have hinv := concInv_run pre key events k sched _ (concInv_start pre key events k m hfree)
  have hne : load (concRun pre key events (concStart m) sched).map k ≠ none := by
    cases b with
    | true => exact hinv.won i hi hret
    | false => exact hinv.seen i hi he (.inr hret)
  obtain ⟨v, hv⟩ := Option.ne_none_iff_exists'.1 hne
  obtain ⟨w, h1, h2, h3⟩ := hinv.kept v hv
  exact ⟨w, h1, h2, by rw [hv, h3]⟩

/-- If the goroutines run one after the other, the first wins and all others are refused. -/
theorem sequential_register_partial (pre key : Nat → Bytes) (events : Nat → List E) (m : Registry E)
    (k : Bytes) (hfree : load m k = none) (first : Nat) (others : List Nat)
    (hk : ∀ i ∈ first :: others, fullKey (pre i) (key i) = k ∧ events i ≠ [])
    (hd : (first :: others).Nodup) :
    let s := concRun pre key events (concStart m) ((first :: others).flatMap fun i => [i, i])
    s.pc first = .returned true ∧ (∀ i ∈ others, s.pc i = .returned false) ∧
    load s.map k = some (events first) := by
  have hlen : ∀ i ∈ first :: others, ¬ (events i).length < 1 := fun i hi => by
    have := (hk i hi).2
    have : (events i).length ≠ 0 := fun e => this (List.length_eq_zero_iff.1 e)
    omega
  have h1 : concRun pre key events (concStart m) [first, first] =
      ⟨store m k (events first), fun j => if j = first then .returned true else .start⟩ := by
    simp only [concRun, List.foldl_cons, List.foldl_nil, concStart]
    have e1 : concStep pre key events ⟨m, fun _ => .start⟩ first =
        ⟨m, fun j => if j = first then .looked false else .start⟩ := by
      simp only [concStep, if_neg (hlen first (by simp)), get, (hk first (by simp)).1,
        fullKey_fix (hk first (by simp)).1, hfree,
        Option.isSome_none]
    rw [e1]
    simp only [concStep, if_true, (hk first (by simp)).1, Conc.mk.injEq, true_and]
    funext j
    split <;> rfl
  have h2 : ∀ (done todo : List Nat), (∀ i ∈ todo, fullKey (pre i) (key i) = k ∧ ¬ (events i).length < 1) →
      (first :: todo).Nodup → (∀ i ∈ todo, i ∉ done) →
      concRun pre key events ⟨store m k (events first), fun j => if j = first then .returned true
        else if j ∈ done then .returned false else .start⟩ (todo.flatMap fun i => [i, i]) =
      ⟨store m k (events first), fun j => if j = first then .returned true
        else if j ∈ done ++ todo then .returned false else .start⟩ := by
    intro done todo
    induction todo generalizing done with
    | nil => intro _ _ _; simp [concRun]
    | cons t ts ih =>
      intro ha hn hnd
      have hnt : t ≠ first := by
        rintro rfl
        simp at hn
      rw [List.flatMap_cons]
      have e1 : concRun pre key events ⟨store m k (events first), fun j => if j = first then .returned true
          else if j ∈ done then .returned false else .start⟩ ([t, t]) =
          ⟨store m k (events first), fun j => if j = first then .returned true
          else if j ∈ done ++ [t] then .returned false else .start⟩ := by
        simp only [concRun, List.foldl_cons, List.foldl_nil]
        have : concStep pre key events ⟨store m k (events first), fun j => if j = first then .returned true
            else if j ∈ done then .returned false else .start⟩ t =
            ⟨store m k (events first), fun j => if j = t then .looked true else
              if j = first then .returned true else if j ∈ done then .returned false else .start⟩ := by
          simp only [concStep, if_neg hnt, if_neg (hnd t (by simp)), if_neg (ha t (by simp)).2, get,
            (ha t (by simp)).1, fullKey_fix (ha t (by simp)).1, load_store, if_true, Option.isSome_some]
        rw [this]
        simp only [concStep, if_true, Conc.mk.injEq, true_and]
        funext j
        by_cases hj : j = t
        · subst hj; simp [hnt]
        · simp [hj]
      have e2 : concRun pre key events ⟨store m k (events first), fun j => if j = first then .returned true
          else if j ∈ done then .returned false else .start⟩ ([t, t] ++ ts.flatMap fun i => [i, i]) =
          concRun pre key events (concRun pre key events ⟨store m k (events first), fun j => if j = first
            then .returned true else if j ∈ done then .returned false else .start⟩ [t, t])
            (ts.flatMap fun i => [i, i]) := by
        simp only [concRun, List.foldl_append]
      rw [e2, e1, ih (done ++ [t])]
      · simp [List.append_assoc]
      · intro i hi; exact ha i (by simp [hi])
      · rw [List.nodup_cons, List.nodup_cons] at hn
        rw [List.nodup_cons]
        exact ⟨fun h => hn.1 (by simp [h]), hn.2.2⟩
      · intro i hi
        have hx : t ∉ ts := by
          rw [List.nodup_cons, List.nodup_cons] at hn
          exact hn.2.1
        have := hnd i (by simp [hi])
        simp only [List.mem_append, List.mem_singleton, not_or]
        exact ⟨this, by rintro rfl; exact hx hi⟩
  have h3 := h2 [] others (fun i hi => ⟨(hk i (by simp [hi])).1, hlen i (by simp [hi])⟩) hd (by simp)
  have h4 : concRun pre key events (concStart m) ((first :: others).flatMap fun i => [i, i]) =
      concRun pre key events (concRun pre key events (concStart m) [first, first])
        (others.flatMap fun i => [i, i]) := by
    simp only [concRun, List.flatMap_cons, List.foldl_append]
  have h5 : (fun j => if j = first then Pc.returned true else .start) = fun j =>
      if j = first then Pc.returned true else if j ∈ ([] : List Nat) then .returned false else .start := by
    funext j; simp
  rw [h4, h1, h5, h3]
  refine ⟨by simp, fun i hi => ?_, by rw [load_store, if_pos rfl]⟩
  have : i ≠ first := by rintro rfl; simp at hd; exact hd.1 hi
  simp [this, hi]

/-- C54 fails, for every free key and any two goroutines registering functions for it: there is an
interleaving in which both get true, and the first one's functions are lost. -/
theorem concurrent_register_fails (pre key : Nat → Bytes) (events : Nat → List E) (m : Registry E)
    (a b : Nat) (hab : a ≠ b) (k : Bytes) (hfree : load m k = none)
    (ha : fullKey (pre a) (key a) = k) (hb : fullKey (pre b) (key b) = k)
    (hea : events a ≠ []) (heb : events b ≠ []) :
    ∃ sched, let s := concRun pre key events (concStart m) sched
      s.pc a = .returned true ∧ s.pc b = .returned true ∧ load s.map k = some (events b) := by
  refine ⟨[a, b, a, b], ?_⟩
  have hla : ¬ (events a).length < 1 := fun h => hea (List.length_eq_zero_iff.1 (by omega))
  have hlb : ¬ (events b).length < 1 := fun h => heb (List.length_eq_zero_iff.1 (by omega))
  have hba : b ≠ a := fun e => hab e.symm
  simp only [concRun, List.foldl_cons, List.foldl_nil, concStart, concStep, if_neg hla, if_neg hba,
    if_neg hlb, get, ha, hb, fullKey_fix ha, fullKey_fix hb, hfree, Option.isSome_none, if_neg hab, if_true, load_store,
    and_self]

/-- The hypotheses: two goroutines, one key. -/
example : (0 : Nat) ≠ 1 ∧ load ([] : Registry Nat) [1, 7] = none ∧ fullKey [1] [7] = [1, 7] ∧
    fullKey [1] [1, 7] = [1, 7] ∧ ([10] : List Nat) ≠ [] := by decide

end Gosms.Events
