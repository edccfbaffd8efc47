import Verif.Props.SyncMap

/-!
# C57: expired results are handed over exactly once
-/

namespace Gosms.Client
open SyncMap

theorem cleanLoop_spec (heap : List Result) (handler : Bool) (d now : Int) (entries : List (Key × List Nat))
    (keys : List Key) (batch : List Nat) (out : List (List Nat)) :
    (cleanLoop heap handler d now entries (keys, batch, out)).1 =
      keys ++ (entries.filter fun p => entryExpired heap d now p.2).map (·.1) ∧
    (cleanLoop heap handler d now entries (keys, batch, out)).2.2.flatten ++
        (cleanLoop heap handler d now entries (keys, batch, out)).2.1 =
      out.flatten ++ batch ++ (entries.filter fun p => entryExpired heap d now p.2).flatMap (·.2) := by
  induction entries generalizing keys batch out with
  | nil => simp [cleanLoop]
  | cons p rest ih =>
    obtain ⟨k, results⟩ := p
    simp only [cleanLoop]
    by_cases hx : entryExpired heap d now results = true
    · simp only [hx, if_true]
      split
      · obtain ⟨h1, h2⟩ := ih (keys ++ [k]) [] (out ++ [batch ++ results])
        refine ⟨?_, ?_⟩
        · rw [h1]; simp [hx]
        · rw [h2]; simp [hx]
      · obtain ⟨h1, h2⟩ := ih (keys ++ [k]) (batch ++ results) out
        refine ⟨?_, ?_⟩
        · rw [h1]; simp [hx]
        · rw [h2]; simp [hx]
    · simp only [hx, Bool.false_eq_true, if_false]
      split
      · obtain ⟨h1, h2⟩ := ih keys [] (out ++ [batch])
        refine ⟨?_, ?_⟩
        · rw [h1]; simp [hx]
        · rw [h2]; simp [hx]
      · obtain ⟨h1, h2⟩ := ih keys batch out
        refine ⟨?_, ?_⟩
        · rw [h1]; simp [hx]
        · rw [h2]; simp [hx]

theorem cleanLoop_sizes (heap : List Result) (d now : Int) (entries : List (Key × List Nat))
    (keys : List Key) (batch : List Nat) (out : List (List Nat)) (h : ∀ b ∈ out, 64 ≤ b.length) :
    ∀ b ∈ (cleanLoop heap true d now entries (keys, batch, out)).2.2, 64 ≤ b.length := by
  induction entries generalizing keys batch out with
  | nil => exact h
  | cons p rest ih =>
    obtain ⟨k, results⟩ := p
    unfold cleanLoop
    dsimp only
    generalize (if entryExpired heap d now results = true then keys ++ [k] else keys) = keys'
    generalize (if entryExpired heap d now results = true then batch ++ results else batch) = batch'
    by_cases hc : batch'.length ≥ 64
    · rw [if_pos ⟨rfl, hc⟩]
      apply ih
      intro b hb
      rcases List.mem_append.1 hb with hb | hb
      · exact h b hb
      · rw [List.mem_singleton] at hb; rw [hb]; exact hc
    · rw [if_neg (fun hh => hc hh.2)]
      exact ih _ _ _ h

theorem cleanLoop_no_handler (heap : List Result) (d now : Int) (entries : List (Key × List Nat))
    (keys : List Key) (batch : List Nat) (out : List (List Nat)) :
    (cleanLoop heap false d now entries (keys, batch, out)).2.2 = out := by
  induction entries generalizing keys batch out with
  | nil => rfl
  | cons p rest ih =>
    obtain ⟨k, results⟩ := p
    simp only [cleanLoop]
    rw [if_neg (by simp)]
    exact ih _ _ _

/-- What one cleaning does with the entries it visits, in whatever order and number: the keys of the expired entries
are removed; with a handler, the batches together contain exactly the results of the expired entries, each as
often as it occurs there; no batch is empty; all batches but the last have at least 64 results. -/
theorem clean_batches (heap : List Result) (handler : Bool) (d now : Int) (entries : List (Key × List Nat)) :
    (cleanQueryCacheMap heap handler d now entries).1 =
      (entries.filter fun p => entryExpired heap d now p.2).map (·.1) ∧
    (handler = true → (cleanQueryCacheMap heap handler d now entries).2.flatten =
      (entries.filter fun p => entryExpired heap d now p.2).flatMap (·.2)) ∧
    (∀ b ∈ (cleanQueryCacheMap heap handler d now entries).2, b ≠ []) ∧
    (∀ b ∈ (cleanQueryCacheMap heap handler d now entries).2.dropLast, 64 ≤ b.length) ∧
    (handler = false → (cleanQueryCacheMap heap handler d now entries).2 = []) := by
  obtain ⟨h1, h2⟩ := cleanLoop_spec heap handler d now entries [] [] []
  have h3 := cleanLoop_sizes heap d now entries [] [] [] (by simp)
  have h4 := cleanLoop_no_handler heap d now entries [] [] []
  unfold cleanQueryCacheMap
  generalize hL : cleanLoop heap handler d now entries ([], [], []) = L at *
  obtain ⟨keys, batch, out⟩ := L
  simp only at h1 h2 ⊢
  simp only [List.nil_append, List.flatten_nil] at h1 h2
  cases handler with
  | false =>
    rw [hL] at h4
    simp only at h4
    subst h4
    refine ⟨h1, by simp, by simp, by simp, by simp⟩
  | true =>
    rw [hL] at h3
    simp only at h3
    refine ⟨h1, ?_, ?_, ?_, by simp⟩
    · intro _
      rw [← h2]
      by_cases hb : batch.length > 0
      · rw [if_pos ⟨rfl, hb⟩]; simp
      · have : batch = [] := by
          cases batch with
          | nil => rfl
          | cons a l => simp at hb
        rw [if_neg (by simp [this]), this]; simp
    · intro b hb
      split at hb
      · rename_i hc
        rcases List.mem_append.1 hb with hb | hb
        · have := h3 b hb
          intro he; subst he; simp at this
        · rw [List.mem_singleton] at hb
          subst hb
          intro he; subst he; simp at hc
      · have := h3 b hb
        intro he; subst he; simp at this
    · intro b hb
      split at hb
      · rw [List.dropLast_concat] at hb; exact h3 b hb
      · exact h3 b (List.dropLast_subset _ hb)

theorem mem_visit {α : Type} {m : SyncMap α} {order : List Key} {k : Key} {v : α} :
    (k, v) ∈ visit m order ↔ k ∈ order ∧ m.load k = some v := by
  unfold visit
  rw [List.mem_filterMap]
  constructor
  · rintro ⟨k', hk, h⟩
    obtain ⟨v', hv, he⟩ := Option.map_eq_some_iff.1 h
    injection he with h1 h2
    subst h1; subst h2
    exact ⟨hk, hv⟩
  · rintro ⟨hk, hv⟩
    exact ⟨k, hk, by rw [hv]; rfl⟩

/-- C57, one cleaning in any state: afterwards exactly the entries visited and expired are gone, all others
unchanged; with a handler exactly the results of those entries have been handed over, with every entry visited
once. An entry is expired when its first result was sent more than `d` ago, or when it has no results. -/
theorem clean_exact (s : State) (order : List Key) (handler : Bool) (d now : Int) (k : Key) :
    ((step s (.cleanQueries order handler d now)).queries.load k =
      match s.queries.load k with
      | some l => if k ∈ order ∧ entryExpired s.heap d now l = true then none else some l
      | none => none) ∧
    (handler = true → (step s (.cleanQueries order handler d now)).handed.flatten =
      s.handed.flatten ++ ((visit s.queries order).filter fun p => entryExpired s.heap d now p.2).flatMap (·.2)) := by
  obtain ⟨h1, h2, _⟩ := clean_batches s.heap handler d now (visit s.queries order)
  constructor
  · simp only [step, load_deleteAll, h1]
    cases hl : s.queries.load k with
    | none => simp
    | some l =>
      simp only
      have : k ∈ ((visit s.queries order).filter fun p => entryExpired s.heap d now p.2).map (·.1) ↔
          k ∈ order ∧ entryExpired s.heap d now l = true := by
        rw [List.mem_map]
        constructor
        · rintro ⟨⟨k', l'⟩, hp, rfl⟩
          rw [List.mem_filter, mem_visit] at hp
          obtain ⟨⟨h3, h4⟩, h5⟩ := hp
          rw [hl] at h4
          injection h4 with h4
          subst h4
          exact ⟨h3, h5⟩
        · rintro ⟨h3, h4⟩
          exact ⟨(k, l), List.mem_filter.2 ⟨mem_visit.2 ⟨h3, hl⟩, h4⟩, rfl⟩
      by_cases hc : k ∈ order ∧ entryExpired s.heap d now l = true
      · rw [if_pos (this.2 hc), if_pos hc]
      · rw [if_neg (fun h => hc (this.1 h)), if_neg hc]
  · intro hh
    simp only [step, List.flatten_append, h2 hh]

/-! ## Over whole histories -/

/-- Who holds the result with index `i`. -/
structure Owned (s : State) : Prop where
  pendBound : ∀ c, ∀ i ∈ s.pending c, i < s.heap.length
  pendNodup : ∀ c, (s.pending c).Nodup
  pendDisj : ∀ c c' i, i ∈ s.pending c → i ∈ s.pending c' → c = c'
  distinct : Distinct s.queries
  queryBound : ∀ k l, (k, l) ∈ s.queries → ∀ i ∈ l, i < s.heap.length
  queryNodup : ∀ k l, (k, l) ∈ s.queries → l.Nodup
  queryDisj : ∀ k l k' l' i, (k, l) ∈ s.queries → (k', l') ∈ s.queries → i ∈ l → i ∈ l' → k = k'
  queryPend : ∀ k l c i, (k, l) ∈ s.queries → i ∈ l → i ∉ s.pending c
  handedNodup : s.handed.flatten.Nodup
  handedBound : ∀ i ∈ s.handed.flatten, i < s.heap.length
  handedPend : ∀ i ∈ s.handed.flatten, ∀ c, i ∉ s.pending c
  handedQuery : ∀ i ∈ s.handed.flatten, ∀ k l, (k, l) ∈ s.queries → i ∉ l

theorem Owned.heap {s s' : State} (h : Owned s) (hh : s'.heap.length = s.heap.length) (hp : s'.pending = s.pending)
    (hq : s'.queries = s.queries) (hd : s'.handed = s.handed) : Owned s' := by
  constructor
  · rw [hp, hh]; exact h.pendBound
  · rw [hp]; exact h.pendNodup
  · rw [hp]; exact h.pendDisj
  · rw [hq]; exact h.distinct
  · rw [hq, hh]; exact h.queryBound
  · rw [hq]; exact h.queryNodup
  · rw [hq]; exact h.queryDisj
  · rw [hq, hp]; exact h.queryPend
  · rw [hd]; exact h.handedNodup
  · rw [hd, hh]; exact h.handedBound
  · rw [hd, hp]; exact h.handedPend
  · rw [hd, hq]; exact h.handedQuery

theorem sendPackets_fields (s : State) (phone : Bytes) (now : Int) (qs : List UInt64) :
    (sendPackets s phone now qs).heap = s.heap ++ qs.map (fun q => { phone := phone, sequenceId := q, sendTime := now }) ∧
    (sendPackets s phone now qs).pending = s.pending ∧ (sendPackets s phone now qs).queries = s.queries ∧
    (sendPackets s phone now qs).handed = s.handed ∧ (sendPackets s phone now qs).msgMap = s.msgMap := by
  induction qs generalizing s with
  | nil => simp [sendPackets]
  | cons q qs ih =>
    obtain ⟨h1, h2, h3, h4, h5⟩ := ih { s with
      heap := s.heap ++ [{ phone := phone, sequenceId := q, sendTime := now }]
      seqMap := s.seqMap.store (.u64 q) s.heap.length }
    simp only [sendPackets]
    refine ⟨?_, h2, h3, h4, h5⟩
    rw [h1]; simp

theorem nodup_append_of {l1 l2 : List Nat} (h1 : l1.Nodup) (h2 : l2.Nodup) (h : ∀ i ∈ l1, i ∉ l2) :
    (l1 ++ l2).Nodup := by
  rw [List.nodup_append]
  exact ⟨h1, h2, fun a ha b hb he => h a ha (he ▸ hb)⟩

theorem visit_keys_nodup {α : Type} {m : SyncMap α} {order : List Key} (h : order.Nodup) :
    ((visit m order).map (·.1)).Nodup := by
  induction order with
  | nil => simp [visit]
  | cons k order ih =>
    rw [List.nodup_cons] at h
    have e : visit m (k :: order) = ((m.load k).map fun v => (k, v)).toList ++ visit m order := by
      unfold visit
      rw [List.filterMap_cons]
      cases m.load k <;> rfl
    rw [e]
    cases hl : m.load k with
    | none => simpa using ih h.2
    | some v =>
      simp only [Option.map_some, Option.toList_some, List.cons_append, List.nil_append, List.map_cons, List.nodup_cons]
      refine ⟨?_, ih h.2⟩
      intro hk
      obtain ⟨⟨k', v'⟩, hp, hk'⟩ := List.mem_map.1 hk
      simp only at hk'
      subst hk'
      exact h.1 (mem_visit.1 hp).1

theorem flatMap_nodup (L : List (Key × List Nat)) (hk : (L.map (·.1)).Nodup) (hn : ∀ p ∈ L, p.2.Nodup)
    (hd : ∀ p ∈ L, ∀ q ∈ L, ∀ i, i ∈ p.2 → i ∈ q.2 → p.1 = q.1) : (L.flatMap (·.2)).Nodup := by
  induction L with
  | nil => simp
  | cons p L ih =>
    rw [List.map_cons, List.nodup_cons] at hk
    rw [List.flatMap_cons]
    apply nodup_append_of (hn p (by simp))
      (ih hk.2 (fun q hq => hn q (by simp [hq])) fun a ha b hb => hd a (by simp [ha]) b (by simp [hb]))
    intro i hi hj
    obtain ⟨q, hq, hiq⟩ := List.mem_flatMap.1 hj
    have := hd p (by simp) q (by simp [hq]) i hi hiq
    exact hk.1 (List.mem_map.2 ⟨q, hq, this.symm⟩)

/-- `Range` visits a key at most once. -/
def Step.Proper : Step → Prop
  | .cleanQueries order _ _ _ => order.Nodup
  | _ => True

theorem owned_step {s : State} (h : Owned s) (x : Step) (hx : x.Proper) : Owned (step s x) := by
  cases x with
  | send call phone seqs ok now =>
    obtain ⟨h1, h2, h3, h4, _⟩ := sendPackets_fields s phone now seqs
    simp only [step, onSend]
    have hlen : s.heap.length ≤ (sendPackets s phone now seqs).heap.length := by rw [h1]; simp
    have hlen2 : (sendPackets s phone now seqs).heap.length = s.heap.length + seqs.length := by rw [h1]; simp
    have base : Owned (sendPackets s phone now seqs) := by
      constructor
      · rw [h2]; intro c i hi; exact Nat.lt_of_lt_of_le (h.pendBound c i hi) hlen
      · rw [h2]; exact h.pendNodup
      · rw [h2]; exact h.pendDisj
      · rw [h3]; exact h.distinct
      · rw [h3]; intro k l hk i hi; exact Nat.lt_of_lt_of_le (h.queryBound k l hk i hi) hlen
      · rw [h3]; exact h.queryNodup
      · rw [h3]; exact h.queryDisj
      · rw [h3, h2]; exact h.queryPend
      · rw [h4]; exact h.handedNodup
      · rw [h4]; intro i hi; exact Nat.lt_of_lt_of_le (h.handedBound i hi) hlen
      · rw [h4, h2]; exact h.handedPend
      · rw [h4, h3]; exact h.handedQuery
    split
    · have hfresh : ∀ i, i ∈ List.range' s.heap.length seqs.length → s.heap.length ≤ i ∧ i < s.heap.length + seqs.length := by
        intro i hi; rw [List.mem_range'_1] at hi; omega
      constructor
      · intro c i hi
        dsimp only at hi ⊢
        split at hi
        · rcases List.mem_append.1 hi with hi | hi
          · exact Nat.lt_of_lt_of_le (h.pendBound c i hi) hlen
          · rw [hlen2]; exact (hfresh i hi).2
        · exact Nat.lt_of_lt_of_le (h.pendBound c i hi) hlen
      · intro c
        dsimp only
        split
        · apply nodup_append_of (h.pendNodup c) List.nodup_range'
          intro i hi hj
          have := h.pendBound c i hi
          have := hfresh i hj
          omega
        · exact h.pendNodup c
      · intro c c' i hi hi'
        dsimp only at hi hi'
        split at hi <;> split at hi'
        · rename_i e1 e2; rw [e1, e2]
        · rcases List.mem_append.1 hi with hi | hi
          · exact h.pendDisj c c' i hi hi'
          · have := h.pendBound c' i hi'
            have := hfresh i hi
            omega
        · rcases List.mem_append.1 hi' with hi' | hi'
          · exact h.pendDisj c c' i hi hi'
          · have := h.pendBound c i hi
            have := hfresh i hi'
            omega
        · exact h.pendDisj c c' i hi hi'
      · exact base.distinct
      · exact base.queryBound
      · exact base.queryNodup
      · exact base.queryDisj
      · intro k l c i hk hi
        dsimp only at hk ⊢
        rw [h3] at hk
        split
        · intro hm
          rcases List.mem_append.1 hm with hm | hm
          · exact h.queryPend k l c i hk hi hm
          · have := h.queryBound k l hk i hi
            have := hfresh i hm
            omega
        · exact h.queryPend k l c i hk hi
      · exact base.handedNodup
      · exact base.handedBound
      · intro i hi c
        dsimp only at hi ⊢
        rw [h4] at hi
        split
        · intro hm
          rcases List.mem_append.1 hm with hm | hm
          · exact h.handedPend i hi c hm
          · have := h.handedBound i hi
            have := hfresh i hm
            omega
        · exact h.handedPend i hi c
      · exact base.handedQuery
    · exact base
  | save call id =>
    simp only [step, onSave]
    have hlen : ∀ f : Nat → Result → Result, (s.heap.mapIdx f).length = s.heap.length := by simp
    constructor
    · intro c i hi
      dsimp only at hi ⊢
      rw [hlen]
      split at hi
      · simp at hi
      · exact h.pendBound c i hi
    · intro c
      dsimp only
      split
      · simp
      · exact h.pendNodup c
    · intro c c' i hi hi'
      dsimp only at hi hi'
      split at hi
      · simp at hi
      · split at hi'
        · simp at hi'
        · exact h.pendDisj c c' i hi hi'
    · exact h.distinct.store _ _
    · intro k l hk i hi
      dsimp only at hk ⊢
      rw [hlen]
      rcases List.mem_cons.1 hk with hk | hk
      · injection hk with hk1 hk2; rw [hk2] at hi; exact h.pendBound call i hi
      · exact h.queryBound k l (mem_delete hk) i hi
    · intro k l hk
      rcases List.mem_cons.1 hk with hk | hk
      · injection hk with hk1 hk2; rw [hk2]; exact h.pendNodup call
      · exact h.queryNodup k l (mem_delete hk)
    · intro k l k' l' i hk hk' hi hi'
      rcases List.mem_cons.1 hk with hk | hk <;> rcases List.mem_cons.1 hk' with hk' | hk'
      · injection hk with hk1 hk2; injection hk' with hk1' hk2'; rw [hk1, hk1']
      · injection hk with hk1 hk2
        rw [hk2] at hi
        exact absurd hi (h.queryPend k' l' call i (mem_delete hk') hi')
      · injection hk' with hk1 hk2
        rw [hk2] at hi'
        exact absurd hi' (h.queryPend k l call i (mem_delete hk) hi)
      · exact h.queryDisj k l k' l' i (mem_delete hk) (mem_delete hk') hi hi'
    · intro k l c i hk hi
      dsimp only
      split
      · simp
      · rename_i hc
        rcases List.mem_cons.1 hk with hk | hk
        · injection hk with hk1 hk2
          rw [hk2] at hi
          intro hm
          exact hc (h.pendDisj c call i hm hi)
        · exact h.queryPend k l c i (mem_delete hk) hi
    · exact h.handedNodup
    · intro i hi
      dsimp only
      rw [hlen]; exact h.handedBound i hi
    · intro i hi c
      dsimp only
      split
      · simp
      · exact h.handedPend i hi c
    · intro i hi k l hk
      rcases List.mem_cons.1 hk with hk | hk
      · injection hk with hk1 hk2; rw [hk2]; exact h.handedPend i hi call
      · exact h.handedQuery i hi k l (mem_delete hk)
  | resp r now =>
    simp only [step, onResp]
    split
    · exact h
    · exact h.heap (by simp) rfl rfl rfl
  | report r now =>
    simp only [step, onReport]
    split
    · exact h
    · exact h.heap (by simp) rfl rfl rfl
  | cleanSeqs d now => exact h.heap rfl rfl rfl rfl
  | cleanMsgs d now => exact h.heap rfl rfl rfl rfl
  | cleanQueries order handler d now =>
    obtain ⟨hkeys, hflat, _, _, hnone⟩ := clean_batches s.heap handler d now (visit s.queries order)
    simp only [step]
    generalize hC : cleanQueryCacheMap s.heap handler d now (visit s.queries order) = C at *
    obtain ⟨keys, batches⟩ := C
    simp only at hkeys hflat hnone ⊢
    have hmem : ∀ i ∈ batches.flatten, ∃ k l, (k, l) ∈ s.queries ∧ i ∈ l ∧ k ∈ keys := by
      intro i hi
      cases handler with
      | false => rw [hnone rfl] at hi; simp at hi
      | true =>
        rw [hflat rfl] at hi
        obtain ⟨⟨k, l⟩, hp, hil⟩ := List.mem_flatMap.1 hi
        refine ⟨k, l, mem_of_load (mem_visit.1 (List.mem_filter.1 hp).1).2, hil, ?_⟩
        rw [hkeys]
        exact List.mem_map.2 ⟨_, hp, rfl⟩
    have hgone : ∀ k l, (k, l) ∈ deleteAll s.queries keys → k ∉ keys := by
      intro k l hp hk
      have h1 := load_of_mem (h.distinct.deleteAll keys) hp
      rw [load_deleteAll, if_pos hk] at h1
      cases h1
    constructor
    · exact h.pendBound
    · exact h.pendNodup
    · exact h.pendDisj
    · exact h.distinct.deleteAll keys
    · intro k l hk; exact h.queryBound k l (mem_deleteAll hk)
    · intro k l hk; exact h.queryNodup k l (mem_deleteAll hk)
    · intro k l k' l' i hk hk'; exact h.queryDisj k l k' l' i (mem_deleteAll hk) (mem_deleteAll hk')
    · intro k l c i hk; exact h.queryPend k l c i (mem_deleteAll hk)
    · dsimp only
      rw [List.flatten_append]
      apply nodup_append_of h.handedNodup
      · cases handler with
        | false => rw [hnone rfl]; simp
        | true =>
          rw [hflat rfl]
          apply flatMap_nodup
          · exact (visit_keys_nodup hx).sublist (List.filter_sublist.map _)
          · rintro ⟨k, l⟩ hp
            exact h.queryNodup k l (mem_of_load (mem_visit.1 (List.mem_filter.1 hp).1).2)
          · rintro ⟨k, l⟩ hp ⟨k', l'⟩ hq i hi hi'
            exact h.queryDisj k l k' l' i (mem_of_load (mem_visit.1 (List.mem_filter.1 hp).1).2)
              (mem_of_load (mem_visit.1 (List.mem_filter.1 hq).1).2) hi hi'
      · intro i hi hj
        obtain ⟨k, l, hk, hil, _⟩ := hmem i hj
        exact h.handedQuery i hi k l hk hil
    · intro i hi
      dsimp only at hi ⊢
      rw [List.flatten_append] at hi
      rcases List.mem_append.1 hi with hi | hi
      · exact h.handedBound i hi
      · obtain ⟨k, l, hk, hil, _⟩ := hmem i hi
        exact h.queryBound k l hk i hil
    · intro i hi c
      dsimp only at hi ⊢
      rw [List.flatten_append] at hi
      rcases List.mem_append.1 hi with hi | hi
      · exact h.handedPend i hi c
      · obtain ⟨k, l, hk, hil, _⟩ := hmem i hi
        exact h.queryPend k l c i hk hil
    · intro i hi k l hk
      dsimp only at hi hk
      rw [List.flatten_append] at hi
      rcases List.mem_append.1 hi with hi | hi
      · exact h.handedQuery i hi k l (mem_deleteAll hk)
      · obtain ⟨k', l', hk', hil', hkk⟩ := hmem i hi
        intro hil
        have := h.queryDisj k l k' l' i (mem_deleteAll hk) hk' hil hil'
        subst this
        exact hgone k l hk hkk

theorem owned_run (steps : List Step) (h : ∀ x ∈ steps, x.Proper) : Owned (run steps) := by
  induction steps using snoc_induction with
  | nil =>
    constructor <;> simp [run, Distinct]
  | snoc steps x ih =>
    have e : run (steps ++ [x]) = step (run steps) x := by unfold run; rw [List.foldl_append]; rfl
    rw [e]
    exact owned_step (ih fun y hy => h y (by simp [hy])) x (h x (by simp))

/-- C57 over whole histories: no result is ever handed over twice, whatever is sent, answered and cleaned in
whatever order. -/
theorem handed_once (steps : List Step) (h : ∀ x ∈ steps, x.Proper) : (run steps).handed.flatten.Nodup :=
  (owned_run steps h).handedNodup

/-- Two messages; the first expires. -/
example : (run [.send 0 [49] [7, 8] true 0, .save 0 100, .send 1 [50] [9] true 50, .save 1 101,
      .cleanQueries [.i64 101, .i64 100] true 10 30, .cleanQueries [.i64 101] true 10 40]).handed = [[0, 1]] ∧
    query (run [.send 0 [49] [7, 8] true 0, .save 0 100, .send 1 [50] [9] true 50, .save 1 101,
      .cleanQueries [.i64 101, .i64 100] true 10 30]) 100 = .nil ∧
    query (run [.send 0 [49] [7, 8] true 0, .save 0 100, .send 1 [50] [9] true 50, .save 1 101,
      .cleanQueries [.i64 101, .i64 100] true 10 30]) 101 = .results [2] := by decide

end Gosms.Client
