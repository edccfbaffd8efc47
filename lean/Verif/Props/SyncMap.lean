import Verif.Model.Client
import Verif.Go.Bytes

/-!
# Lemmas about the model of `sync.Map`
-/

namespace Gosms.Client.SyncMap
variable {α : Type}

theorem load_nil (k : Key) : load ([] : SyncMap α) k = none := rfl

theorem load_cons (k k' : Key) (v : α) (m : SyncMap α) :
    load ((k', v) :: m) k = if k = k' then some v else load m k := by
  unfold load
  rw [List.lookup_cons]
  by_cases h : k = k'
  · subst h; simp
  · rw [if_neg h]
    have : (k == k') = false := by simpa using h
    rw [this]

theorem load_delete (m : SyncMap α) (k k' : Key) : load (m.delete k') k = if k = k' then none else load m k := by
  unfold delete
  induction m with
  | nil => split <;> rfl
  | cons p m ih =>
    obtain ⟨q, v⟩ := p
    rw [List.filter_cons]
    by_cases h : q = k'
    · subst h
      simp only [ne_eq, not_true, decide_false, Bool.false_eq_true, if_false]
      rw [ih, load_cons]
      split <;> rfl
    · rw [if_pos (by simpa using h), load_cons, ih, load_cons]
      by_cases h1 : k = q
      · subst h1; rw [if_pos rfl, if_neg h, if_pos rfl]
      · rw [if_neg h1, if_neg h1]

theorem load_store (m : SyncMap α) (k k' : Key) (v : α) :
    load (m.store k' v) k = if k = k' then some v else load m k := by
  unfold store
  rw [load_cons, load_delete]
  split <;> rfl

theorem load_deleteAll (m : SyncMap α) (keys : List Key) (k : Key) :
    load (deleteAll m keys) k = if k ∈ keys then none else load m k := by
  unfold deleteAll
  induction keys generalizing m with
  | nil => simp
  | cons a keys ih =>
    rw [List.foldl_cons, ih, load_delete]
    by_cases h1 : k ∈ keys
    · simp [h1]
    · by_cases h2 : k = a
      · simp [h2]
      · simp [h1, h2]

theorem mem_delete {m : SyncMap α} {k : Key} {p : Key × α} (h : p ∈ m.delete k) : p ∈ m := (List.mem_filter.1 h).1

theorem mem_deleteAll {m : SyncMap α} {keys : List Key} {p : Key × α} (h : p ∈ deleteAll m keys) : p ∈ m := by
  unfold deleteAll at h
  induction keys generalizing m with
  | nil => exact h
  | cons a keys ih => rw [List.foldl_cons] at h; exact mem_delete (ih h)

theorem mem_of_load {m : SyncMap α} {k : Key} {v : α} (h : load m k = some v) : (k, v) ∈ m := by
  induction m with
  | nil => cases h
  | cons p m ih =>
    obtain ⟨q, w⟩ := p
    rw [load_cons] at h
    split at h
    · rename_i hk; injection h with h; rw [hk, h]; exact List.mem_cons_self
    · exact List.mem_cons_of_mem _ (ih h)

/-- Keys are distinct. -/
def Distinct (m : SyncMap α) : Prop := (m.map (·.1)).Nodup

theorem Distinct.delete {m : SyncMap α} (h : Distinct m) (k : Key) : Distinct (m.delete k) := by
  unfold Distinct SyncMap.delete at *
  exact h.sublist (List.filter_sublist.map _)

theorem not_mem_delete (m : SyncMap α) (k : Key) : k ∉ (m.delete k).map (·.1) := by
  intro h
  obtain ⟨p, hp, rfl⟩ := List.mem_map.1 h
  have := (List.mem_filter.1 hp).2
  simp at this

theorem Distinct.store {m : SyncMap α} (h : Distinct m) (k : Key) (v : α) : Distinct (m.store k v) := by
  unfold SyncMap.store
  show ((k, v) :: m.delete k |>.map (·.1)).Nodup
  rw [List.map_cons, List.nodup_cons]
  exact ⟨not_mem_delete m k, h.delete k⟩

theorem Distinct.deleteAll {m : SyncMap α} (h : Distinct m) (keys : List Key) : Distinct (deleteAll m keys) := by
  unfold Client.deleteAll
  induction keys generalizing m with
  | nil => exact h
  | cons a keys ih => rw [List.foldl_cons]; exact ih (h.delete a)

theorem load_of_mem {m : SyncMap α} (hd : Distinct m) {k : Key} {v : α} (h : (k, v) ∈ m) : load m k = some v := by
  induction m with
  | nil => cases h
  | cons p m ih =>
    obtain ⟨q, w⟩ := p
    unfold Distinct at hd
    rw [List.map_cons, List.nodup_cons] at hd
    rw [load_cons]
    rcases List.mem_cons.1 h with h' | h'
    · injection h' with h1 h2; rw [if_pos h1, h2]
    · rw [if_neg, ih hd.2 h']
      intro he
      subst he
      exact hd.1 (List.mem_map.2 ⟨_, h', rfl⟩)

end Gosms.Client.SyncMap
