import Verif.Model.ClientRaces
import Verif.Props.ClientMemory

/-!
# C126: answers are recorded however the client's goroutines take turns
-/

namespace Gosms.ClientRaces
open Gosms.Client (Result Key SyncMap Resp Report)

/-- The receiver is recording an answer in result `i`. -/
def Spec.recording (v : Recv) (i : Nat) : Prop :=
  match v with
  | .found j _ => j = i
  | .coded j _ => j = i
  | .named j _ => j = i
  | .timed j => j = i
  | _ => False

/-- The step goes on with receiver `c`. -/
def Spec.goes (c : Nat) : Step → Bool
  | .go c' _ => c' = c
  | _ => false

theorem run_append (a b : List Step) : run (a ++ b) = b.foldl step (run a) := by
  unfold run; rw [List.foldl_append]

theorem run_snoc (a : List Step) (x : Step) : run (a ++ [x]) = step (run a) x := by rw [run_append]; rfl

theorem run_cons_append (a : List Step) (x : Step) (b : List Step) : run (a ++ x :: b) = b.foldl step (step (run a) x) := by
  rw [run_append]; rfl

/-- A property of states kept by every step of a list is there after the list. -/
theorem foldl_keep {P : State → Prop} {Q : Step → Prop} (hs : ∀ s x, P s → Q x → P (step s x)) (l : List Step) (hq : ∀ x ∈ l, Q x)
    (s : State) (h : P s) : P (l.foldl step s) := by
  induction l generalizing s with
  | nil => exact h
  | cons x l ih =>
    exact ih (fun y hy => hq y (List.mem_cons_of_mem _ hy)) _ (hs s x h (hq x List.mem_cons_self))

/-! ## What a step does to each part of the state -/

theorem setAt_self {α : Type} (f : Nat → α) (i : Nat) (x : α) : setAt f i x i = x := if_pos rfl

theorem setAt_ne {α : Type} (f : Nat → α) {i j : Nat} (x : α) (h : j ≠ i) : setAt f i x j = f j := if_neg h

/-- What a step makes of result `i`. -/
def upd (s : State) (x : Step) (i : Nat) (v : Result) : Result :=
  match x with
  | .go c now =>
    match s.recvs c with
    | .found j r => if j = i then { v with result := r.code } else v
    | .coded j r => if j = i then { v with msgId := r.msgId } else v
    | .named j _ => if j = i then { v with responseTime := now } else v
    | .reported j r => if j = i then { v with report := r.stat } else v
    | .stated j => if j = i then { v with reportTime := now } else v
    | _ => v
  | _ => v

theorem modify_get (h : List Result) (i j : Nat) (f : Result → Result) (v : Result) (hi : h[i]? = some v) :
    (h.modify j f)[i]? = some (if j = i then f v else v) := by
  rw [List.getElem?_modify, hi]
  split <;> rfl

theorem heap_visit (s : State) (d now : Int) : (visit s d now).heap = s.heap ∧ (visit s d now).recvs = s.recvs ∧
    (visit s d now).seqMap = s.seqMap ∧ (visit s d now).msgMap = s.msgMap ∧ (visit s d now).senders = s.senders := by
  unfold visit
  split
  · split
    · exact ⟨rfl, rfl, rfl, rfl, rfl⟩
    · split <;> exact ⟨rfl, rfl, rfl, rfl, rfl⟩
  · exact ⟨rfl, rfl, rfl, rfl, rfl⟩
  · exact ⟨rfl, rfl, rfl, rfl, rfl⟩

theorem heap_go (s : State) (c : Nat) (now : Int) (i : Nat) (v : Result) (h : s.heap[i]? = some v) :
    (go s c now).heap[i]? = some (upd s (.go c now) i v) := by
  cases hc : s.recvs c <;> simp only [go, upd, hc] <;> first | exact h | (rw [modify_get _ _ _ _ _ h])

theorem heap_step (s : State) (x : Step) (i : Nat) (v : Result) (h : s.heap[i]? = some v) :
    (step s x).heap[i]? = some (upd s x i v) := by
  cases x with
  | write t phone q => simp only [step, upd]; split <;> exact h
  | store t now =>
    simp only [step, upd]
    split
    · exact h
    · dsimp only
      rw [List.getElem?_append_left (List.getElem?_eq_some_iff.1 h).1, h]
  | answer c r => simp only [step, upd]; split <;> (try split) <;> exact h
  | report c r => simp only [step, upd]; split <;> (try split) <;> exact h
  | go c now => exact heap_go s c now i v h
  | clean seqs order => simp only [step, upd]; split <;> exact h
  | visit d now => simp only [step, upd]; rw [(heap_visit s d now).1]; exact h
  | delete => simp only [step, upd]; split <;> exact h

/-- What a step never changes of a result. -/
theorem upd_same (s : State) (x : Step) (i : Nat) (v : Result) :
    (upd s x i v).sequenceId = v.sequenceId ∧ (upd s x i v).sendTime = v.sendTime ∧ (upd s x i v).phone = v.phone := by
  unfold upd
  split
  · split <;> first | exact ⟨rfl, rfl, rfl⟩ | (split <;> exact ⟨rfl, rfl, rfl⟩)
  · exact ⟨rfl, rfl, rfl⟩

/-- Results not there before come from a store. -/
theorem heap_new (s : State) (x : Step) (i : Nat) (v : Result) (h : (step s x).heap[i]? = some v) :
    (∃ v0, s.heap[i]? = some v0 ∧ v = upd s x i v0) ∨
      ∃ t now phone q, x = .store t now ∧ s.senders t = .written phone q ∧ i = s.heap.length ∧
        v = { phone := phone, sequenceId := q, sendTime := now } := by
  cases hi : s.heap[i]? with
  | some v0 =>
    left
    refine ⟨v0, rfl, ?_⟩
    rw [heap_step s x i v0 hi] at h
    injection h with h
    exact h.symm
  | none =>
    right
    have hlen := List.getElem?_eq_none_iff.1 hi
    have hlen' := (List.getElem?_eq_some_iff.1 h).1
    cases x with
    | store t now =>
      simp only [step] at h hlen'
      split at h
      · rw [h] at hi; cases hi
      · rename_i phone q hs
        dsimp only at h
        have : i = s.heap.length := by
          have := (List.getElem?_eq_some_iff.1 h).1
          rw [List.length_append, List.length_singleton] at this
          omega
        subst this
        rw [List.getElem?_concat_length] at h
        injection h with h
        exact ⟨t, now, phone, q, rfl, hs, rfl, h.symm⟩
    | write t phone q => exfalso; simp only [step] at h; split at h <;> (rw [hi] at h; cases h)
    | answer c r => exfalso; simp only [step] at h; split at h <;> (try split at h) <;> (rw [hi] at h; cases h)
    | report c r => exfalso; simp only [step] at h; split at h <;> (try split at h) <;> (rw [hi] at h; cases h)
    | go c now =>
      exfalso
      simp only [step, go] at hlen'
      split at hlen' <;> (try simp only [List.length_modify] at hlen') <;> omega
    | clean seqs order => exfalso; simp only [step] at h; split at h <;> (rw [hi] at h; cases h)
    | visit d now => exfalso; simp only [step] at h; rw [(heap_visit s d now).1, hi] at h; cases h
    | delete => exfalso; simp only [step] at h; split at h <;> (rw [hi] at h; cases h)

/-- The receiver goes on. -/
def adv : Recv → Recv
  | .idle => .idle
  | .found i r => .coded i r
  | .coded i r => .named i r
  | .named i _ => .timed i
  | .timed _ => .idle
  | .reported i _ => .stated i
  | .stated _ => .idle

theorem recvs_go (s : State) (c : Nat) (now : Int) (c' : Nat) :
    (go s c now).recvs c' = if c' = c then adv (s.recvs c) else s.recvs c' := by
  cases hc : s.recvs c <;> simp only [go, hc, adv, setAt]
  split <;> simp_all

/-- What a step makes of receiver `c'`: nothing, or it looks something up, or it goes on. -/
theorem recvs_step (s : State) (x : Step) (c' : Nat) : (step s x).recvs c' = s.recvs c' ∨
    (∃ r i, x = .answer c' r ∧ s.recvs c' = .idle ∧ s.seqMap.load r.key = some i ∧ (step s x).recvs c' = .found i r) ∨
    (∃ r i, x = .report c' r ∧ s.recvs c' = .idle ∧ s.msgMap.load (.str r.msgId) = some i ∧ (step s x).recvs c' = .reported i r) ∨
    ∃ now, x = .go c' now ∧ (step s x).recvs c' = adv (s.recvs c') := by
  cases x with
  | write t phone q => left; simp only [step]; split <;> rfl
  | store t now => left; simp only [step]; split <;> rfl
  | answer c r =>
    by_cases hc : c' = c
    · subst hc
      cases h1 : s.recvs c' with
      | idle =>
        cases h2 : s.seqMap.load r.key with
        | none => left; simp only [step, h1, h2]
        | some i => right; left; exact ⟨r, i, rfl, rfl, h2, by simp only [step, h1, h2]; exact setAt_self _ _ _⟩
      | _ => left; simp only [step, h1]
    · left
      simp only [step]
      split
      · split
        · rfl
        · exact setAt_ne _ _ hc
      · rfl
  | report c r =>
    by_cases hc : c' = c
    · subst hc
      cases h1 : s.recvs c' with
      | idle =>
        cases h2 : s.msgMap.load (.str r.msgId) with
        | none => left; simp only [step, h1, h2]
        | some i => right; right; left; exact ⟨r, i, rfl, rfl, h2, by simp only [step, h1, h2]; exact setAt_self _ _ _⟩
      | _ => left; simp only [step, h1]
    · left
      simp only [step]
      split
      · split
        · rfl
        · exact setAt_ne _ _ hc
      · rfl
  | go c now =>
    by_cases hc : c' = c
    · subst hc
      right; right; right
      refine ⟨now, rfl, ?_⟩
      simp only [step]
      rw [recvs_go, if_pos rfl]
    · left
      simp only [step]
      rw [recvs_go, if_neg hc]
  | clean seqs order => left; simp only [step]; split <;> rfl
  | visit d now => left; simp only [step]; rw [(heap_visit s d now).2.1]
  | delete => left; simp only [step]; split <;> rfl

/-- What a step makes of the requests: nothing, a store, or a deletion. -/
theorem seqMap_step (s : State) (x : Step) : (step s x).seqMap = s.seqMap ∨
    (∃ t now phone q, x = .store t now ∧ s.senders t = .written phone q ∧ (step s x).seqMap = s.seqMap.store (.u64 q) s.heap.length) ∨
    ∃ k keys, x = .delete ∧ s.cleaner = .deleting true (k :: keys) ∧ (step s x).seqMap = s.seqMap.delete k := by
  cases x with
  | write t phone q => left; simp only [step]; split <;> rfl
  | store t now =>
    cases h : s.senders t with
    | idle => left; simp only [step, h]
    | written phone q => right; left; exact ⟨t, now, phone, q, rfl, h, by simp only [step, h]⟩
  | answer c r => left; simp only [step]; split <;> (try split) <;> rfl
  | report c r => left; simp only [step]; split <;> (try split) <;> rfl
  | go c now => left; simp only [step, go]; split <;> rfl
  | clean seqs order => left; simp only [step]; split <;> rfl
  | visit d now => left; simp only [step]; rw [(heap_visit s d now).2.2.1]
  | delete =>
    cases h : s.cleaner with
    | deleting b keys =>
      cases b <;> cases keys <;> first
        | (left; simp only [step, h]; done)
        | (right; right; exact ⟨_, _, rfl, rfl, by simp only [step, h]⟩)
    | _ => left; simp only [step, h]

/-- What a step makes of the message ids. -/
theorem msgMap_step (s : State) (x : Step) : (step s x).msgMap = s.msgMap ∨
    (∃ c now i v, x = .go c now ∧ s.recvs c = .timed i ∧ s.heap[i]? = some v ∧ (step s x).msgMap = s.msgMap.store (.str v.msgId) i) ∨
    ∃ k keys, x = .delete ∧ s.cleaner = .deleting false (k :: keys) ∧ (step s x).msgMap = s.msgMap.delete k := by
  cases x with
  | write t phone q => left; simp only [step]; split <;> rfl
  | store t now => left; simp only [step]; split <;> rfl
  | answer c r => left; simp only [step]; split <;> (try split) <;> rfl
  | report c r => left; simp only [step]; split <;> (try split) <;> rfl
  | go c now =>
    cases h : s.recvs c with
    | timed i =>
      cases hv : s.heap[i]? with
      | none => left; simp only [step, go, h, hv]
      | some v => right; left; exact ⟨c, now, i, v, rfl, h, hv, by simp only [step, go, h, hv]⟩
    | _ => left; simp only [step, go, h]
  | clean seqs order => left; simp only [step]; split <;> rfl
  | visit d now => left; simp only [step]; rw [(heap_visit s d now).2.2.2.1]
  | delete =>
    cases h : s.cleaner with
    | deleting b keys =>
      cases b <;> cases keys <;> first
        | (left; simp only [step, h]; done)
        | (right; right; exact ⟨_, _, rfl, rfl, by simp only [step, h]⟩)
    | _ => left; simp only [step, h]

/-- What a step makes of a sender. -/
theorem senders_step (s : State) (x : Step) (t : Nat) (phone : Bytes) (q : UInt64)
    (h : (step s x).senders t = .written phone q) : s.senders t = .written phone q ∨ x = .write t phone q := by
  cases x with
  | write t' phone' q' =>
    simp only [step] at h
    split at h
    · dsimp only [setAt] at h
      split at h
      · rename_i ht
        injection h with h1 h2
        subst ht; subst h1; subst h2
        exact .inr rfl
      · exact .inl h
    · exact .inl h
  | store t' now =>
    simp only [step] at h
    split at h
    · exact .inl h
    · dsimp only [setAt] at h
      split at h
      · cases h
      · exact .inl h
  | answer c r => left; simp only [step] at h; split at h <;> (try split at h) <;> exact h
  | report c r => left; simp only [step] at h; split at h <;> (try split at h) <;> exact h
  | go c now => left; simp only [step, go] at h; split at h <;> exact h
  | clean seqs order => left; simp only [step] at h; split at h <;> exact h
  | visit d now => left; simp only [step] at h; rw [(heap_visit s d now).2.2.2.2] at h; exact h
  | delete => left; simp only [step] at h; split at h <;> exact h

/-- The keys the cleaner is going to delete in the one map (`b`). -/
def pendingKeys (b : Bool) : Cleaner → List Key
  | .ranging b' _ keys => if b' = b then keys else []
  | .deleting b' keys => if b' = b then keys else []
  | .idle => []

/-- A key joins them by a visit to an entry that is old. -/
theorem pending_step (s : State) (x : Step) (b : Bool) (k : Key) (h : k ∈ pendingKeys b (step s x).cleaner) :
    k ∈ pendingKeys b s.cleaner ∨ ∃ d now k' i v, x = .visit d now ∧ (if b then s.seqMap else s.msgMap).load k' = some i ∧
      s.heap[i]? = some v ∧ v.sendTime + d < now ∧ k = keyOf b v := by
  cases x with
  | write t phone q => left; simp only [step] at h; split at h <;> exact h
  | store t now => left; simp only [step] at h; split at h <;> exact h
  | answer c r => left; simp only [step] at h; split at h <;> (try split at h) <;> exact h
  | report c r => left; simp only [step] at h; split at h <;> (try split at h) <;> exact h
  | go c now => left; simp only [step, go] at h; split at h <;> exact h
  | clean seqs order =>
    left
    simp only [step] at h
    split at h
    · simp only [pendingKeys] at h; split at h <;> cases h
    · exact h
  | visit d now =>
    simp only [step, visit] at h
    split at h
    · rename_i seqs k' todo keys hc
      rw [hc]
      split at h
      · left; exact h
      · rename_i i hi
        split at h
        · left; exact h
        · rename_i v hv
          by_cases hb : seqs = b
          · subst hb
            simp only [pendingKeys, if_true] at h ⊢
            split at h
            · rename_i hold
              rcases List.mem_append.1 h with h | h
              · exact .inl h
              · right
                rw [List.mem_singleton] at h
                exact ⟨d, now, k', i, v, rfl, hi, hv, hold, h⟩
            · exact .inl h
          · simp only [pendingKeys, if_neg hb] at h; cases h
    · rename_i seqs keys hc
      rw [hc]
      left
      exact h
    · left; exact h
  | delete =>
    left
    cases hc : s.cleaner with
    | deleting b' keys =>
      cases keys with
      | nil => cases b' <;> (simp only [step, hc, pendingKeys] at h; cases h)
      | cons k' keys =>
        cases b' <;> cases b <;> simp_all [step, pendingKeys]
    | idle => simp only [step, hc] at h; exact h
    | ranging b' todo keys => simp only [step, hc] at h; exact h

open Gosms.Client.SyncMap (load_store load_delete)

theorem recording_adv {v : Recv} {i : Nat} (h : Spec.recording (adv v) i) : Spec.recording v i := by
  cases v <;> first | exact h | cases h

/-- A receiver begins to record an answer in a result by looking the answer up. -/
theorem recording_step {s : State} {x : Step} {c i : Nat} (h : Spec.recording ((step s x).recvs c) i) :
    Spec.recording (s.recvs c) i ∨ ∃ r, x = .answer c r ∧ s.seqMap.load r.key = some i := by
  rcases recvs_step s x c with e | ⟨r, j, hx, _, hl, e⟩ | ⟨r, j, hx, _, hl, e⟩ | ⟨now, hx, e⟩
  · rw [e] at h; exact .inl h
  · rw [e] at h
    have : j = i := h
    subst this
    exact .inr ⟨r, hx, hl⟩
  · rw [e] at h; cases h
  · rw [e] at h; exact .inl (recording_adv h)

/-- What an answer leaves in a result. -/
def Spec.sameAnswer (v w : Result) : Prop := w.result = v.result ∧ w.msgId = v.msgId ∧ w.responseTime = v.responseTime

/-- A step changes what a result says of its answer only if it is that of a receiver recording an answer there. -/
theorem upd_answer (s : State) (x : Step) (i : Nat) (v : Result) (h : ∀ c now, x = .go c now → ¬ Spec.recording (s.recvs c) i) :
    Spec.sameAnswer v (upd s x i v) := by
  unfold upd
  split
  · rename_i c now
    have hc := h c now rfl
    split
    all_goals first
      | exact ⟨rfl, rfl, rfl⟩
      | (rename_i he
         rw [he] at hc
         simp only [Spec.recording] at hc
         first
           | (simp only [if_neg hc]; exact ⟨rfl, rfl, rfl⟩)
           | (split <;> exact ⟨rfl, rfl, rfl⟩))
  · exact ⟨rfl, rfl, rfl⟩

theorem length_step (s : State) (x : Step) : s.heap.length ≤ (step s x).heap.length := by
  by_cases h : s.heap.length = 0
  · omega
  · have hi : s.heap.length - 1 < s.heap.length := by omega
    have h1 := heap_step s x (s.heap.length - 1) _ (List.getElem?_eq_getElem hi)
    have := (List.getElem?_eq_some_iff.1 h1).1
    omega

/-- Every entry of the requests leads to a result with the number of its key; the receivers and the message ids lead to results. -/
structure Ok (s : State) : Prop where
  seq : ∀ k j, s.seqMap.load k = some j → ∃ v : Result, s.heap[j]? = some v ∧ k = .u64 v.sequenceId
  recs : ∀ c j, Spec.recording (s.recvs c) j → j < s.heap.length
  msg : ∀ k j, s.msgMap.load k = some j → j < s.heap.length
  rep : ∀ c j, (∃ r, s.recvs c = .reported j r) ∨ s.recvs c = .stated j → j < s.heap.length
  pend : ∀ k ∈ pendingKeys true s.cleaner, ∃ (j : Nat) (v : Result), s.heap[j]? = some v ∧ k = .u64 v.sequenceId

theorem lt_of_get {h : List Result} {i : Nat} {v : Result} (e : h[i]? = some v) : i < h.length := (List.getElem?_eq_some_iff.1 e).1

theorem ok_step {s : State} (h : Ok s) (x : Step) : Ok (step s x) := by
  have hl := length_step s x
  constructor
  · intro k j hk
    have old : s.seqMap.load k = some j → ∃ v : Result, (step s x).heap[j]? = some v ∧ k = .u64 v.sequenceId := by
      intro h1
      obtain ⟨v, hv, e⟩ := h.seq k j h1
      exact ⟨_, heap_step s x j v hv, by rw [(upd_same s x j v).1]; exact e⟩
    rcases seqMap_step s x with e | ⟨t, now, phone, q, hx, hs, e⟩ | ⟨k', keys, hx, hc, e⟩
    · rw [e] at hk; exact old hk
    · rw [e, load_store] at hk
      split at hk
      · rename_i ek
        injection hk with hk
        subst hk; subst ek; subst hx
        refine ⟨{ phone := phone, sequenceId := q, sendTime := now }, ?_, rfl⟩
        simp only [step, hs]
        exact List.getElem?_concat_length
      · exact old hk
    · rw [e, load_delete] at hk
      split at hk
      · cases hk
      · exact old hk
  · intro c j hj
    rcases recording_step hj with hj | ⟨r, hx, hr⟩
    · have := h.recs c j hj; omega
    · obtain ⟨v, hv, _⟩ := h.seq _ j hr
      have := lt_of_get hv
      omega
  · intro k j hk
    rcases msgMap_step s x with e | ⟨c, now, i, v, hx, hc, hv, e⟩ | ⟨k', keys, hx, hc, e⟩
    · rw [e] at hk; have := h.msg k j hk; omega
    · rw [e, load_store] at hk
      split at hk
      · injection hk with hk
        have := lt_of_get hv
        omega
      · have := h.msg k j hk; omega
    · rw [e, load_delete] at hk
      split at hk
      · cases hk
      · have := h.msg k j hk; omega
  · intro c j hj
    rcases recvs_step s x c with e | ⟨r, i, hx, _, _, e⟩ | ⟨r, i, hx, _, hm, e⟩ | ⟨now, hx, e⟩
    · rw [e] at hj; have := h.rep c j hj; omega
    · rw [e] at hj
      rcases hj with ⟨_, hj⟩ | hj <;> cases hj
    · rw [e] at hj
      rcases hj with ⟨r', hj⟩ | hj
      · injection hj with hj; subst hj; have := h.msg _ _ hm; omega
      · cases hj
    · rw [e] at hj
      cases hc : s.recvs c with
      | reported i r =>
        rw [hc] at hj
        rcases hj with ⟨_, hj⟩ | hj
        · cases hj
        · injection hj with hj; subst hj; have := h.rep c i (.inl ⟨r, hc⟩); omega
      | _ => rw [hc] at hj; rcases hj with ⟨_, hj⟩ | hj <;> cases hj
  · intro k hk
    rcases pending_step s x true k hk with hk | ⟨d, now, k', i, v, hx, hl, hv, _, ek⟩
    · obtain ⟨j, v, hv, e⟩ := h.pend k hk
      exact ⟨j, _, heap_step s x j v hv, by rw [(upd_same s x j v).1]; exact e⟩
    · exact ⟨i, _, heap_step s x i v hv, by rw [(upd_same s x i v).1]; exact ek⟩

theorem ok_run (steps : List Step) : Ok (run steps) := by
  induction steps using snoc_induction with
  | nil =>
    constructor
    · intro k j h; cases h
    · intro c j h; cases h
    · intro k j h; cases h
    · intro c j h; rcases h with ⟨_, h⟩ | h <;> cases h
    · intro k h; cases h
  | snoc steps x ih => rw [run_snoc]; exact ok_step ih x

/-! ## An answer that comes before the result of its packet is stored -/

/-- Nobody records an answer in result `i`, and only an answer to `q` could lead there. -/
structure Quiet (q : UInt64) (i : Nat) (s : State) : Prop where
  here : i < s.heap.length
  still : ∀ c, ¬ Spec.recording (s.recvs c) i
  key : ∀ k, s.seqMap.load k = some i → k = .u64 q

/-- Only a store under the result's own number, long past, leads to the result. -/
theorem seq_to_step {s : State} {x : Step} {i : Nat} (hi : i < s.heap.length) {k : Key} (h : (step s x).seqMap.load k = some i) :
    s.seqMap.load k = some i := by
  rcases seqMap_step s x with e | ⟨t, now, phone, q', hx, hs, e⟩ | ⟨k', keys, hx, hc, e⟩
  · rw [e] at h; exact h
  · rw [e, load_store] at h
    split at h
    · injection h with h; omega
    · exact h
  · rw [e, load_delete] at h
    split at h
    · cases h
    · exact h

theorem quiet_step {q : UInt64} {i : Nat} {s : State} (h : Quiet q i s) (x : Step) (hx : ∀ c r, x = .answer c r → r.key ≠ .u64 q) :
    Quiet q i (step s x) := by
  refine ⟨by have := length_step s x; have := h.here; omega, ?_, fun k hk => h.key k (seq_to_step h.here hk)⟩
  intro c hc
  rcases recording_step hc with hc | ⟨r, hr, hl⟩
  · exact h.still c hc
  · exact hx c r hr (h.key _ hl)

theorem quiet_heap {q : UInt64} {i : Nat} (l : List Step) (hl : ∀ c r, .answer c r ∈ l → r.key ≠ .u64 q) (s : State) (h : Quiet q i s)
    (v : Result) (hv : s.heap[i]? = some v) :
    ∃ w : Result, (l.foldl step s).heap[i]? = some w ∧ Spec.sameAnswer v w ∧
      w.sequenceId = v.sequenceId ∧ w.sendTime = v.sendTime ∧ w.phone = v.phone := by
  induction l generalizing s v with
  | nil => exact ⟨v, hv, ⟨rfl, rfl, rfl⟩, rfl, rfl, rfl⟩
  | cons x l ih =>
    have h1 := upd_answer s x i v (fun c now _ => h.still c)
    have h2 := upd_same s x i v
    obtain ⟨w, hw, h3, h4⟩ := ih (fun c r hm => hl c r (List.mem_cons_of_mem _ hm)) (step s x)
      (quiet_step h x (fun c r e => hl c r (e ▸ List.mem_cons_self))) _ (heap_step s x i v hv)
    refine ⟨w, hw, ⟨h3.1.trans h1.1, h3.2.1.trans h1.2.1, h3.2.2.trans h1.2.2⟩, h4.1.trans h2.1, h4.2.1.trans h2.2.1,
      h4.2.2.trans h2.2.2⟩

/-- After the store of the result of a packet nobody records an answer in it. -/
theorem quiet_stored {s : State} (hok : Ok s) {t : Nat} {now : Int} {phone : Bytes} {q : UInt64} (hw : s.senders t = .written phone q) :
    Quiet q s.heap.length (step s (.store t now)) ∧
      (step s (.store t now)).heap[s.heap.length]? = some { phone := phone, sequenceId := q, sendTime := now } := by
  have he : (step s (.store t now)).heap[s.heap.length]? = some { phone := phone, sequenceId := q, sendTime := now } := by
    simp only [step, hw]
    exact List.getElem?_concat_length
  refine ⟨⟨lt_of_get he, ?_, ?_⟩, he⟩
  · intro c hc
    rcases recording_step hc with hc | ⟨r, hr, _⟩
    · have := hok.recs c _ hc; omega
    · cases hr
  · intro k hk
    obtain ⟨v, hv, e⟩ := (ok_step hok (.store t now)).seq k _ hk
    rw [he] at hv
    injection hv with hv
    rw [e, ← hv]

/-- C126, refuted, in every history: the packet is written before its result is stored. Whatever answers came in between, and from whatever receivers, are
lost: unless a further answer to the same sequence number comes after the store, the result reads for ever as if there had been none. -/
theorem fast_answer_lost_fails (pre post : List Step) (t : Nat) (now : Int) (phone : Bytes) (q : UInt64)
    (hw : (run pre).senders t = .written phone q) (hno : ∀ c r, .answer c r ∈ post → r.key ≠ .u64 q) :
    ∃ v : Result, (run (pre ++ .store t now :: post)).heap[(run pre).heap.length]? = some v ∧
      v.phone = phone ∧ v.sequenceId = q ∧ v.sendTime = now ∧ v.result = 0 ∧ v.msgId = [] ∧ v.responseTime = 0 := by
  obtain ⟨h1, h2⟩ := quiet_stored (ok_run pre) (now := now) hw
  obtain ⟨v, hv, h3, h4, h5, h6⟩ := quiet_heap post hno _ h1 _ h2
  rw [run_cons_append]
  exact ⟨v, hv, h6, h4, h5, h3.1, h3.2.1, h3.2.2⟩

/-- The hypotheses are met: the carrier answers with status 5 before the sender has stored the result. -/
example : let pre := [Step.write 0 [49] (Client.sequence2Uint64 7 9), .answer 3 (.sgip 1 7 9 5), .go 3 100, .go 3 100, .go 3 100, .go 3 100]
    (run pre).senders 0 = .written [49] (Client.sequence2Uint64 7 9) ∧
    (run (pre ++ [.store 0 101])).heap = [{ phone := [49], sequenceId := Client.sequence2Uint64 7 9, sendTime := 101 }] := by decide

/-! ## An answer that comes afterwards -/

/-- The request is found under its number. -/
structure Kept (q : UInt64) (i : Nat) (t0 : Int) (s : State) : Prop where
  load : s.seqMap.load (.u64 q) = some i
  result : ∃ v : Result, s.heap[i]? = some v ∧ v.sendTime = t0
  only : ∀ (j : Nat) (v : Result), s.heap[j]? = some v → v.sequenceId = q → j = i
  senders : ∀ t phone, s.senders t ≠ .written phone q
  pend : .u64 q ∉ pendingKeys true s.cleaner

theorem kept_step {q : UInt64} {i : Nat} {t0 : Int} {s : State} (h : Kept q i t0 s) (x : Step) (hx : ∀ t phone, x ≠ .write t phone q)
    (hv : ∀ d now, x = .visit d now → now ≤ t0 + d) : Kept q i t0 (step s x) := by
  constructor
  · rcases seqMap_step s x with e | ⟨t, now, phone, q', _, hs, e⟩ | ⟨k', keys, _, hc, e⟩
    · rw [e]; exact h.load
    · rw [e, load_store, if_neg]
      · exact h.load
      · intro eq
        injection eq with eq
        subst eq
        exact h.senders t phone hs
    · rw [e, load_delete, if_neg]
      · exact h.load
      · intro eq
        apply h.pend
        rw [hc, eq]
        exact List.mem_cons_self
  · obtain ⟨v, hv, e⟩ := h.result
    exact ⟨_, heap_step s x i v hv, (upd_same s x i v).2.1.trans e⟩
  · intro j v hj eq
    rcases heap_new s x j v hj with ⟨v0, h0, e⟩ | ⟨t, now, phone, q', _, hs, _, e⟩
    · rw [e, (upd_same s x j v0).1] at eq
      exact h.only j v0 h0 eq
    · subst e
      have : q' = q := eq
      subst this
      exact absurd hs (h.senders t phone)
  · intro t phone hs
    rcases senders_step s x t phone q hs with hs | hs
    · exact h.senders t phone hs
    · exact hx t phone hs
  · intro hk
    rcases pending_step s x true _ hk with hk | ⟨d, now, k', j, v, ex, _, hj, hold, ek⟩
    · exact h.pend hk
    · injection ek with ek
      have := h.only j v hj ek.symm
      subst this
      obtain ⟨v', hv', e⟩ := h.result
      rw [hj] at hv'
      injection hv' with hv'
      subst hv'
      have := hv d now ex
      omega

theorem kept_stored {s : State} (hok : Ok s) {t : Nat} {now : Int} {phone : Bytes} {q : UInt64} (hw : s.senders t = .written phone q)
    (h1 : ∀ t' phone', s.senders t' = .written phone' q → t' = t) (h2 : ∀ v ∈ s.heap, v.sequenceId ≠ q) :
    Kept q s.heap.length now (step s (.store t now)) := by
  have he := (quiet_stored hok (now := now) hw).2
  constructor
  · simp only [step, hw]
    rw [load_store, if_pos rfl]
  · exact ⟨_, he, rfl⟩
  · intro j v hj eq
    rcases heap_new s _ j v hj with ⟨v0, h0, e⟩ | ⟨_, _, _, _, _, _, e, _⟩
    · rw [e, (upd_same s _ j v0).1] at eq
      exact absurd eq (h2 v0 (List.mem_of_getElem? h0))
    · exact e
  · intro t' phone' hs
    simp only [step, hw, setAt] at hs
    split at hs
    · cases hs
    · rename_i hne
      exact hne (h1 t' phone' hs)
  · intro hk
    rcases pending_step s _ true _ hk with hk | ⟨_, _, _, _, _, ex, _⟩
    · obtain ⟨j, v, hv, e⟩ := hok.pend _ hk
      injection e with e
      exact h2 v (List.mem_of_getElem? hv) e.symm
    · cases ex

/-- C126: a request whose number no other has is found under it until it is old, whatever the goroutines do, the cleaner's included. -/
theorem kept_until_old (pre mid : List Step) (t : Nat) (now : Int) (phone : Bytes) (q : UInt64)
    (hw : (run pre).senders t = .written phone q)
    (h1 : ∀ t' phone', (run pre).senders t' = .written phone' q → t' = t) (h2 : ∀ v ∈ (run pre).heap, v.sequenceId ≠ q)
    (h3 : ∀ t' phone', .write t' phone' q ∉ mid) (h4 : ∀ d now', .visit d now' ∈ mid → now' ≤ now + d) :
    (run (pre ++ .store t now :: mid)).seqMap.load (.u64 q) = some (run pre).heap.length := by
  rw [run_cons_append]
  refine (foldl_keep (P := Kept q (run pre).heap.length now) (Q := fun x => (∀ t' phone', x ≠ .write t' phone' q) ∧
    ∀ d now', x = .visit d now' → now' ≤ now + d) ?_ mid ?_ _ (kept_stored (ok_run pre) hw h1 h2)).load
  · intro s x h hx
    exact kept_step h x hx.1 hx.2
  · intro x hx
    exact ⟨fun t' p' e => h3 t' p' (e ▸ hx), fun d n e => h4 d n (e ▸ hx)⟩

/-- How far receiver `c` is with recording answer `r` in result `v` (number `i`). -/
def Phase (c i : Nat) (r : Resp) (T : Int → Prop) (n : Nat) (s : State) (v : Result) : Prop :=
  match n with
  | 0 => s.recvs c = .found i r
  | 1 => s.recvs c = .coded i r ∧ v.result = r.code
  | 2 => s.recvs c = .named i r ∧ v.result = r.code ∧ v.msgId = r.msgId
  | 3 => s.recvs c = .timed i ∧ v.result = r.code ∧ v.msgId = r.msgId ∧ T v.responseTime
  | _ + 4 => ¬ Spec.recording (s.recvs c) i ∧ v.result = r.code ∧ v.msgId = r.msgId ∧ T v.responseTime

structure Recorded (q : UInt64) (c i : Nat) (r : Resp) (T : Int → Prop) (n : Nat) (s : State) : Prop where
  phase : ∃ v, s.heap[i]? = some v ∧ Phase c i r T n s v
  others : ∀ c', c' ≠ c → ¬ Spec.recording (s.recvs c') i
  key : ∀ k, s.seqMap.load k = some i → k = .u64 q

/-- A receiver at work does nothing but go on. -/
theorem recvs_busy {s : State} {x : Step} {c : Nat} (hc : s.recvs c ≠ .idle) (hg : Spec.goes c x = false) : (step s x).recvs c = s.recvs c := by
  rcases recvs_step s x c with e | ⟨_, _, _, h, _⟩ | ⟨_, _, _, h, _⟩ | ⟨now, hx, _⟩
  · exact e
  · exact absurd h hc
  · exact absurd h hc
  · subst hx; simp [Spec.goes] at hg

theorem recorded_step {q : UInt64} {c i : Nat} {r : Resp} {T : Int → Prop} {n : Nat} {s : State} (h : Recorded q c i r T n s) (x : Step)
    (hx : ∀ c' r', x = .answer c' r' → r'.key ≠ .u64 q) (hT : ∀ now, x = .go c now → T now) :
    Recorded q c i r T (n + if Spec.goes c x then 1 else 0) (step s x) := by
  obtain ⟨v, hv, hp⟩ := h.phase
  refine ⟨⟨_, heap_step s x i v hv, ?_⟩, ?_, fun k hk => h.key k (seq_to_step (lt_of_get hv) hk)⟩
  · by_cases hg : Spec.goes c x = true
    · rw [if_pos hg]
      cases x with
      | go c' now =>
        have : c' = c := by simpa [Spec.goes] using hg
        subst this
        have hT := hT now rfl
        match n, hp with
        | 0, hp =>
          have hp : s.recvs c' = .found i r := hp
          simp only [Phase, upd, hp, if_true, step, and_true]
          rw [recvs_go, if_pos rfl, hp]; rfl
        | 1, hp =>
          obtain ⟨hp, h1⟩ := hp
          simp only [Phase, upd, hp, if_true, step, and_true]
          refine ⟨?_, h1⟩
          rw [recvs_go, if_pos rfl, hp]; rfl
        | 2, hp =>
          obtain ⟨hp, h1, h2⟩ := hp
          simp only [Phase, upd, hp, if_true, step]
          refine ⟨?_, h1, h2, hT⟩
          rw [recvs_go, if_pos rfl, hp]; rfl
        | 3, hp =>
          obtain ⟨hp, h1, h2, h3⟩ := hp
          simp only [Phase, upd, hp, step]
          refine ⟨?_, h1, h2, h3⟩
          rw [recvs_go, if_pos rfl, hp]; exact id
        | n + 4, hp =>
          obtain ⟨hp, h1, h2, h3⟩ := hp
          have hu := upd_answer s (.go c' now) i v (fun c1 n1 e => by injection e with e _; subst e; exact hp)
          refine ⟨?_, hu.1.trans h1, hu.2.1.trans h2, by rw [hu.2.2]; exact h3⟩
          simp only [step]
          rw [recvs_go, if_pos rfl]
          exact fun h => hp (recording_adv h)
      | _ => cases hg
    · rw [if_neg hg, Nat.add_zero]
      have hg' : Spec.goes c x = false := by simpa using hg
      have hu := upd_answer s x i v (fun c1 n1 e => by
        by_cases h1 : c1 = c
        · subst h1; subst e; simp [Spec.goes] at hg'
        · exact h.others c1 h1)
      match n, hp with
      | 0, hp =>
        have hp : s.recvs c = .found i r := hp
        show (step s x).recvs c = _
        rw [recvs_busy (by rw [hp]; exact Recv.noConfusion) hg', hp]
      | 1, hp =>
        obtain ⟨hp, h1⟩ := hp
        exact ⟨by rw [recvs_busy (by rw [hp]; exact Recv.noConfusion) hg', hp], hu.1.trans h1⟩
      | 2, hp =>
        obtain ⟨hp, h1, h2⟩ := hp
        exact ⟨by rw [recvs_busy (by rw [hp]; exact Recv.noConfusion) hg', hp], hu.1.trans h1, hu.2.1.trans h2⟩
      | 3, hp =>
        obtain ⟨hp, h1, h2, h3⟩ := hp
        exact ⟨by rw [recvs_busy (by rw [hp]; exact Recv.noConfusion) hg', hp], hu.1.trans h1, hu.2.1.trans h2, by rw [hu.2.2]; exact h3⟩
      | n + 4, hp =>
        obtain ⟨hp, h1, h2, h3⟩ := hp
        refine ⟨?_, hu.1.trans h1, hu.2.1.trans h2, by rw [hu.2.2]; exact h3⟩
        intro hr
        rcases recording_step hr with hr | ⟨r', e, hl⟩
        · exact hp hr
        · exact hx c r' e (h.key _ hl)
  · intro c' hne hr
    rcases recording_step hr with hr | ⟨r', e, hl⟩
    · exact h.others c' hne hr
    · exact hx c' r' e (h.key _ hl)

theorem recorded_foldl {q : UInt64} {c i : Nat} {r : Resp} {T : Int → Prop} (l : List Step) (hl : ∀ c' r', .answer c' r' ∈ l → r'.key ≠ .u64 q)
    (hT : ∀ now, .go c now ∈ l → T now) (n : Nat) (s : State) (h : Recorded q c i r T n s) :
    Recorded q c i r T (n + l.countP (Spec.goes c)) (l.foldl step s) := by
  induction l generalizing n s with
  | nil => exact h
  | cons x l ih =>
    have := ih (fun c' r' hm => hl c' r' (List.mem_cons_of_mem _ hm)) (fun now hm => hT now (List.mem_cons_of_mem _ hm)) _ _
      (recorded_step h x (fun c' r' e => hl c' r' (e ▸ List.mem_cons_self)) (fun now e => hT now (e ▸ List.mem_cons_self)))
    rw [List.countP_cons, Nat.add_comm (l.countP _), ← Nat.add_assoc]
    exact this

/-- C126, an answer read after the result is stored and before it is old, whatever all the goroutines do in the meantime: it is recorded in the result of the
packet it answers, the code, the message id and the time, as soon as its receiver has taken its four steps, and stays. The number belongs to one
request, and the carrier answers it once. -/
theorem answer_recorded_partial (pre mid post : List Step) (t : Nat) (now : Int) (phone : Bytes) (q : UInt64) (c : Nat) (r : Resp)
    (hw : (run pre).senders t = .written phone q)
    (h1 : ∀ t' phone', (run pre).senders t' = .written phone' q → t' = t) (h2 : ∀ v ∈ (run pre).heap, v.sequenceId ≠ q)
    (h3 : ∀ t' phone', .write t' phone' q ∉ mid) (h4 : ∀ d now', .visit d now' ∈ mid → now' ≤ now + d)
    (h5 : ∀ c' r', .answer c' r' ∈ mid ++ post → r'.key ≠ .u64 q)
    (hr : r.key = .u64 q) (hc : (run (pre ++ .store t now :: mid)).recvs c = .idle) (h6 : 4 ≤ post.countP (Spec.goes c)) :
    ∃ v : Result, (run (pre ++ .store t now :: mid ++ .answer c r :: post)).heap[(run pre).heap.length]? = some v ∧
      v.result = r.code ∧ v.msgId = r.msgId ∧ .go c v.responseTime ∈ post := by
  have hk := kept_until_old pre mid t now phone q hw h1 h2 h3 h4
  obtain ⟨q1, q2⟩ := quiet_stored (ok_run pre) (now := now) hw
  have hq : Quiet q (run pre).heap.length (run (pre ++ .store t now :: mid)) := by
    rw [run_cons_append]
    exact foldl_keep (P := Quiet q (run pre).heap.length) (Q := fun x => ∀ c' r', x = .answer c' r' → r'.key ≠ .u64 q)
      (fun s x h hx => quiet_step h x hx) mid (fun x hx c' r' e => h5 c' r' (List.mem_append_left _ (e ▸ hx))) _ q1
  rw [run_cons_append]
  generalize run (pre ++ .store t now :: mid) = s at hk hq hc
  have hs : step s (.answer c r) = { s with recvs := setAt s.recvs c (.found (run pre).heap.length r) } := by
    simp only [step, hc, hr, hk]
  have h0 : Recorded q c (run pre).heap.length r (fun n => .go c n ∈ post) 0 (step s (.answer c r)) := by
    rw [hs]
    refine ⟨⟨_, List.getElem?_eq_getElem hq.here, setAt_self _ _ _⟩, ?_, hq.key⟩
    intro c' hne
    dsimp only
    rw [setAt_ne _ _ hne]
    exact hq.still c'
  obtain ⟨v, hv, hp⟩ := (recorded_foldl post (fun c' r' hm => h5 c' r' (List.mem_append_right _ hm)) (fun n hn => hn) 0 _ h0).phase
  refine ⟨v, hv, ?_⟩
  rw [Nat.zero_add] at hp
  obtain ⟨m, hm⟩ : ∃ m, post.countP (Spec.goes c) = m + 4 := ⟨_, (Nat.sub_add_cancel h6).symm⟩
  rw [hm] at hp
  exact ⟨hp.2.1, hp.2.2.1, hp.2.2.2⟩

/-- Two senders, two receivers and the cleaner at once. -/
example : let q := Client.sequence2Uint64 7 9
    let pre := [Step.write 0 [49] q, .write 1 [50] (q + 1)]
    let mid := [Step.clean true [.u64 q], .visit 50 101, .store 1 102, .answer 4 (.sgip 1 7 10 0), .visit 50 102]
    let post := [Step.go 4 103, .go 3 104, .delete, .go 3 105, .go 4 106, .go 3 107, .clean true [], .go 3 108, .go 4 109]
    (run pre).senders 0 = .written [49] q ∧ (run (pre ++ .store 0 100 :: mid)).recvs 3 = .idle ∧
      4 ≤ post.countP (Spec.goes 3) ∧
      (run (pre ++ .store 0 100 :: mid ++ .answer 3 (.sgip 1 7 9 5) :: post)).heap[0]? =
        some { phone := [49], sequenceId := q, sendTime := 100, result := 5, msgId := Client.sequence2String 1 7 9, responseTime := 107 } := by
  decide

/-! ## What `Query` shows in between -/

/-- C126, refuted: between the first and the second step of a receiver `Query` shows the answer's code and no message id, in every history. -/
theorem half_answer_seen_fails (pre : List Step) (c i : Nat) (r : Resp) (now : Int) (v : Result) (hc : (run pre).recvs c = .found i r)
    (hv : (run pre).heap[i]? = some v) : (run (pre ++ [.go c now])).heap[i]? = some { v with result := r.code } := by
  rw [run_snoc, heap_step _ _ i v hv]
  simp only [upd, hc, if_true]

example : let q := Client.sequence2Uint64 7 9
    let pre := [Step.write 0 [49] q, .store 0 100, .answer 3 (.sgip 1 7 9 5)]
    (run pre).recvs 3 = .found 0 (.sgip 1 7 9 5) ∧
      (run (pre ++ [.go 3 101])).heap = [{ phone := [49], sequenceId := q, sendTime := 100, result := 5 }] := by decide

/-- Whatever a result says comes from answers to its own request. -/
structure Sourced (steps : List Step) (s : State) : Prop where
  found : ∀ c i r, s.recvs c = .found i r ∨ s.recvs c = .coded i r ∨ s.recvs c = .named i r →
    (∃ c', .answer c' r ∈ steps) ∧ ∃ v : Result, s.heap[i]? = some v ∧ r.key = .u64 v.sequenceId
  coded : ∀ (c i : Nat) (v : Result), (∃ r, s.recvs c = .coded i r ∨ s.recvs c = .named i r) → s.heap[i]? = some v →
    ∃ c' r, .answer c' r ∈ steps ∧ r.key = .u64 v.sequenceId ∧ v.result = r.code
  named : ∀ (c i : Nat) (v : Result), (∃ r, s.recvs c = .named i r) → s.heap[i]? = some v →
    ∃ c' r, .answer c' r ∈ steps ∧ r.key = .u64 v.sequenceId ∧ v.msgId = r.msgId
  timed : ∀ (i : Nat) (v : Result), s.heap[i]? = some v → v.responseTime ≠ 0 →
    (∃ c' r, .answer c' r ∈ steps ∧ r.key = .u64 v.sequenceId ∧ v.result = r.code) ∧
      ∃ c' r, .answer c' r ∈ steps ∧ r.key = .u64 v.sequenceId ∧ v.msgId = r.msgId

theorem found_back {s : State} {x : Step} {c i : Nat} {r : Resp} (h : (step s x).recvs c = .found i r) :
    s.recvs c = .found i r ∨ x = .answer c r ∧ s.seqMap.load r.key = some i := by
  rcases recvs_step s x c with e | ⟨r', j, hx, _, hl, e⟩ | ⟨r', j, hx, _, hl, e⟩ | ⟨now, hx, e⟩
  · rw [e] at h; exact .inl h
  · rw [e] at h; injection h with h1 h2; subst h1; subst h2; exact .inr ⟨hx, hl⟩
  · rw [e] at h; cases h
  · rw [e] at h; cases hc : s.recvs c <;> rw [hc] at h <;> cases h

theorem coded_back {s : State} {x : Step} {c i : Nat} {r : Resp} (h : (step s x).recvs c = .coded i r) :
    s.recvs c = .coded i r ∨ (∃ now, x = .go c now) ∧ s.recvs c = .found i r := by
  rcases recvs_step s x c with e | ⟨r', j, hx, _, hl, e⟩ | ⟨r', j, hx, _, hl, e⟩ | ⟨now, hx, e⟩
  · rw [e] at h; exact .inl h
  · rw [e] at h; cases h
  · rw [e] at h; cases h
  · rw [e] at h
    cases hc : s.recvs c <;> rw [hc] at h <;> cases h
    exact .inr ⟨⟨now, hx⟩, rfl⟩

theorem named_back {s : State} {x : Step} {c i : Nat} {r : Resp} (h : (step s x).recvs c = .named i r) :
    s.recvs c = .named i r ∨ (∃ now, x = .go c now) ∧ s.recvs c = .coded i r := by
  rcases recvs_step s x c with e | ⟨r', j, hx, _, hl, e⟩ | ⟨r', j, hx, _, hl, e⟩ | ⟨now, hx, e⟩
  · rw [e] at h; exact .inl h
  · rw [e] at h; cases h
  · rw [e] at h; cases h
  · rw [e] at h
    cases hc : s.recvs c <;> rw [hc] at h <;> cases h
    exact .inr ⟨⟨now, hx⟩, rfl⟩

/-- What a step does to the code of a result. -/
theorem upd_result (s : State) (x : Step) (i : Nat) (v : Result) : (upd s x i v).result = v.result ∨
    ∃ c now r, x = .go c now ∧ s.recvs c = .found i r ∧ (upd s x i v).result = r.code := by
  unfold upd
  split
  · rename_i c now
    split <;> first | exact .inl rfl | skip
    · rename_i j r he
      split
      · rename_i hj; subst hj; exact .inr ⟨c, now, r, rfl, he, rfl⟩
      · exact .inl rfl
    all_goals (split <;> exact .inl rfl)
  · exact .inl rfl

theorem upd_msgId (s : State) (x : Step) (i : Nat) (v : Result) : (upd s x i v).msgId = v.msgId ∨
    ∃ c now r, x = .go c now ∧ s.recvs c = .coded i r ∧ (upd s x i v).msgId = r.msgId := by
  unfold upd
  split
  · rename_i c now
    split <;> first | exact .inl rfl | skip
    · split <;> exact .inl rfl
    · rename_i j r he
      split
      · rename_i hj; subst hj; exact .inr ⟨c, now, r, rfl, he, rfl⟩
      · exact .inl rfl
    all_goals (split <;> exact .inl rfl)
  · exact .inl rfl

theorem upd_time (s : State) (x : Step) (i : Nat) (v : Result) : (upd s x i v).responseTime = v.responseTime ∨
    ∃ c now r, x = .go c now ∧ s.recvs c = .named i r := by
  unfold upd
  split
  · rename_i c now
    split <;> first | exact .inl rfl | skip
    · split <;> exact .inl rfl
    · split <;> exact .inl rfl
    · rename_i j r he
      split
      · rename_i hj; subst hj; exact .inr ⟨c, now, r, rfl, he⟩
      · exact .inl rfl
    all_goals (split <;> exact .inl rfl)
  · exact .inl rfl

theorem sourced_run (steps : List Step) : Sourced steps (run steps) := by
  induction steps using snoc_induction with
  | nil =>
    constructor
    · intro c i r h; rcases h with h | h | h <;> cases h
    · intro c i v h hv; cases hv
    · intro c i v h hv; cases hv
    · intro i v hv; cases hv
  | snoc steps x ih =>
    have hok := ok_run steps
    rw [run_snoc]
    generalize run steps = s at ih hok
    have mem : ∀ c r, .answer c r ∈ steps → .answer c r ∈ steps ++ [x] := fun c r h => List.mem_append_left _ h
    have hfound : ∀ c i r, (step s x).recvs c = .found i r ∨ (step s x).recvs c = .coded i r ∨ (step s x).recvs c = .named i r →
        (∃ c', .answer c' r ∈ steps ++ [x]) ∧ ∃ v : Result, (step s x).heap[i]? = some v ∧ r.key = .u64 v.sequenceId := by
      intro c i r h
      have lift : (∃ c', .answer c' r ∈ steps) ∧ (∃ v : Result, s.heap[i]? = some v ∧ r.key = .u64 v.sequenceId) →
          (∃ c', .answer c' r ∈ steps ++ [x]) ∧ ∃ v : Result, (step s x).heap[i]? = some v ∧ r.key = .u64 v.sequenceId := by
        rintro ⟨⟨c', h1⟩, v, hv, hk⟩
        exact ⟨⟨c', mem _ _ h1⟩, _, heap_step s x i v hv, by rw [(upd_same s x i v).1]; exact hk⟩
      rcases h with h | h | h
      · rcases found_back h with h | ⟨hx, hl⟩
        · exact lift (ih.found c i r (.inl h))
        · obtain ⟨v, hv, hk⟩ := hok.seq _ _ hl
          exact ⟨⟨c, by rw [hx]; simp⟩, _, heap_step s x i v hv, by rw [(upd_same s x i v).1]; exact hk⟩
      · rcases coded_back h with h | ⟨_, h⟩
        · exact lift (ih.found c i r (.inr (.inl h)))
        · exact lift (ih.found c i r (.inl h))
      · rcases named_back h with h | ⟨_, h⟩
        · exact lift (ih.found c i r (.inr (.inr h)))
        · exact lift (ih.found c i r (.inr (.inl h)))
    -- a result's code, once from an answer to its request, stays so
    have code : ∀ (i : Nat) (v : Result), s.heap[i]? = some v →
        (∃ c' r, .answer c' r ∈ steps ∧ r.key = .u64 v.sequenceId ∧ v.result = r.code) →
        ∃ c' r, .answer c' r ∈ steps ++ [x] ∧ r.key = .u64 (upd s x i v).sequenceId ∧ (upd s x i v).result = r.code := by
      rintro i v hv ⟨c', r, h1, h2, h3⟩
      rw [(upd_same s x i v).1]
      rcases upd_result s x i v with e | ⟨c, now, r', hx, hc, e⟩
      · exact ⟨c', r, mem _ _ h1, h2, e.trans h3⟩
      · obtain ⟨⟨c1, h4⟩, v', hv', h5⟩ := ih.found c i r' (.inl hc)
        rw [hv] at hv'; injection hv' with hv'; subst hv'
        exact ⟨c1, r', mem _ _ h4, h5, e⟩
    have name : ∀ (i : Nat) (v : Result), s.heap[i]? = some v →
        (∃ c' r, .answer c' r ∈ steps ∧ r.key = .u64 v.sequenceId ∧ v.msgId = r.msgId) →
        ∃ c' r, .answer c' r ∈ steps ++ [x] ∧ r.key = .u64 (upd s x i v).sequenceId ∧ (upd s x i v).msgId = r.msgId := by
      rintro i v hv ⟨c', r, h1, h2, h3⟩
      rw [(upd_same s x i v).1]
      rcases upd_msgId s x i v with e | ⟨c, now, r', hx, hc, e⟩
      · exact ⟨c', r, mem _ _ h1, h2, e.trans h3⟩
      · obtain ⟨⟨c1, h4⟩, v', hv', h5⟩ := ih.found c i r' (.inr (.inl hc))
        rw [hv] at hv'; injection hv' with hv'; subst hv'
        exact ⟨c1, r', mem _ _ h4, h5, e⟩
    constructor
    · exact hfound
    · rintro c i w ⟨r, hr⟩ hw
      rcases heap_new s x i w hw with ⟨v, hv, e⟩ | ⟨t, now, phone, q, hx, _, hi, _⟩
      · subst e
        have hr' : (s.recvs c = .coded i r ∨ s.recvs c = .named i r) ∨ (∃ now, x = .go c now) ∧ s.recvs c = .found i r := by
          rcases hr with hr | hr
          · rcases coded_back hr with hr | ⟨hx, hr⟩
            · exact .inl (.inl hr)
            · exact .inr ⟨hx, hr⟩
          · rcases named_back hr with hr | ⟨hx, hr⟩
            · exact .inl (.inr hr)
            · exact .inl (.inl hr)
        rcases hr' with hr' | ⟨⟨now, hx⟩, hr'⟩
        · exact code i v hv (ih.coded c i v ⟨r, hr'⟩ hv)
        · obtain ⟨⟨c1, h4⟩, v', hv', h5⟩ := ih.found c i r (.inl hr')
          rw [hv] at hv'; injection hv' with hv'; subst hv'
          refine ⟨c1, r, mem _ _ h4, by rw [(upd_same s x i v).1]; exact h5, ?_⟩
          subst hx
          simp only [upd, hr', if_true]
      · exfalso
        rcases hr with hr | hr
        · have := hok.recs c i (by rcases coded_back hr with h | ⟨_, h⟩ <;> rw [h] <;> rfl); omega
        · have := hok.recs c i (by rcases named_back hr with h | ⟨_, h⟩ <;> rw [h] <;> rfl); omega
    · rintro c i w ⟨r, hr⟩ hw
      rcases heap_new s x i w hw with ⟨v, hv, e⟩ | ⟨t, now, phone, q, hx, _, hi, _⟩
      · subst e
        rcases named_back hr with hr' | ⟨⟨now, hx⟩, hr'⟩
        · exact name i v hv (ih.named c i v ⟨r, hr'⟩ hv)
        · obtain ⟨⟨c1, h4⟩, v', hv', h5⟩ := ih.found c i r (.inr (.inl hr'))
          rw [hv] at hv'; injection hv' with hv'; subst hv'
          refine ⟨c1, r, mem _ _ h4, by rw [(upd_same s x i v).1]; exact h5, ?_⟩
          subst hx
          simp only [upd, hr', if_true]
      · exfalso
        have := hok.recs c i (by rcases named_back hr with h | ⟨_, h⟩ <;> rw [h] <;> rfl); omega
    · intro i w hw ht
      rcases heap_new s x i w hw with ⟨v, hv, e⟩ | ⟨t, now, phone, q, hx, _, hi, e⟩
      · subst e
        rcases upd_time s x i v with e | ⟨c, now, r, hx, hc⟩
        · rw [e] at ht
          obtain ⟨h1, h2⟩ := ih.timed i v hv ht
          exact ⟨code i v hv h1, name i v hv h2⟩
        · exact ⟨code i v hv (ih.coded c i v ⟨r, .inr hc⟩ hv), name i v hv (ih.named c i v ⟨r, hc⟩ hv)⟩
      · subst e; exact absurd rfl ht

/-- C126, in every history: a result that shows a response time shows the code and the message id of answers to its own request. -/
theorem timed_result_whole (steps : List Step) (i : Nat) (v : Result) (hv : (run steps).heap[i]? = some v) (ht : v.responseTime ≠ 0) :
    (∃ c r, .answer c r ∈ steps ∧ r.key = .u64 v.sequenceId ∧ v.result = r.code) ∧
      ∃ c r, .answer c r ∈ steps ∧ r.key = .u64 v.sequenceId ∧ v.msgId = r.msgId :=
  (sourced_run steps).timed i v hv ht

example : let q := Client.sequence2Uint64 7 9
    ∃ v, (run [Step.write 0 [49] q, .store 0 100, .answer 3 (.sgip 1 7 9 5), .go 3 1, .go 3 2, .go 3 3]).heap[0]? = some v ∧ v.responseTime ≠ 0 :=
  ⟨_, rfl, by decide⟩

/-! ## The cleaner -/

/-- The deletions of the cleaner, one after the other. -/
theorem deletes (keys : List Key) (s : State) (hc : s.cleaner = .deleting true keys) :
    let s' := (List.replicate keys.length Step.delete).foldl step s
    (∀ k, s'.seqMap.load k = if k ∈ keys then none else s.seqMap.load k) ∧ s'.heap = s.heap ∧ s'.recvs = s.recvs := by
  induction keys generalizing s with
  | nil => exact ⟨fun k => by simp, rfl, rfl⟩
  | cons k0 keys ih =>
    have hs : step s .delete = { s with seqMap := s.seqMap.delete k0, cleaner := .deleting true keys } := by
      simp only [step, hc]
    have := ih (step s .delete) (by rw [hs])
    simp only [List.length_cons, List.replicate_succ, List.foldl_cons]
    refine ⟨fun k => ?_, by rw [this.2.1, hs], by rw [this.2.2, hs]⟩
    rw [this.1 k, hs]
    dsimp only
    rw [load_delete]
    by_cases h1 : k ∈ keys
    · rw [if_pos h1, if_pos (List.mem_cons_of_mem _ h1)]
    · rw [if_neg h1]
      by_cases h2 : k = k0
      · rw [if_pos h2, if_pos (by rw [h2]; exact List.mem_cons_self)]
      · rw [if_neg h2, if_neg (by rw [List.mem_cons]; exact fun h => h.elim h2 h1)]

/-- C126, refuted, in every history: the cleaner deletes by key what it found old some time before. A request stored under such a key in between is
deleted although it is new, and no answer is recorded in it any more, whatever comes. -/
theorem fresh_request_removed_fails (pre post : List Step) (t : Nat) (now : Int) (phone : Bytes) (q : UInt64) (keys : List Key)
    (hw : (run pre).senders t = .written phone q) (hc : (run pre).cleaner = .deleting true keys) (hk : .u64 q ∈ keys) :
    ∃ v : Result, (run (pre ++ .store t now :: (List.replicate keys.length Step.delete ++ post))).heap[(run pre).heap.length]? = some v ∧
      v.phone = phone ∧ v.sequenceId = q ∧ v.sendTime = now ∧ v.result = 0 ∧ v.msgId = [] ∧ v.responseTime = 0 := by
  obtain ⟨h1, h2⟩ := quiet_stored (ok_run pre) (now := now) hw
  rw [run_cons_append, List.foldl_append]
  have hc' : (step (run pre) (.store t now)).cleaner = .deleting true keys := by simp only [step, hw]; exact hc
  generalize hi : (run pre).heap.length = i at h1 h2
  generalize step (run pre) (.store t now) = s at h1 h2 hc'
  obtain ⟨d1, d2, d3⟩ := deletes keys s hc'
  generalize (List.replicate keys.length Step.delete).foldl step s = s' at d1 d2 d3
  have hgone : ∀ k, s'.seqMap.load k ≠ some i := by
    intro k hl
    rw [d1] at hl
    split at hl
    · cases hl
    · rename_i hn
      exact hn (by rw [h1.key k hl]; exact hk)
  -- no key leads to the result any more
  have keep : ∀ (l : List Step) (s : State) (v : Result), s.heap[i]? = some v → (∀ c, ¬ Spec.recording (s.recvs c) i) →
      (∀ k, s.seqMap.load k ≠ some i) → ∃ w : Result, (l.foldl step s).heap[i]? = some w ∧ Spec.sameAnswer v w ∧
        w.sequenceId = v.sequenceId ∧ w.sendTime = v.sendTime ∧ w.phone = v.phone := by
    intro l
    induction l with
    | nil => intro s v hv _ _; exact ⟨v, hv, ⟨rfl, rfl, rfl⟩, rfl, rfl, rfl⟩
    | cons x l ih =>
      intro s v hv hs hg
      have e1 := upd_answer s x i v (fun c _ _ => hs c)
      have e2 := upd_same s x i v
      obtain ⟨w, hw, h3, h4⟩ := ih (step s x) _ (heap_step s x i v hv)
        (fun c hr => by
          rcases recording_step hr with hr | ⟨r, _, hl⟩
          · exact hs c hr
          · exact hg _ hl)
        (fun k hl => hg k (seq_to_step (lt_of_get hv) hl))
      exact ⟨w, hw, ⟨h3.1.trans e1.1, h3.2.1.trans e1.2.1, h3.2.2.trans e1.2.2⟩, h4.1.trans e2.1, h4.2.1.trans e2.2.1, h4.2.2.trans e2.2.2⟩
  obtain ⟨v, hv, h3, h4, h5, h6⟩ := keep post s' _ (by rw [d2]; exact h2) (fun c => by rw [d3]; exact h1.still c) hgone
  exact ⟨v, hv, h6, h4, h5, h3.1, h3.2.1, h3.2.2⟩

/-- The hypotheses are met: the number of a request that has grown old is used again. -/
example : let q := Client.sequence2Uint64 7 9
    let pre := [Step.write 0 [49] q, .store 0 100, .clean true [.u64 q], .visit 50 200, .visit 50 200, .write 0 [50] q]
    (run pre).senders 0 = .written [50] q ∧ (run pre).cleaner = .deleting true [.u64 q] ∧
      (run (pre ++ [.store 0 201, .delete, .answer 3 (.sgip 1 7 9 5), .go 3 202, .go 3 203, .go 3 204, .go 3 205])).heap[1]? =
        some { phone := [50], sequenceId := q, sendTime := 201 } := by decide

/-- Only its own steps move a cleaner that is deleting. -/
theorem deleting_step (s : State) (x : Step) (seqs : Bool) (keys : List Key) (h : s.cleaner = .deleting seqs keys) (hx : x ≠ .delete) :
    (step s x).cleaner = .deleting seqs keys := by
  cases x with
  | write t phone q => simp only [step]; split <;> exact h
  | store t now => simp only [step]; split <;> exact h
  | answer c r =>
    simp only [step]
    split
    · split <;> exact h
    · exact h
  | report c r =>
    simp only [step]
    split
    · split <;> exact h
    · exact h
  | go c now => simp only [step, go]; split <;> exact h
  | clean sq order => simp only [step, h]
  | visit d now => simp only [step, visit, h]
  | delete => exact absurd rfl hx

/-- C103, C126: **what the cleaner has found to be too old it deletes**, from the map it cleans, whatever the others do in between: once it has taken as many
steps as it has keys, there was for each of them a moment right after which nothing was stored under it. -/
theorem cleaner_deletes (a b : List Step) (seqs : Bool) (keys : List Key) (h : (run a).cleaner = .deleting seqs keys)
    (hn : keys.length ≤ (b.filter (· = .delete)).length) (k : Key) (hk : k ∈ keys) :
    ∃ b1 b2, b = b1 ++ .delete :: b2 ∧
      (if seqs then (run (a ++ b1 ++ [.delete])).seqMap else (run (a ++ b1 ++ [.delete])).msgMap).load k = none := by
  induction b generalizing a keys with
  | nil => cases keys with
    | nil => cases hk
    | cons => cases hn
  | cons x b ih =>
    by_cases hx : x = .delete
    · subst hx
      cases keys with
      | nil => cases hk
      | cons k0 keys =>
        by_cases hk0 : k = k0
        · subst hk0
          refine ⟨[], b, rfl, ?_⟩
          rw [List.append_nil, run_snoc]
          cases seqs <;> simp [step, h, load_delete]
        · have hk' : k ∈ keys := by
            rcases List.mem_cons.1 hk with e | e
            · exact absurd e hk0
            · exact e
          have hc : (run (a ++ [.delete])).cleaner = .deleting seqs keys := by
            rw [run_snoc]
            cases seqs <;> simp [step, h]
          obtain ⟨b1, b2, e1, e2⟩ := ih (a ++ [.delete]) keys hc (by simpa using hn) hk'
          exact ⟨.delete :: b1, b2, by rw [e1]; rfl, by simpa using e2⟩
    · have hc : (run (a ++ [x])).cleaner = .deleting seqs keys := by rw [run_snoc]; exact deleting_step _ x seqs keys h hx
      obtain ⟨b1, b2, e1, e2⟩ := ih (a ++ [x]) keys hc (by simpa [hx] using hn) hk
      exact ⟨x :: b1, b2, by rw [e1]; rfl, by simpa using e2⟩

/-- Two messages sent and answered. -/
def twoAnswered : List Step :=
  [.write 0 [49] (Client.sequence2Uint64 7 9), .store 0 10, .write 0 [50] (Client.sequence2Uint64 7 10), .store 0 10,
   .answer 3 (.sgip 1 7 9 0), .go 3 11, .go 3 11, .go 3 11, .go 3 11, .answer 3 (.sgip 1 7 10 0), .go 3 11, .go 3 11, .go 3 11, .go 3 11]

/-- The cleaner is about to delete both from the map of message ids; a message is sent while it does. -/
example : let a := twoAnswered ++ [.clean false ((run twoAnswered).msgMap.map (·.1)), .visit 5 100, .visit 5 100, .visit 5 100]
    let b : List Step := [.delete, .write 0 [51] 7, .store 0 100, .delete]
    (run a).cleaner = .deleting false ((run twoAnswered).msgMap.map (·.1)) ∧ (run twoAnswered).msgMap.length = 2 ∧
    ((run twoAnswered).msgMap.map (·.1)).length ≤ (b.filter (· = .delete)).length := by
  decide +kernel

end Gosms.ClientRaces
