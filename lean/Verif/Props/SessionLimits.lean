import Verif.Props.Sessions

/-!
# C46 (refutation), C47: more sessions than the limit; the session counter
-/

namespace Gosms.Sessions
open Handlers
open Spec (loggedIn serviceCommands openedCount closedCount Block)

theorem run_append (e : Env) (a b : List Step) : run e (a ++ b) = b.foldl (step e) (run e a) := by
  unfold run; rw [List.foldl_append]

theorem loginAccount_decodes {e : Env} {seq : UInt32} {body : Bytes} {ac : AuthConf} (ver : UInt8)
    (h : loginAccount e seq body = some ac) : decodes e.gbDec ver seq body e.proto .login = true := by
  unfold loginAccount at h
  split at h <;> rename_i hp <;> rw [hp] <;> obtain ⟨l, hl, _⟩ := Option.bind_eq_some_iff.1 h <;>
    simp only [decodes, hl, Option.isSome_some]

theorem login_in_chain (p : Proto) : (Spec.loginCommand p, Kind.login) ∈ chain p := by
  cases p <;> decide

/-- A login packet on an open connection waits for a goroutine. -/
theorem step_login_packet {e : Env} {s : State} {n : Nat} {seq : UInt32} {body : Bytes} {ac : AuthConf}
    (hup : s.crashed = false) (hl : n ∈ s.live) (h : loginAccount e seq body = some ac) :
    step e s (.packet n (Spec.loginCommand e.proto) seq body) =
      { s with waiting := s.waiting ++ [(n, seq, body)] } := by
  unfold step
  rw [if_neg (by simp [hup])]
  simp only [if_pos hl, onPacket, serve_handled e.gbDec e.proto _ _ _ seq body .login (login_in_chain e.proto), handle]
  simp [loginAccount_decodes _ h]

theorem step_open {e : Env} {s : State} {n : Nat} (hup : s.crashed = false) (hu : n ∉ s.used) (ha : s.active < e.cap) :
    step e s (.open n) =
      { s with obj := setObj s.obj n {}, pool := n :: s.pool, live := n :: s.live, used := n :: s.used,
               active := s.active + 1, log := s.log ++ [.opened n] } := by
  unfold step
  rw [if_neg (by simp [hup])]
  simp only [if_neg hu, onOpen]
  rw [if_neg (by omega)]

/-- After `k` connections have been opened. -/
structure Opened (k : Nat) (s : State) : Prop where
  obj : ∀ n, s.obj n = {}
  pool : s.pool = (List.range k).reverse
  live : s.live = (List.range k).reverse
  used : s.used = (List.range k).reverse
  active : s.active = k
  waiting : s.waiting = []
  checked : s.checked = []
  up : s.crashed = false

theorem range_succ_reverse (k : Nat) : (List.range (k + 1)).reverse = k :: (List.range k).reverse := by
  rw [List.range_succ, List.reverse_append]; rfl

theorem opens (e : Env) (k : Nat) (hk : (k : Int) ≤ e.cap) : Opened k (run e ((List.range k).map .open)) := by
  induction k with
  | zero => exact ⟨fun _ => rfl, rfl, rfl, rfl, rfl, rfl, rfl, rfl⟩
  | succ k ih =>
    have h := ih (by omega)
    rw [List.range_succ, List.map_append, List.map_singleton, run_snoc, step_open h.up (by rw [h.used]; simp) (by
      rw [h.active]; omega)]
    refine ⟨?_, ?_, ?_, ?_, ?_, h.waiting, h.checked, h.up⟩
    · intro n
      simp only [setObj]
      split
      · rfl
      · exact h.obj n
    · simp only [h.pool, range_succ_reverse]
    · simp only [h.live, range_succ_reverse]
    · simp only [h.used, range_succ_reverse]
    · simp only [h.active]; omega

theorem packets {e : Env} {seq : UInt32} {body : Bytes} {ac : AuthConf} (h : loginAccount e seq body = some ac)
    (L : List Nat) (s : State) (hup : s.crashed = false) (hl : ∀ n ∈ L, n ∈ s.live) :
    (L.map fun n => Step.packet n (Spec.loginCommand e.proto) seq body).foldl (step e) s =
      { s with waiting := s.waiting ++ L.map fun n => (n, seq, body) } := by
  induction L generalizing s with
  | nil => simp
  | cons n L ih =>
    rw [List.map_cons, List.foldl_cons, step_login_packet hup (hl n (by simp)) h, ih]
    · simp [List.append_assoc]
    · exact hup
    · intro m hm; exact hl m (by simp [hm])

theorem checks {e : Env} {seq : UInt32} {body : Bytes} {ac : AuthConf} (h : loginAccount e seq body = some ac)
    (L : List Nat) (s : State) (hup : s.crashed = false) (hl : ∀ n ∈ L, n ∈ s.live)
    (hw : s.waiting = L.map fun n => (n, seq, body)) (hcnt : (countClient s ac.clientId : Int) < ac.maxConns) :
    (List.replicate L.length (Step.loginCheck 0)).foldl (step e) s =
      { s with waiting := [], checked := s.checked ++ L.map fun n => (n, some ac) } := by
  induction L generalizing s with
  | nil => simp at hw; cases s; simp_all
  | cons n L ih =>
    rw [List.length_cons, List.replicate_succ, List.foldl_cons]
    have e1 : step e s (.loginCheck 0) =
        { s with waiting := L.map fun n => (n, seq, body), checked := s.checked ++ [(n, some ac)] } := by
      unfold step
      rw [if_neg (by simp [hup])]
      simp only [onCheck, hw, List.map_cons, List.getElem?_cons_zero, List.eraseIdx_cons_zero]
      rw [if_pos (hl n (by simp)), h]
      have hc : ∀ w, countClient { s with waiting := w } ac.clientId = countClient s ac.clientId := fun _ => rfl
      simp only [Option.bind_some, hc]
      rw [if_neg (by omega)]
    rw [e1, ih]
    · simp [List.append_assoc]
    · exact hup
    · intro m hm; exact hl m (by simp [hm])
    · rfl
    · exact hcnt

theorem dones {e : Env} {ac : AuthConf} (L : List Nat) (s : State) (hup : s.crashed = false) (hl : ∀ n ∈ L, n ∈ s.live)
    (hc : s.checked = L.map fun n => (n, some ac)) :
    ∃ s', (List.replicate L.length (Step.loginDone 0)).foldl (step e) s = s' ∧ s'.crashed = false ∧
      s'.live = s.live ∧ ∀ n, s'.obj n = if n ∈ L then ⟨ac.clientId, ac.version, .login⟩ else s.obj n := by
  induction L generalizing s with
  | nil => exact ⟨s, rfl, hup, rfl, by simp⟩
  | cons n L ih =>
    rw [List.length_cons, List.replicate_succ, List.foldl_cons]
    have e1 : step e s (.loginDone 0) =
        { s with checked := L.map fun n => (n, some ac), obj := setObj s.obj n ⟨ac.clientId, ac.version, .login⟩
                 pool := if n ∈ s.pool then s.pool else n :: s.pool
                 log := s.log ++ [.accepted n ac.clientId] } := by
      unfold step
      rw [if_neg (by simp [hup])]
      simp only [onDone, hc, List.map_cons, List.getElem?_cons_zero, List.eraseIdx_cons_zero]
      rw [if_pos (.inl (hl n (by simp)))]
    rw [e1]
    obtain ⟨s', h1, h2, h3, h4⟩ := ih { s with
        checked := L.map fun n => (n, some ac), obj := setObj s.obj n ⟨ac.clientId, ac.version, .login⟩
        pool := if n ∈ s.pool then s.pool else n :: s.pool
        log := s.log ++ [.accepted n ac.clientId] } hup (fun m hm => hl m (by simp [hm])) rfl
    refine ⟨s', h1, h2, h3, ?_⟩
    intro m
    rw [h4 m]
    simp only [setObj, List.mem_cons]
    by_cases h5 : m ∈ L
    · simp [h5]
    · by_cases h6 : m = n <;> simp [h5, h6]

/-- The code violates C46: whatever the (positive) limit of an account, any number of connections the server has
room for can be logged in to it at the same time, when their logins are checked before any of them is
complete. -/
theorem max_conns_fails (e : Env) (seq : UInt32) (body : Bytes) (ac : AuthConf)
    (hac : loginAccount e seq body = some ac) (hpos : 0 < ac.maxConns) (hid : ac.clientId ≠ [])
    (k : Nat) (hk : (k : Int) ≤ e.cap) :
    ∃ steps, (run e steps).crashed = false ∧ loggedIn (run e steps) ac.clientId = k := by
  have h := opens e k hk
  refine ⟨((((List.range k).map .open) ++
    ((List.range k).map fun n => Step.packet n (Spec.loginCommand e.proto) seq body)) ++
    List.replicate (List.range k).length (.loginCheck 0)) ++ List.replicate (List.range k).length (.loginDone 0), ?_⟩
  rw [run_append, run_append, run_append]
  generalize hs : run e ((List.range k).map .open) = s0 at *
  have hl : ∀ n ∈ List.range k, n ∈ s0.live := by
    intro n hn; rw [h.live]; simpa using hn
  rw [packets hac _ _ h.up hl, checks hac (List.range k) { s0 with waiting := s0.waiting ++ (List.range k).map fun n => (n, seq, body) } h.up hl (by simp [h.waiting]) ?_]
  · obtain ⟨s', h1, h2, h3, h4⟩ := dones (e := e) (ac := ac) (List.range k)
      { s0 with
        waiting := []
        checked := s0.checked ++ (List.range k).map fun n => (n, some ac) }
      h.up hl (by simp [h.checked])
    rw [h1]
    refine ⟨h2, ?_⟩
    have h5 : s'.live.filter (fun n => (s'.obj n).stat = .login ∧ (s'.obj n).clientId = ac.clientId) = s'.live := by
      apply List.filter_eq_self.2
      intro n hn
      rw [h3] at hn
      have hn' : n ∈ List.range k := by
        have := hn; simp only [h.live] at this; simpa using this
      simp only [h4 n, if_pos hn', and_self, decide_true]
    unfold loggedIn
    rw [h5, h3]
    simp [h.live]
  · have h0 : countClient { s0 with
        waiting := s0.waiting ++ (List.range k).map fun n => (n, seq, body) }
        ac.clientId = 0 := by
      unfold countClient
      rw [List.length_eq_zero_iff, List.filter_eq_nil_iff]
      intro n _
      simp only [h.obj n, decide_eq_true_eq]
      exact fun h => hid h.symm
    rw [h0]; exact hpos

set_option maxRecDepth 8000 in
/-- An account with limit 1 and its login body. -/
example : loginAccount exampleEnv 1 exampleBind = some exampleAccount ∧ exampleAccount.maxConns = 1 := by decide

/-! ## C47 -/

/-- The counter, the pool of sessions and the history agree. -/
structure Counted (e : Env) (s : State) : Prop where
  nodup : s.live.Nodup
  used : ∀ n ∈ s.live, n ∈ s.used
  active : s.active = s.live.length
  cap : (s.live.length : Int) ≤ max e.cap 0
  log : openedCount s.log = closedCount s.log + s.live.length

theorem length_filter_ne {l : List Nat} (hd : l.Nodup) {n : Nat} (h : n ∈ l) :
    (l.filter (· ≠ n)).length + 1 = l.length := by
  induction l with
  | nil => simp at h
  | cons a l ih =>
    rw [List.nodup_cons] at hd
    rw [List.filter_cons]
    by_cases ha : a = n
    · subst ha
      simp only [ne_eq, not_true, decide_false, Bool.false_eq_true, if_false, List.length_cons]
      rw [List.filter_eq_self.2]
      intro m hm
      simp only [ne_eq, decide_not, Bool.not_eq_true', decide_eq_false_iff_not]
      intro he; subst he; exact hd.1 hm
    · have hm : n ∈ l := by
        rcases List.mem_cons.1 h with h | h
        · exact absurd h.symm ha
        · exact h
      rw [if_pos (by simpa using ha), List.length_cons, ih hd.2 hm, List.length_cons]

theorem Counted.onClose {e : Env} {s : State} (h : Counted e s) {n : Nat} (hn : n ∈ s.live) :
    Counted e (onClose s n) := by
  have hlen := length_filter_ne h.nodup hn
  refine ⟨h.nodup.filter _, ?_, ?_, ?_, ?_⟩
  · intro m hm; exact h.used m (List.mem_filter.1 hm).1
  · show s.active - 1 = ((s.live.filter (· ≠ n)).length : Int)
    have := h.active
    omega
  · show ((s.live.filter (· ≠ n)).length : Int) ≤ _
    have := h.cap
    omega
  · show openedCount (s.log ++ [.closed n]) = closedCount (s.log ++ [.closed n]) + (s.live.filter (· ≠ n)).length
    have h1 : openedCount (s.log ++ [.closed n]) = openedCount s.log := by simp [openedCount]
    have h2 : closedCount (s.log ++ [.closed n]) = closedCount s.log + 1 := by simp [closedCount]
    have := h.log
    omega

theorem counted_step {e : Env} {s : State} (h : s.crashed = false → Counted e s) (x : Step) :
    (step e s x).crashed = false → Counted e (step e s x) := by
  unfold step
  by_cases hcr : s.crashed = true
  · rw [if_pos hcr]; exact h
  rw [if_neg hcr]
  have hc := h (by simpa using hcr)
  cases x with
  | «open» n =>
    simp only
    split
    · exact h
    · rename_i hu
      unfold onOpen
      split
      · intro h; cases h
      · intro _
        refine ⟨List.nodup_cons.2 ⟨fun hl => hu (hc.used n hl), hc.nodup⟩, ?_, ?_, ?_, ?_⟩
        · intro m hm
          rcases List.mem_cons.1 hm with hm | hm
          · rw [hm]; exact List.mem_cons_self
          · exact List.mem_cons_of_mem _ (hc.used m hm)
        · have := hc.active
          simp only [List.length_cons]; omega
        · have := hc.active
          simp only [List.length_cons]; omega
        · have h1 : openedCount (s.log ++ [.opened n]) = openedCount s.log + 1 := by simp [openedCount]
          have h2 : closedCount (s.log ++ [.opened n]) = closedCount s.log := by simp [closedCount]
          have := hc.log
          simp only [List.length_cons, h1, h2]; omega
  | packet n cmd seq body =>
    simp only
    split
    · rename_i hl
      unfold onPacket
      split
      · intro h; cases h
      · intro _; exact hc.onClose hl
      · exact h
      · intro _; exact ⟨hc.nodup, hc.used, hc.active, hc.cap, hc.log⟩
      · rename_i k _ _
        intro _
        refine ⟨hc.nodup, hc.used, hc.active, hc.cap, ?_⟩
        have h1 : openedCount (s.log ++ [.served n k]) = openedCount s.log := by simp [openedCount]
        have h2 : closedCount (s.log ++ [.served n k]) = closedCount s.log := by simp [closedCount]
        have := hc.log
        simp only [h1, h2]; omega
    · exact h
  | loginCheck i =>
    simp only [onCheck]
    intro _
    split
    · exact hc
    · split
      · exact ⟨hc.nodup, hc.used, hc.active, hc.cap, hc.log⟩
      · exact ⟨hc.nodup, hc.used, hc.active, hc.cap, hc.log⟩
  | loginDone i =>
    simp only [onDone]
    intro _
    split
    · exact hc
    · rename_i n ac hw
      split
      · split
        · rename_i ac
          refine ⟨hc.nodup, hc.used, hc.active, hc.cap, ?_⟩
          have h1 : openedCount (s.log ++ [.accepted n ac.clientId]) = openedCount s.log := by simp [openedCount]
          have h2 : closedCount (s.log ++ [.accepted n ac.clientId]) = closedCount s.log := by simp [closedCount]
          have := hc.log
          simp only [h1, h2]; omega
        · have key : Counted e { s with checked := s.checked.eraseIdx i,
                                        obj := setObj s.obj n { s.obj n with stat := .closing } } :=
            ⟨hc.nodup, hc.used, hc.active, hc.cap, hc.log⟩
          split
          · rename_i hl
            exact key.onClose hl
          · exact key
      · exact ⟨hc.nodup, hc.used, hc.active, hc.cap, hc.log⟩
  | close n =>
    simp only
    split
    · rename_i hl
      intro _; exact hc.onClose hl
    · exact h

theorem counted_run (e : Env) (steps : List Step) (h : (run e steps).crashed = false) : Counted e (run e steps) := by
  have : (run e steps).crashed = false → Counted e (run e steps) := by
    clear h
    induction steps using snoc_induction with
    | nil =>
      intro _
      refine ⟨List.nodup_nil, by simp [run], rfl, ?_, rfl⟩
      show ((0 : Nat) : Int) ≤ _
      omega
    | snoc steps x ih => rw [run_snoc]; exact counted_step ih x
  exact this h

/-- C47, the part that holds: with one event loop, until the process ends, the counter after every event is the
number of connections opened and not yet closed, and never exceeds the maximum. -/
theorem active_counter_partial (e : Env) (steps : List Step) (h : (run e steps).crashed = false) :
    (run e steps).active = (openedCount (run e steps).log : Int) - closedCount (run e steps).log ∧
    (run e steps).active = (run e steps).live.length ∧ (run e steps).active ≤ max e.cap 0 := by
  have hc := counted_run e steps h
  have h1 := hc.active
  have h2 := hc.log
  have h3 := hc.cap
  refine ⟨by omega, h1, by omega⟩

/-- The code violates the rest of C47: whenever the maximum is reached, refusing the next connection ends the
process. -/
theorem refusal_crashes_fails (e : Env) (steps : List Step) (n : Nat) (h : (run e steps).crashed = false)
    (hfull : e.cap ≤ (run e steps).active) (hn : n ∉ (run e steps).used) :
    (run e (steps ++ [.open n])).crashed = true ∧
    (run e (steps ++ [.open n])).active = (run e steps).active - 1 := by
  rw [run_snoc]
  unfold step
  rw [if_neg (by simp [h])]
  simp only [if_neg hn, onOpen]
  rw [if_pos (by omega)]
  exact ⟨rfl, rfl⟩

/-- For every maximum: that many connections are accepted and one more, which needs no login, ends the process. -/
theorem one_connection_too_many_fails (e : Env) (cap : Nat) (hcap : e.cap = cap) :
    (run e ((List.range cap).map .open)).crashed = false ∧
    (run e ((List.range (cap + 1)).map .open)).crashed = true := by
  have h := opens e cap (by omega)
  refine ⟨h.up, ?_⟩
  rw [List.range_succ, List.map_append, List.map_singleton]
  exact (refusal_crashes_fails e _ cap h.up (by rw [h.active]; omega) (by rw [h.used]; simp)).1

set_option maxRecDepth 8000 in
example : (run exampleEnv [.open 0, .open 1, .close 0, .open 2]).active = 2 ∧
    (run exampleEnv [.open 0, .open 1, .close 0, .open 2]).crashed = false ∧
    (run exampleEnv [.open 0, .open 1, .close 0, .open 2, .open 3]).crashed = true := by decide

/-! ## C67: a closed connection does not count -/

theorem pool_step {e : Env} (hl : e.late = false) {s : State} (h : s.pool = s.live) (x : Step) :
    (step e s x).pool = (step e s x).live := by
  unfold step
  split
  · exact h
  cases x with
  | «open» n =>
    simp only
    split
    · exact h
    · unfold onOpen
      split
      · exact h
      · simp only [h]
  | packet n cmd seq body =>
    simp only
    split
    · unfold onPacket
      split
      · exact h
      · simp only [onClose, h]
      · exact h
      · exact h
      · exact h
    · exact h
  | loginCheck i =>
    simp only [onCheck]
    split
    · exact h
    · split <;> exact h
  | loginDone i =>
    simp only [onDone, hl]
    split
    · exact h
    · rename_i n ac hw
      split
      · rename_i hn
        have hn : n ∈ s.live := by simpa using hn
        split
        · simp only [h, if_pos hn]
        · rw [if_pos hn]; simp only [onClose, h]
      · exact h
  | close n =>
    simp only
    split
    · simp only [onClose, h]
    · exact h

theorem pool_run (e : Env) (hl : e.late = false) (steps : List Step) : (run e steps).pool = (run e steps).live := by
  induction steps using snoc_induction with
  | nil => rfl
  | snoc steps x ih => rw [run_snoc]; exact pool_step hl ih x

/-- C67, when no write callback runs after its connection was closed: in every run, a login with valid
credentials on an open connection is accepted if fewer open connections than the limit have the client's
identity; closed connections play no role. -/
theorem login_accepted_partial (e : Env) (hlate : e.late = false) (steps : List Step) (i n : Nat) (seq : UInt32)
    (body : Bytes) (ac : AuthConf) (hup : (run e steps).crashed = false)
    (hw : (run e steps).waiting[i]? = some (n, seq, body)) (hn : n ∈ (run e steps).live)
    (hac : loginAccount e seq body = some ac)
    (hfree : (((run e steps).live.filter fun m => ((run e steps).obj m).clientId = ac.clientId).length : Int) <
      ac.maxConns) :
    (run e (steps ++ [.loginCheck i, .loginDone (run e steps).checked.length])).log =
      (run e steps).log ++ [.accepted n ac.clientId] := by
  have hp := pool_run e hlate steps
  rw [run_append]
  generalize hs : run e steps = s at *
  simp only [List.foldl_cons, List.foldl_nil]
  have e1 : step e s (.loginCheck i) =
      { s with waiting := s.waiting.eraseIdx i, checked := s.checked ++ [(n, some ac)] } := by
    unfold step
    rw [if_neg (by simp [hup])]
    simp only [onCheck, hw, if_pos hn, hac, Option.bind_some]
    rw [if_neg]
    show ¬ (((s.pool.filter fun m => (s.obj m).clientId = ac.clientId).length : Int) ≥ ac.maxConns)
    rw [hp]; omega
  rw [e1]
  unfold step
  rw [if_neg (by simp [hup])]
  simp only [onDone, List.getElem?_append_right (Nat.le_refl _), Nat.sub_self, List.getElem?_cons_zero]
  rw [if_pos (.inl hn)]

set_option maxRecDepth 8000 in
/-- Limit 1: after the first connection of the client has been closed, the second one gets in. -/
example : (run exampleEnv [.open 0, .packet 0 1 1 exampleBind, .loginCheck 0, .loginDone 0, .close 0,
    .open 1, .packet 1 1 1 exampleBind, .loginCheck 0, .loginDone 0]).log =
    [.opened 0, .accepted 0 (ascii "corp"), .closed 0, .opened 1, .accepted 1 (ascii "corp")] := by decide

end Gosms.Sessions
