import Verif.Props.SessionLimits

/-!
# C67 (refutation): what happens if a write callback runs after its connection was closed
-/

namespace Gosms.Sessions
open Handlers
open Spec (loggedIn)

/-- The sessions of closed connections fill the limit of client `c`. -/
structure Locked (c : Bytes) (m : Int) (s : State) : Prop where
  live : ∀ n ∈ s.live, (s.obj n).clientId ≠ c
  poolUsed : ∀ n ∈ s.pool, n ∈ s.used
  liveUsed : ∀ n ∈ s.live, n ∈ s.used
  count : m ≤ (countClient s c : Int)
  checked : ∀ n o, (n, o) ∈ s.checked → n ∈ s.used ∧ (s.obj n).clientId ≠ c ∧ ∀ ac, o = some ac → ac.clientId ≠ c

theorem Locked.onClose {c : Bytes} {m : Int} {s : State} (h : Locked c m s) {n : Nat} (hn : n ∈ s.live) :
    Locked c m (onClose s n) := by
  refine ⟨?_, ?_, ?_, ?_, h.checked⟩
  · intro k hk; exact h.live k (List.mem_filter.1 hk).1
  · intro k hk; exact h.poolUsed k (List.mem_filter.1 hk).1
  · intro k hk; exact h.liveUsed k (List.mem_filter.1 hk).1
  · have e1 : countClient (Sessions.onClose s n) c = countClient s c := by
      unfold countClient Sessions.onClose
      simp only [List.filter_filter]
      congr 1
      apply List.filter_congr
      intro k hk
      by_cases hc : (s.obj k).clientId = c
      · have : k ≠ n := by intro he; subst he; exact h.live k hn hc
        simp [hc, this]
      · simp [hc]
    rw [e1]; exact h.count

theorem locked_step {e : Env} (h1 : OneLimit e) {id : Bytes} {ac : AuthConf} (hf : e.find id = some ac)
    (hid : ac.clientId ≠ []) {s : State} (h : Locked ac.clientId ac.maxConns s) (x : Step) :
    Locked ac.clientId ac.maxConns (step e s x) := by
  unfold step
  split
  · exact h
  cases x with
  | «open» n =>
    simp only
    split
    · exact h
    · rename_i hu
      unfold onOpen
      split
      · exact ⟨h.live, h.poolUsed, h.liveUsed, h.count, h.checked⟩
      · refine ⟨?_, ?_, ?_, ?_, ?_⟩
        · intro k hk
          simp only [setObj]
          split
          · exact fun h => hid h.symm
          · rename_i hkn
            rcases List.mem_cons.1 hk with hk | hk
            · exact absurd hk hkn
            · exact h.live k hk
        · intro k hk
          rcases List.mem_cons.1 hk with hk | hk
          · rw [hk]; exact List.mem_cons_self
          · exact List.mem_cons_of_mem _ (h.poolUsed k hk)
        · intro k hk
          rcases List.mem_cons.1 hk with hk | hk
          · rw [hk]; exact List.mem_cons_self
          · exact List.mem_cons_of_mem _ (h.liveUsed k hk)
        · have e1 : countClient { s with obj := setObj s.obj n {}, pool := n :: s.pool, live := n :: s.live
                                         used := n :: s.used, active := s.active + 1
                                         log := s.log ++ [.opened n] } ac.clientId = countClient s ac.clientId := by
            unfold countClient
            dsimp only
            rw [List.filter_cons, if_neg (by simpa [setObj] using hid)]
            congr 1
            apply List.filter_congr
            intro k hk
            have : k ≠ n := by intro he; subst he; exact hu (h.poolUsed k hk)
            simp [setObj, this]
          rw [e1]; exact h.count
        · intro k o hk
          obtain ⟨h2, h3, h4⟩ := h.checked k o hk
          refine ⟨List.mem_cons_of_mem _ h2, ?_, h4⟩
          simp only [setObj]
          split
          · exact fun h => hid h.symm
          · exact h3
  | packet n cmd seq body =>
    simp only
    split
    · rename_i hl
      unfold onPacket
      split
      · exact ⟨h.live, h.poolUsed, h.liveUsed, h.count, h.checked⟩
      · exact h.onClose hl
      · exact h
      · exact ⟨h.live, h.poolUsed, h.liveUsed, h.count, h.checked⟩
      · exact ⟨h.live, h.poolUsed, h.liveUsed, h.count, h.checked⟩
    · exact h
  | loginCheck i =>
    simp only [onCheck]
    split
    · exact h
    · rename_i n seq body hw
      split
      · rename_i hl
        refine ⟨h.live, h.poolUsed, h.liveUsed, h.count, ?_⟩
        intro k o hk
        rcases List.mem_append.1 hk with hk | hk
        · exact h.checked k o hk
        · rw [List.mem_singleton, Prod.mk.injEq] at hk
          obtain ⟨rfl, rfl⟩ := hk
          refine ⟨h.liveUsed k hl, h.live k hl, ?_⟩
          intro a ha hac
          obtain ⟨a', h3, h4⟩ := Option.bind_eq_some_iff.1 ha
          split at h4
          · cases h4
          · rename_i hlt
            injection h4 with h4
            subst h4
            obtain ⟨id', hid'⟩ := loginAccount_found h3
            have hm := h1 id' id a' ac hid' hf hac
            apply hlt
            rw [hm, hac]
            exact h.count
      · exact ⟨h.live, h.poolUsed, h.liveUsed, h.count, h.checked⟩
  | loginDone i =>
    simp only [onDone]
    split
    · exact h
    · rename_i n o hw
      obtain ⟨hu, hobj, hno⟩ := h.checked n o (List.mem_of_getElem? hw)
      split
      · split
        · rename_i ac'
          have hne := hno ac' rfl
          refine ⟨?_, ?_, h.liveUsed, ?_, ?_⟩
          · intro k hk
            simp only [setObj]
            split
            · exact hne
            · exact h.live k hk
          · intro k hk
            dsimp only at hk
            split at hk
            · exact h.poolUsed k hk
            · rcases List.mem_cons.1 hk with hk | hk
              · rw [hk]; exact hu
              · exact h.poolUsed k hk
          · have e1 : ∀ l : List Nat, (l.filter fun k => (setObj s.obj n ⟨ac'.clientId, ac'.version, .login⟩ k).clientId =
                ac.clientId) = l.filter fun k => (s.obj k).clientId = ac.clientId := by
              intro l
              apply List.filter_congr
              intro k _
              simp only [setObj]
              split
              · rename_i hk; subst hk; simp [hne, hobj]
              · rfl
            have hc := h.count
            unfold countClient at hc ⊢
            dsimp only
            rw [e1]
            split
            · exact hc
            · rw [List.filter_cons]
              split
              · rw [List.length_cons]; omega
              · exact hc
          · intro k o' hk
            obtain ⟨h2, h3, h4⟩ := h.checked k o' (mem_eraseIdx_sub hk)
            refine ⟨h2, ?_, h4⟩
            simp only [setObj]
            split
            · exact hne
            · exact h3
        · have e0 : ∀ k, (setObj s.obj n { s.obj n with stat := .closing } k).clientId = (s.obj k).clientId := by
            intro k
            simp only [setObj]
            split
            · rename_i hk; rw [hk]
            · rfl
          have key : Locked ac.clientId ac.maxConns
              { s with checked := s.checked.eraseIdx i, obj := setObj s.obj n { s.obj n with stat := .closing } } := by
            refine ⟨?_, h.poolUsed, h.liveUsed, ?_, ?_⟩
            · intro k hk; rw [e0]; exact h.live k hk
            · have hc := h.count
              unfold countClient at hc ⊢
              simp only [e0]; exact hc
            · intro k o' hk
              obtain ⟨h2, h3, h4⟩ := h.checked k o' (mem_eraseIdx_sub hk)
              exact ⟨h2, by rw [e0]; exact h3, h4⟩
          split
          · rename_i hl
            exact key.onClose hl
          · exact key
      · exact ⟨h.live, h.poolUsed, h.liveUsed, h.count, fun k o' hk => h.checked k o' (mem_eraseIdx_sub hk)⟩
  | close n =>
    simp only
    split
    · rename_i hl
      exact h.onClose hl
    · exact h

/-- One connection whose peer leaves between the check of its login and the login response being written. -/
def lateLogin (e : Env) (seq : UInt32) (body : Bytes) (n : Nat) : List Step :=
  [.open n, .packet n (Spec.loginCommand e.proto) seq body, .loginCheck 0, .close n, .loginDone 0]

structure Zombies (k : Nat) (c : Bytes) (s : State) : Prop where
  obj : ∀ n ∈ s.pool, (s.obj n).clientId = c
  pool : s.pool = (List.range k).reverse
  used : s.used = (List.range k).reverse
  live : s.live = []
  active : s.active = 0
  waiting : s.waiting = []
  checked : s.checked = []
  up : s.crashed = false

theorem zombies {e : Env} (hlate : e.late = true) {seq : UInt32} {body : Bytes} {ac : AuthConf}
    (hac : loginAccount e seq body = some ac) (hcap : 0 < e.cap) (hid : ac.clientId ≠ []) (k : Nat)
    (hk : (k : Int) ≤ ac.maxConns) :
    Zombies k ac.clientId (run e ((List.range k).flatMap (lateLogin e seq body))) := by
  induction k with
  | zero => exact ⟨by simp [run], rfl, rfl, rfl, rfl, rfl, rfl, rfl⟩
  | succ k ih =>
    have h := ih (by omega)
    rw [List.range_succ, List.flatMap_append, run_append]
    generalize run e ((List.range k).flatMap (lateLogin e seq body)) = s at *
    have hku : k ∉ s.pool := by rw [h.pool]; simp
    simp only [List.flatMap_cons, List.flatMap_nil, List.append_nil, lateLogin, List.foldl_cons, List.foldl_nil]
    rw [step_open h.up (by rw [h.used]; simp) (by rw [h.active]; exact hcap)]
    rw [step_login_packet (by exact h.up) (by simp) hac]
    have hcount : (s.pool.filter fun n => (setObj s.obj k {} n).clientId = ac.clientId).length ≤ k := by
      refine Nat.le_trans (List.length_filter_le _ _) ?_
      rw [h.pool]; simp
    have e1 : ∀ s1 : State, s1.crashed = false → s1.waiting = [(k, seq, body)] → s1.checked = [] → k ∈ s1.live →
        (countClient s1 ac.clientId : Int) < ac.maxConns →
        step e s1 (.loginCheck 0) = { s1 with waiting := [], checked := [(k, some ac)] } := by
      intro s1 h1 h2 h3 h4 h5
      unfold step
      rw [if_neg (by simp [h1])]
      simp only [onCheck, h2, List.getElem?_cons_zero, List.eraseIdx_cons_zero, if_pos h4, hac, Option.bind_some, h3,
        List.nil_append]
      rw [if_neg (by
        have : countClient { s1 with waiting := [], checked := [] } ac.clientId = countClient s1 ac.clientId := rfl
        rw [this]; omega)]
    rw [e1 _ (by exact h.up) (by simp [h.waiting]) (by simp [h.checked]) (by simp)]
    · have e2 : ∀ s1 : State, s1.crashed = false → k ∈ s1.live → step e s1 (.close k) = onClose s1 k := by
        intro s1 h1 h2
        unfold step
        rw [if_neg (by simp [h1])]
        simp only [if_pos h2]
      rw [e2 _ (by exact h.up) (by simp)]
      have e3 : ∀ s1 : State, s1.crashed = false → s1.checked = [(k, some ac)] → k ∉ s1.pool →
          step e s1 (.loginDone 0) = { s1 with
            checked := [], obj := setObj s1.obj k ⟨ac.clientId, ac.version, .login⟩, pool := k :: s1.pool
            log := s1.log ++ [.accepted k ac.clientId] } := by
        intro s1 h1 h2 h3
        unfold step
        rw [if_neg (by simp [h1])]
        simp only [onDone, h2, List.getElem?_cons_zero, List.eraseIdx_cons_zero]
        rw [if_pos (.inr hlate)]
        simp only [if_neg h3]
      have hpf : (k :: s.pool).filter (· ≠ k) = s.pool := by
        rw [List.filter_cons, if_neg (by simp), List.filter_eq_self.2]
        intro n hn
        have : n ≠ k := by intro he; subst he; exact hku hn
        simpa using this
      rw [e3 _ (by exact h.up) rfl (by simp only [onClose, hpf]; exact hku)]
      simp only [onClose, hpf]
      refine ⟨?_, ?_, ?_, ?_, ?_, rfl, rfl, h.up⟩
      · intro n hn
        simp only [setObj]
        split
        · rfl
        · rename_i hnk
          rcases List.mem_cons.1 hn with hn | hn
          · exact absurd hn hnk
          · exact h.obj n hn
      · rw [range_succ_reverse, ← h.pool]
      · rw [range_succ_reverse, ← h.used]
      · simp [h.live]
      · have := h.active; show s.active + 1 - 1 = 0; omega
    · have : countClient
          { s with
            obj := setObj s.obj k {}, pool := k :: s.pool, live := k :: s.live, used := k :: s.used
            active := s.active + 1, log := s.log ++ [.opened k], waiting := s.waiting ++ [(k, seq, body)] } ac.clientId =
          (s.pool.filter fun n => (setObj s.obj k {} n).clientId = ac.clientId).length := by
        unfold countClient
        dsimp only
        rw [List.filter_cons, if_neg (by simpa [setObj] using hid)]
      rw [this]
      omega

/-- C67 refuted for a network library that runs write callbacks after a close: as many such peers as the limit
allows lock the client out for ever. No connection is open, yet in no continuation is the client logged in. -/
theorem late_callback_lockout_fails (e : Env) (hlate : e.late = true) (h1 : OneLimit e) (seq : UInt32) (body : Bytes)
    (ac : AuthConf) (hac : loginAccount e seq body = some ac) (hcap : 0 < e.cap) (hid : ac.clientId ≠ [])
    (hpos : 0 ≤ ac.maxConns) :
    ∃ steps, (run e steps).crashed = false ∧ (run e steps).live = [] ∧
      ∀ more, loggedIn (run e (steps ++ more)) ac.clientId = 0 := by
  refine ⟨(List.range ac.maxConns.toNat).flatMap (lateLogin e seq body), ?_⟩
  have h := zombies hlate hac hcap hid ac.maxConns.toNat (by omega)
  refine ⟨h.up, h.live, ?_⟩
  obtain ⟨id, hf⟩ := loginAccount_found hac
  have hz : Locked ac.clientId ac.maxConns (run e ((List.range ac.maxConns.toNat).flatMap (lateLogin e seq body))) := by
    refine ⟨by simp [h.live], ?_, by simp [h.live], ?_, by simp [h.checked]⟩
    · intro n hn; rw [h.used, ← h.pool]; exact hn
    · unfold countClient
      rw [List.filter_eq_self.2 (by simpa using h.obj), h.pool]
      simp; omega
  intro more
  have hall : Locked ac.clientId ac.maxConns
      (run e ((List.range ac.maxConns.toNat).flatMap (lateLogin e seq body) ++ more)) := by
    rw [run_append]
    generalize run e ((List.range ac.maxConns.toNat).flatMap (lateLogin e seq body)) = s at hz
    clear h
    induction more generalizing s with
    | nil => exact hz
    | cons x more ih => rw [List.foldl_cons]; exact ih _ (locked_step h1 hf hid hz x)
  unfold loggedIn
  rw [List.length_eq_zero_iff, List.filter_eq_nil_iff]
  intro n hn
  simp only [decide_eq_true_eq, not_and]
  intro _
  exact hall.live n hn

set_option maxRecDepth 8000 in
/-- Limit 1: one early leaver, and the next login is refused. -/
example : (run { exampleEnv with late := true } (lateLogin exampleEnv 1 exampleBind 0 ++
    [.open 1, .packet 1 1 1 exampleBind, .loginCheck 0, .loginDone 0])).log =
    [.opened 0, .closed 0, .accepted 0 (ascii "corp"), .opened 1, .closed 1] := by decide

end Gosms.Sessions
