import Verif.Spec.Sessions
import Verif.Props.Bodies

/-!
# C45, C46, C47: logins, the limit per client, the session counter
-/

namespace Gosms.Sessions
open Handlers
open Spec (loggedIn serviceCommands openedCount closedCount Block)

theorem run_snoc (e : Env) (steps : List Step) (x : Step) : run e (steps ++ [x]) = step e (run e steps) x := by
  unfold run; rw [List.foldl_append]; rfl

/-! ## C45 -/

/-- What is true of the history at any time. -/
structure Hist (e : Env) (steps : List Step) (s : State) : Prop where
  login : ∀ n, (s.obj n).stat = .login → ∃ c, Ev.accepted n c ∈ s.log
  served : ∀ pre n k post, s.log = pre ++ .served n k :: post → k ≠ .login ∧ ∃ c, Ev.accepted n c ∈ pre
  accepted : ∀ n c, Ev.accepted n c ∈ s.log → ∃ cmd seq body ac, Step.packet n cmd seq body ∈ steps ∧
    (cmd, Kind.login) ∈ chain e.proto ∧ loginAccount e seq body = some ac ∧ ac.clientId = c
  waiting : ∀ n seq body, (n, seq, body) ∈ s.waiting → ∃ cmd, Step.packet n cmd seq body ∈ steps ∧
    (cmd, Kind.login) ∈ chain e.proto
  checked : ∀ n ac, (n, some ac) ∈ s.checked → ∃ cmd seq body, Step.packet n cmd seq body ∈ steps ∧
    (cmd, Kind.login) ∈ chain e.proto ∧ loginAccount e seq body = some ac

theorem served_snoc {log : List Ev} {x : Ev}
    (h : ∀ pre n k post, log = pre ++ .served n k :: post → k ≠ .login ∧ ∃ c, Ev.accepted n c ∈ pre)
    (hx : ∀ n k, x = .served n k → k ≠ .login ∧ ∃ c, Ev.accepted n c ∈ log) :
    ∀ pre n k post, log ++ [x] = pre ++ .served n k :: post → k ≠ .login ∧ ∃ c, Ev.accepted n c ∈ pre := by
  intro pre n k post he
  rcases List.eq_nil_or_concat post with hp | ⟨post', y, hp⟩
  · subst hp
    have := List.append_inj' he rfl
    obtain ⟨rfl, hh⟩ := this
    rw [List.cons.injEq] at hh
    exact hx n k hh.1
  · subst hp
    have e2 : pre ++ Ev.served n k :: (post'.concat y) = (pre ++ Ev.served n k :: post') ++ [y] := by simp
    rw [e2] at he
    have := List.append_inj' he rfl
    exact h pre n k post' this.1

theorem mem_eraseIdx_sub {α : Type} {l : List α} {i : Nat} {a : α} (h : a ∈ l.eraseIdx i) : a ∈ l :=
  List.mem_of_mem_eraseIdx h

theorem Hist.mono {e : Env} {steps : List Step} {s : State} (h : Hist e steps s) (x : Step) :
    Hist e (steps ++ [x]) s where
  login := h.login
  served := h.served
  accepted n c hm := by
    obtain ⟨cmd, seq, body, ac, h1, h2⟩ := h.accepted n c hm
    exact ⟨cmd, seq, body, ac, List.mem_append_left _ h1, h2⟩
  waiting n seq body hm := by
    obtain ⟨cmd, h1, h2⟩ := h.waiting n seq body hm
    exact ⟨cmd, List.mem_append_left _ h1, h2⟩
  checked n ac hm := by
    obtain ⟨cmd, seq, body, h1, h2⟩ := h.checked n ac hm
    exact ⟨cmd, seq, body, List.mem_append_left _ h1, h2⟩

theorem Hist.onClose {e : Env} {steps : List Step} {s : State} (h : Hist e steps s) (n : Nat) :
    Hist e steps (onClose s n) where
  login m hm := by
    obtain ⟨c, hc⟩ := h.login m hm
    exact ⟨c, List.mem_append_left _ hc⟩
  served := served_snoc h.served (by intro n k hx; cases hx)
  accepted m c hm := by
    rcases List.mem_append.1 hm with hm | hm
    · exact h.accepted m c hm
    · simp at hm
  waiting := h.waiting
  checked := h.checked

theorem Hist.step {e : Env} {steps : List Step} {s : State} (h : Hist e steps s) (x : Step) :
    Hist e (steps ++ [x]) (step e s x) := by
  have hm := h.mono x
  unfold Sessions.step
  split
  · exact hm
  cases x with
  | «open» n =>
    simp only
    split
    · exact hm
    · unfold onOpen
      split
      · exact { login := hm.login, served := hm.served, accepted := hm.accepted, waiting := hm.waiting,
                checked := hm.checked }
      · refine ⟨?_, ?_, ?_, hm.waiting, hm.checked⟩
        · intro m hs
          simp only [setObj] at hs
          split at hs
          · cases hs
          · obtain ⟨c, hc⟩ := h.login m hs
            exact ⟨c, List.mem_append_left _ hc⟩
        · exact served_snoc h.served (by intro n k hx; cases hx)
        · intro m c hc
          rcases List.mem_append.1 hc with hc | hc
          · exact hm.accepted m c hc
          · simp at hc
  | close n =>
    simp only
    split
    · exact hm.onClose n
    · exact hm
  | packet n cmd seq body =>
    simp only
    split
    · unfold onPacket
      rcases executeChain_cases e.gbDec e.proto (s.obj n).stat (s.obj n).ver cmd seq body (chain e.proto) with
        ⟨_, hs⟩ | ⟨k, hk, hs⟩
      · unfold serve; rw [hs]; exact hm
      · have hs' : serve e.gbDec e.proto (s.obj n).stat (s.obj n).ver cmd seq body =
            handle e.gbDec e.proto (s.obj n).stat (s.obj n).ver k seq body := hs
        rw [hs']
        unfold handle
        by_cases hc : k ≠ .login ∧ (s.obj n).stat ≠ .login
        · rw [if_pos hc]; exact hm.onClose n
        · rw [if_neg hc]
          by_cases hd : decodes e.gbDec (s.obj n).ver seq body e.proto k = true
          · rw [if_pos hd]
            by_cases hl : k = .login
            · subst hl
              refine ⟨hm.login, hm.served, hm.accepted, ?_, hm.checked⟩
              intro m sq bd hmem
              rcases List.mem_append.1 hmem with hmem | hmem
              · exact hm.waiting m sq bd hmem
              · rw [List.mem_singleton] at hmem
                simp only [Prod.mk.injEq] at hmem
                obtain ⟨rfl, rfl, rfl⟩ := hmem
                exact ⟨cmd, by simp, hk⟩
            · have hst : (s.obj n).stat = .login := by
                apply Classical.byContradiction
                intro hst; exact hc ⟨hl, hst⟩
              have goal : Hist e (steps ++ [.packet n cmd seq body]) { s with log := s.log ++ [.served n k] } := by
                refine ⟨?_, ?_, ?_, hm.waiting, hm.checked⟩
                · intro m hs
                  obtain ⟨c, hc⟩ := h.login m hs
                  exact ⟨c, List.mem_append_left _ hc⟩
                · refine served_snoc h.served ?_
                  intro m k' hx
                  injection hx with h1 h2
                  subst h1; subst h2
                  exact ⟨hl, h.login n hst⟩
                · intro m c hc
                  rcases List.mem_append.1 hc with hc | hc
                  · exact hm.accepted m c hc
                  · simp at hc
              cases k <;> first | exact absurd rfl hl | exact goal
          · rw [if_neg hd]
            exact ⟨hm.login, hm.served, hm.accepted, hm.waiting, hm.checked⟩
    · exact hm
  | loginCheck i =>
    simp only [onCheck]
    split
    · exact hm
    · rename_i n seq body hw
      have hmem : (n, seq, body) ∈ s.waiting := List.mem_of_getElem? hw
      split
      · refine ⟨hm.login, hm.served, hm.accepted, fun a b c hx => hm.waiting a b c (mem_eraseIdx_sub hx), ?_⟩
        intro m ac hx
        rcases List.mem_append.1 hx with hx | hx
        · exact hm.checked m ac hx
        · rw [List.mem_singleton, Prod.mk.injEq] at hx
          obtain ⟨rfl, hy⟩ := hx
          obtain ⟨cmd, h1, h2⟩ := hm.waiting m seq body hmem
          refine ⟨cmd, seq, body, h1, h2, ?_⟩
          obtain ⟨ac', ha, hb⟩ := Option.bind_eq_some_iff.1 hy.symm
          rw [ha]
          split at hb
          · cases hb
          · exact hb
      · exact ⟨hm.login, hm.served, hm.accepted, fun a b c hx => hm.waiting a b c (mem_eraseIdx_sub hx), hm.checked⟩
  | loginDone i =>
    simp only [onDone]
    split
    · exact hm
    · rename_i n ac hw
      have hmem : (n, ac) ∈ s.checked := List.mem_of_getElem? hw
      split
      · split
        · rename_i ac
          obtain ⟨cmd, seq, body, h1, h2, h3⟩ := hm.checked n ac hmem
          refine ⟨?_, ?_, ?_, hm.waiting, fun a b hx => hm.checked a b (mem_eraseIdx_sub hx)⟩
          · intro m hs
            simp only [setObj] at hs
            split at hs
            · rename_i hmn
              subst hmn
              exact ⟨ac.clientId, by simp⟩
            · obtain ⟨c, hc⟩ := h.login m hs
              exact ⟨c, List.mem_append_left _ hc⟩
          · exact served_snoc h.served (by intro n k hx; cases hx)
          · intro m c hc
            rcases List.mem_append.1 hc with hc | hc
            · exact hm.accepted m c hc
            · rw [List.mem_singleton] at hc
              injection hc with e1 e2
              subst e1; subst e2
              exact ⟨cmd, seq, body, ac, h1, h2, h3, rfl⟩
        · have key : Hist e (steps ++ [.loginDone i])
              { s with checked := s.checked.eraseIdx i, obj := setObj s.obj n { s.obj n with stat := .closing } } := by
            refine ⟨?_, hm.served, hm.accepted, hm.waiting, fun a b hx => hm.checked a b (mem_eraseIdx_sub hx)⟩
            intro m hs
            simp only [setObj] at hs
            split at hs
            · cases hs
            · exact h.login m hs
          split
          · exact key.onClose n
          · exact key
      · exact ⟨hm.login, hm.served, hm.accepted, hm.waiting, fun a b hx => hm.checked a b (mem_eraseIdx_sub hx)⟩

theorem hist_run (e : Env) (steps : List Step) : Hist e steps (run e steps) := by
  induction steps using snoc_induction with
  | nil => exact ⟨by simp [run], by simp [run], by simp [run], by simp [run], by simp [run]⟩
  | snoc steps x ih => rw [run_snoc]; exact ih.step x

/-- C45, first part. In every run, whenever a packet other than a login is served on a connection, a login on
that same connection was accepted before. -/
theorem login_before_service (e : Env) (steps : List Step) (pre post : List Ev) (n : Nat) (k : Kind)
    (h : (run e steps).log = pre ++ .served n k :: post) : k ≠ .login ∧ ∃ client, Ev.accepted n client ∈ pre :=
  (hist_run e steps).served pre n k post h

/-- ... and an accepted login was a login packet received on that connection, with the credentials of an account
of that client. -/
theorem accepted_login (e : Env) (steps : List Step) (n : Nat) (client : Bytes)
    (h : Ev.accepted n client ∈ (run e steps).log) :
    ∃ seq body ac, Step.packet n (Spec.loginCommand e.proto) seq body ∈ steps ∧
      loginAccount e seq body = some ac ∧ ac.clientId = client := by
  obtain ⟨cmd, seq, body, ac, h1, h2, h3⟩ := (hist_run e steps).accepted n client h
  have hc : cmd = Spec.loginCommand e.proto := by
    revert h2
    cases e.proto <;> simp [chain, Spec.loginCommand, Cmpp.CONNECT, Sgip.BIND, Smgp.LOGIN]
  subst hc
  exact ⟨seq, body, ac, h1, h3⟩

theorem serviceCommands_iff (p : Proto) (cmd : UInt32) :
    cmd ∈ serviceCommands p ↔ ∃ k, (cmd, k) ∈ chain p ∧ k ≠ .login := by
  have h1 : ∀ p, ∀ c ∈ serviceCommands p, ∃ a ∈ chain p, a.1 = c ∧ a.2 ≠ .login := by
    intro p; cases p <;> decide
  have h2 : ∀ p, ∀ a ∈ chain p, a.2 ≠ .login → a.1 ∈ serviceCommands p := by
    intro p; cases p <;> decide
  constructor
  · intro h
    obtain ⟨⟨c, k⟩, ha, rfl, hk⟩ := h1 p cmd h
    exact ⟨k, ha, hk⟩
  · rintro ⟨k, ha, hk⟩
    exact h2 p _ ha hk

/-- C45, second part. On a connection on which no login has been accepted, every packet the server would serve
closes the connection, whatever its body; nothing is served. -/
theorem service_before_login_closes (e : Env) (steps : List Step) (n : Nat) (cmd seq : UInt32) (body : Bytes)
    (hup : (run e steps).crashed = false) (hlive : n ∈ (run e steps).live)
    (hno : ∀ client, Ev.accepted n client ∉ (run e steps).log) (hcmd : cmd ∈ serviceCommands e.proto) :
    (run e (steps ++ [.packet n cmd seq body])).log = (run e steps).log ++ [.closed n] ∧
    n ∉ (run e (steps ++ [.packet n cmd seq body])).live ∧
    (run e (steps ++ [.packet n cmd seq body])).crashed = false := by
  have hst : ((run e steps).obj n).stat ≠ .login := by
    intro h
    obtain ⟨c, hc⟩ := (hist_run e steps).login n h
    exact hno c hc
  obtain ⟨k, hk, hkl⟩ := (serviceCommands_iff e.proto cmd).1 hcmd
  rw [run_snoc]
  have : step e (run e steps) (.packet n cmd seq body) = onClose (run e steps) n := by
    unfold step
    rw [if_neg (by simp [hup])]
    simp only [if_pos hlive, onPacket, serve_handled e.gbDec e.proto _ _ cmd seq body k hk, handle,
      if_pos (show k ≠ .login ∧ ((run e steps).obj n).stat ≠ .login from ⟨hkl, hst⟩)]
  rw [this]
  refine ⟨rfl, ?_, hup⟩
  simp [onClose]

/-- A server with one SGIP account, and a submit before and after the login. -/
def exampleAccount : AuthConf :=
  { clientId := ascii "corp", loginName := ascii "corp", sharedSecret := ascii "pw", maxConns := 1, mtWindowSize := 16 }
def exampleEnv : Env :=
  { proto := .sgip, cap := 2, md5 := id, find := fun id => if id = ascii "corp" then some exampleAccount else none }
def exampleBind : Bytes := zeros 8 ++ [1] ++ ascii "corp" ++ zeros 12 ++ ascii "pw" ++ zeros 14
def exampleMt : Bytes := zeros 50 ++ [0] ++ zeros 68 ++ [0, 0, 0, 1] ++ [97] ++ zeros 8

set_option maxRecDepth 8000 in
example : (run exampleEnv [.open 0, .packet 0 3 1 exampleMt]).log = [.opened 0, .closed 0] ∧
    (run exampleEnv [.open 0, .packet 0 1 1 exampleBind, .loginCheck 0, .loginDone 0, .packet 0 3 2 exampleMt]).log =
      [.opened 0, .accepted 0 (ascii "corp"), .served 0 .submit] := by
  decide

/-! ## C46 -/

theorem length_filter_update {l : List Nat} (hd : l.Nodup) {P Q : Nat → Bool} {n : Nat}
    (h : ∀ m, m ≠ n → Q m = true → P m = true) : (l.filter Q).length ≤ (l.filter P).length + 1 := by
  induction l with
  | nil => simp
  | cons a l ih =>
    rw [List.nodup_cons] at hd
    by_cases ha : a = n
    · subst ha
      have hle : (l.filter Q).length ≤ (l.filter P).length := by
        have hne : ∀ m ∈ l, m ≠ a := by
          intro m hm he; subst he; exact hd.1 hm
        clear ih hd
        induction l with
        | nil => simp
        | cons b l ih2 =>
          have h2 := ih2 fun m hm => hne m (by simp [hm])
          rw [List.filter_cons, List.filter_cons]
          have hb := h b (hne b (by simp))
          split
          · rename_i hq
            rw [if_pos (hb hq)]
            simp only [List.length_cons]; omega
          · split
            · simp only [List.length_cons]; omega
            · exact h2
      rw [List.filter_cons, List.filter_cons]
      split <;> split <;> (try simp only [List.length_cons]) <;> omega
    · have := ih hd.2
      rw [List.filter_cons, List.filter_cons]
      have hb := h a ha
      split
      · rename_i hq
        rw [if_pos (hb hq)]
        simp only [List.length_cons]; omega
      · split
        · simp only [List.length_cons]; omega
        · exact this

theorem length_filter_le_of_imp {l : List Nat} {P Q : Nat → Bool} (h : ∀ m, Q m = true → P m = true) :
    (l.filter Q).length ≤ (l.filter P).length := by
  induction l with
  | nil => simp
  | cons a l ih =>
    rw [List.filter_cons, List.filter_cons]
    split
    · rename_i hq
      rw [if_pos (h a hq)]
      simp only [List.length_cons]; omega
    · split
      · simp only [List.length_cons]; omega
      · exact ih

/-- Every account of a client has the same limit. -/
def OneLimit (e : Env) : Prop := ∀ id id' ac ac', e.find id = some ac → e.find id' = some ac' →
  ac.clientId = ac'.clientId → ac.maxConns = ac'.maxConns

theorem loginAccount_found {e : Env} {seq : UInt32} {body : Bytes} {ac : AuthConf}
    (h : loginAccount e seq body = some ac) : ∃ id, e.find id = some ac := by
  unfold loginAccount at h
  split at h <;> obtain ⟨l, _, hl⟩ := Option.bind_eq_some_iff.1 h <;> simp only at hl <;> split at hl <;>
    first | exact ⟨_, hl⟩ | cases hl

/-- `loggedIn` in terms of its parts. -/
def cnt (live : List Nat) (obj : Nat → Sess) (client : Bytes) : Nat :=
  (live.filter fun n => (obj n).stat = .login ∧ (obj n).clientId = client).length

theorem cnt_setObj_le {live : List Nat} {obj : Nat → Sess} {n : Nat} {x : Sess} {c : Bytes}
    (h : x.stat = .login → x.clientId ≠ c) : cnt live (setObj obj n x) c ≤ cnt live obj c := by
  unfold cnt
  apply length_filter_le_of_imp
  intro m hm
  simp only [decide_eq_true_eq] at hm ⊢
  by_cases hmn : m = n
  · subst hmn
    simp only [setObj, if_true] at hm
    exact absurd hm.2 (h hm.1)
  · simpa only [setObj, if_neg hmn] using hm

theorem cnt_setObj_succ {live : List Nat} {obj : Nat → Sess} {n : Nat} {x : Sess} {c : Bytes} (hd : live.Nodup) :
    cnt live (setObj obj n x) c ≤ cnt live obj c + 1 := by
  unfold cnt
  apply length_filter_update hd (n := n)
  intro m hmn hm
  simpa only [setObj, if_neg hmn] using hm

structure Limited (e : Env) (s : State) : Prop where
  nodup : s.live.Nodup
  pool : s.pool = s.live
  checked : s.checked = []
  used : ∀ n ∈ s.live, n ∈ s.used
  bound : ∀ id ac, e.find id = some ac → loggedIn s ac.clientId = 0 ∨ (loggedIn s ac.clientId : Int) ≤ ac.maxConns

theorem loggedIn_filter (s : State) (c : Bytes) (q : Nat → Bool) :
    loggedIn { s with live := s.live.filter q } c ≤ loggedIn s c := by
  unfold loggedIn
  rw [List.filter_filter]
  apply length_filter_le_of_imp
  intro m hm
  simp only [Bool.and_eq_true] at hm
  exact hm.1

theorem Limited.weaken {e : Env} {s s' : State} (h : Limited e s) (hn : s'.live.Nodup) (hp : s'.pool = s'.live)
    (hc : s'.checked = []) (hu : ∀ n ∈ s'.live, n ∈ s'.used) (hb : ∀ c, loggedIn s' c ≤ loggedIn s c) :
    Limited e s' := by
  refine ⟨hn, hp, hc, hu, ?_⟩
  intro id ac hf
  have := hb ac.clientId
  rcases h.bound id ac hf with h1 | h1
  · left; omega
  · right; omega

theorem Limited.onClose {e : Env} {s : State} (h : Limited e s) (n : Nat) : Limited e (onClose s n) := by
  refine h.weaken (s' := Sessions.onClose s n) (h.nodup.filter _) ?_ h.checked ?_ ?_
  · show s.pool.filter _ = s.live.filter _
    rw [h.pool]
  · intro m hm
    exact h.used m (List.mem_filter.1 hm).1
  · intro c
    exact loggedIn_filter s c _

theorem limited_block {e : Env} (h1 : OneLimit e) {s : State} (h : Limited e s) (b : Block) :
    Limited e (b.steps.foldl (step e) s) := by
  by_cases hcr : s.crashed = true
  · have : ∀ l : List Step, l.foldl (step e) s = s := by
      intro l
      induction l with
      | nil => rfl
      | cons x l ih => rw [List.foldl_cons]; unfold step; rw [if_pos hcr]; exact ih
    rw [this]; exact h
  cases b with
  | «open» n =>
    simp only [Block.steps, List.foldl_cons, List.foldl_nil, step, if_neg hcr]
    split
    · exact h
    · rename_i hu
      unfold onOpen
      split
      · exact h.weaken h.nodup h.pool h.checked h.used (fun c => Nat.le_refl _)
      · have hnl : n ∉ s.live := fun hc => hu (h.used n hc)
        refine h.weaken ?_ ?_ h.checked ?_ ?_
        · exact List.nodup_cons.2 ⟨hnl, h.nodup⟩
        · show n :: s.pool = n :: s.live
          rw [h.pool]
        · intro m hm
          rcases List.mem_cons.1 hm with hm | hm
          · rw [hm]; exact List.mem_cons_self
          · exact List.mem_cons_of_mem _ (h.used m hm)
        · intro c
          show cnt (n :: s.live) (setObj s.obj n {}) c ≤ cnt s.live s.obj c
          have h0 : cnt (n :: s.live) (setObj s.obj n {}) c = cnt s.live (setObj s.obj n {}) c := by
            unfold cnt
            rw [List.filter_cons, if_neg (by simp [setObj])]
          rw [h0]
          exact cnt_setObj_le (by intro h; cases h)
  | close n =>
    simp only [Block.steps, List.foldl_cons, List.foldl_nil, step, if_neg hcr]
    split
    · exact h.onClose n
    · exact h
  | packet n cmd seq body =>
    simp only [Block.steps, List.foldl_cons, List.foldl_nil, step, if_neg hcr]
    split
    · unfold onPacket
      split
      · exact h.weaken h.nodup h.pool h.checked h.used (fun c => Nat.le_refl _)
      · exact h.onClose n
      · exact h
      · exact h.weaken h.nodup h.pool h.checked h.used (fun c => Nat.le_refl _)
      · exact h.weaken h.nodup h.pool h.checked h.used (fun c => Nat.le_refl _)
    · exact h
  | login i =>
    simp only [Block.steps, List.foldl_cons, List.foldl_nil]
    have e1 : step e s (.loginCheck i) = onCheck e s i := by unfold step; rw [if_neg hcr]
    rw [e1]
    unfold onCheck
    split
    · have e2 : step e s (.loginDone 0) = onDone e s 0 := by unfold step; rw [if_neg hcr]
      rw [e2]
      unfold onDone
      rw [h.checked]
      exact h
    · rename_i n seq body hw
      simp only
      split
      · rename_i hl
        rw [h.checked, List.nil_append]
        unfold step
        rw [if_neg hcr]
        simp only [onDone, List.getElem?_cons_zero, List.eraseIdx_cons_zero]
        rw [if_pos (.inl hl)]
        cases hac : (loginAccount e seq body).bind fun ac =>
            if (countClient { s with waiting := s.waiting.eraseIdx i, checked := [] } ac.clientId : Int) ≥
              ac.maxConns then none else some ac with
        | none =>
          rw [if_pos hl]
          apply Limited.onClose
          refine h.weaken h.nodup h.pool rfl h.used ?_
          intro c
          exact cnt_setObj_le (by intro h; cases h)
        | some ac =>
          obtain ⟨ac', ha, hb⟩ := Option.bind_eq_some_iff.1 hac
          have hac' : ac' = ac := by
            split at hb
            · cases hb
            · injection hb
          subst hac'
          have hcount : (countClient s ac'.clientId : Int) < ac'.maxConns := by
            split at hb
            · cases hb
            · rename_i hx
              have : countClient { s with waiting := s.waiting.eraseIdx i, checked := [] } ac'.clientId =
                countClient s ac'.clientId := rfl
              rw [this] at hx
              omega
          obtain ⟨id0, hid0⟩ := loginAccount_found ha
          refine ⟨h.nodup, ?_, rfl, h.used, ?_⟩
          · show (if n ∈ s.pool then s.pool else n :: s.pool) = s.live
            rw [h.pool, if_pos hl]
          · intro id1 ac1 hf1
            by_cases hcc : ac1.clientId = ac'.clientId
            · right
              have hmax := h1 id1 id0 ac1 ac' hf1 hid0 hcc
              rw [hcc, hmax]
              have hle : loggedIn s ac'.clientId ≤ countClient s ac'.clientId := by
                unfold loggedIn countClient
                rw [h.pool]
                apply length_filter_le_of_imp
                intro m hm
                simp only [decide_eq_true_eq] at hm ⊢
                exact hm.2
              have hup := cnt_setObj_succ (obj := s.obj) (n := n) (x := ⟨ac'.clientId, ac'.version, .login⟩)
                (c := ac'.clientId) h.nodup
              show (cnt s.live (setObj s.obj n ⟨ac'.clientId, ac'.version, .login⟩) ac'.clientId : Int) ≤ _
              have h3 : loggedIn s ac'.clientId = cnt s.live s.obj ac'.clientId := rfl
              omega
            · have hup := cnt_setObj_le (live := s.live) (obj := s.obj) (n := n)
                (x := ⟨ac'.clientId, ac'.version, .login⟩) (c := ac1.clientId) (fun _ h => hcc h.symm)
              have h3 : loggedIn s ac1.clientId = cnt s.live s.obj ac1.clientId := rfl
              show cnt s.live (setObj s.obj n ⟨ac'.clientId, ac'.version, .login⟩) ac1.clientId = 0 ∨
                (cnt s.live (setObj s.obj n ⟨ac'.clientId, ac'.version, .login⟩) ac1.clientId : Int) ≤ _
              rcases h.bound id1 ac1 hf1 with h2 | h2
              · left; omega
              · right; omega
      · have e2 : step e { s with waiting := s.waiting.eraseIdx i } (.loginDone 0) =
            onDone e { s with waiting := s.waiting.eraseIdx i } 0 := by unfold step; rw [if_neg hcr]
        rw [e2]
        have e3 : onDone e { s with waiting := s.waiting.eraseIdx i } 0 = { s with waiting := s.waiting.eraseIdx i } := by
          unfold onDone
          simp only [h.checked, List.getElem?_nil]
        rw [e3]
        exact h.weaken h.nodup h.pool h.checked h.used (fun c => Nat.le_refl _)

/-- C46, the part that holds: as long as no login is checked while another checked login is still to be completed,
the number of sessions logged in for a client never exceeds its limit, in any history of opens, packets,
logins, refused logins, re-logins and closes. -/
theorem max_conns_partial (e : Env) (h1 : OneLimit e) (blocks : List Block) (id : Bytes) (ac : AuthConf)
    (hf : e.find id = some ac) (hpos : 0 ≤ ac.maxConns) :
    (loggedIn (run e (blocks.flatMap Block.steps)) ac.clientId : Int) ≤ ac.maxConns := by
  have key : Limited e (run e (blocks.flatMap Block.steps)) := by
    induction blocks using snoc_induction with
    | nil => exact ⟨List.nodup_nil, rfl, rfl, by simp [run], fun _ _ _ => .inl rfl⟩
    | snoc bs b ih =>
      have : run e ((bs ++ [b]).flatMap Block.steps) = b.steps.foldl (step e) (run e (bs.flatMap Block.steps)) := by
        simp [run, List.foldl_append]
      rw [this]
      exact limited_block h1 ih b
  rcases key.bound id ac hf with h | h
  · omega
  · exact h

set_option maxRecDepth 8000 in
/-- A limit of 1: the second login is refused and its connection closed. -/
example : OneLimit exampleEnv ∧
    (run exampleEnv ([Block.open 0, .open 1, .packet 0 1 1 exampleBind, .packet 1 1 1 exampleBind, .login 0,
      .login 0].flatMap Block.steps)).log =
      [.opened 0, .opened 1, .accepted 0 (ascii "corp"), .closed 1] := by
  refine ⟨?_, by decide⟩
  intro id id' ac ac' h h' _
  simp only [exampleEnv] at h h'
  split at h <;> split at h' <;> simp at h h'
  rw [← h, ← h']

end Gosms.Sessions
