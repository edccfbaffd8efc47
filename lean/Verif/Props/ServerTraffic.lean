import Verif.Model.ServerTraffic
import Verif.Spec.ServerTraffic
import Verif.Spec.Bodies
import Verif.Props.Bodies
import Verif.Props.CmppDeliver
import Verif.Props.CmppResponses
import Verif.Props.SmgpDeliver
import Verif.Props.SmgpLogin
import Verif.Props.Sgip
import Verif.Props.ClientTraffic

/-! # What the server sends on one connection (C76-C80) -/

namespace Gosms.ServerTraffic
open Handlers

/-- What is written, queued, or still to be written by tasks, for request `k`. -/
def sends (acts : List Act) : List (Bytes × After) :=
  acts.filterMap fun | .send f a => some (f, a) | .shut => none

def forReq (k : Nat) (l : List (Nat × Bytes × After)) : List (Bytes × After) := (l.filter (·.1 = k)).map (·.2)

def pend (tasks : List Task) (k : Nat) : List (Bytes × After) := (tasks.filter (·.req = k)).flatMap fun t => sends t.acts

def workOf (e : Env) (r : Req) : List Act := work e.gbDec e.md5 e.proto r.ver r.kind r.seq r.body r.draw

def owed (s : State) (k : Nat) : List (Bytes × After) := forReq k s.wire ++ (forReq k s.queue ++ pend s.tasks k)

theorem forReq_append (k : Nat) (a b : List (Nat × Bytes × After)) : forReq k (a ++ b) = forReq k a ++ forReq k b := by
  simp [forReq]

theorem pend_append (a b : List Task) (k : Nat) : pend (a ++ b) k = pend a k ++ pend b k := by
  simp [pend]

theorem split_at {α : Type} {l : List α} {i : Nat} {x : α} (h : l[i]? = some x) :
    ∃ a b, l = a ++ x :: b ∧ a.length = i := by
  obtain ⟨hi, hx⟩ := List.getElem?_eq_some_iff.1 h
  refine ⟨l.take i, l.drop (i + 1), ?_, by simp; omega⟩
  rw [← hx, List.getElem_cons_drop, List.take_append_drop]

theorem pend_ne {t : Task} {k : Nat} (h : t.req ≠ k) : pend [t] k = [] := by simp [pend, h]

theorem pend_eq (t : Task) : pend [t] t.req = sends t.acts := by simp [pend]

theorem pend_none {l : List Task} {k : Nat} (h : ∀ t ∈ l, t.req ≠ k) : pend l k = [] := by
  have : l.filter (·.req = k) = [] := by simpa using h
  simp [pend, this]

/-- What holds in every reachable state. -/
structure Inv (e : Env) (s : State) : Prop where
  lt : ∀ t ∈ s.tasks, t.req < s.reqs.length
  nodup : s.tasks.Pairwise (fun a b => a.req ≠ b.req)
  qlt : ∀ x ∈ s.queue, x.1 < s.reqs.length
  wlt : ∀ x ∈ s.wire, x.1 < s.reqs.length
  gen1 : s.stat = .login → 1 ≤ s.gen
  wait : ∀ t ∈ s.tasks, ∀ g, t.phase = .waiting g → 1 ≤ g
  owes : ∀ k r, s.reqs[k]? = some r →
    owed s k <+: sends (workOf e r) ∧ (s.gen ≤ 1 → owed s k = sends (workOf e r))
  mt : s.mt = UInt64.ofNat (s.wire.filter fun x => x.2.2 = .mt).length
  rpt : s.rpt = UInt64.ofNat (s.wire.filter fun x => x.2.2 = .rpt).length
  good : ∀ r ∈ s.reqs, (r.cmd, r.kind) ∈ chain e.proto ∧ decodes e.gbDec r.ver r.seq r.body e.proto r.kind = true

theorem inv_init (e : Env) : Inv e {} := by
  refine ⟨?_, ?_, ?_, ?_, ?_, ?_, ?_, ?_, ?_, ?_⟩ <;> simp

/-- A handler other than the login handlers only runs in a logged-in session. -/
theorem chain_task {gb : Bytes → Option Bytes} {p : Proto} {stat : Stat} {ver : UInt8} {cmd seq : UInt32} {body : Bytes}
    {k : Kind} : ∀ {l : List (UInt32 × Kind)}, executeChain gb p stat ver cmd seq body l = .task k →
      (k = .login ∨ stat = .login) ∧ decodes gb ver seq body p k = true ∧ (cmd, k) ∈ l := by
  intro l
  induction l with
  | nil => intro h; simp [executeChain] at h
  | cons x l ih =>
    obtain ⟨c, k'⟩ := x
    intro h
    unfold executeChain at h
    by_cases hc : c ≠ cmd
    · rw [if_pos hc] at h
      have := ih h
      exact ⟨this.1, this.2.1, List.mem_cons_of_mem _ this.2.2⟩
    · rw [if_neg hc] at h
      unfold handle at h
      by_cases h1 : k' ≠ .login ∧ stat ≠ .login
      · rw [if_pos h1] at h; cases h
      · rw [if_neg h1] at h
        by_cases h2 : decodes gb ver seq body p k' = true
        · rw [if_pos h2] at h
          obtain rfl : k' = k := by injection h
          refine ⟨?_, h2, ?_⟩
          · rcases Classical.em (k' = .login) with hk | hk
            · exact .inl hk
            · rcases Classical.em (stat = .login) with hs | hs
              · exact .inr hs
              · exact absurd ⟨hk, hs⟩ h1
          · have : c = cmd := Classical.byContradiction hc
            rw [this]; exact List.mem_cons_self
        · rw [if_neg h2] at h; cases h

theorem inv_packet {e : Env} {s : State} (h : Inv e s) (cmd seq : UInt32) (body : Bytes) (d : Draw) :
    Inv e (onPacket e s cmd seq body d) := by
  unfold onPacket
  split
  · exact ⟨h.lt, h.nodup, h.qlt, h.wlt, h.gen1, h.wait, h.owes, h.mt, h.rpt, h.good⟩
  · exact ⟨h.lt, h.nodup, h.qlt, h.wlt, h.gen1, h.wait, h.owes, h.mt, h.rpt, h.good⟩
  · exact h
  · rename_i k hk
    have ht := chain_task hk
    refine ⟨?_, ?_, ?_, ?_, h.gen1, ?_, ?_, h.mt, h.rpt, ?_⟩
    · intro t hm
      simp only [List.length_append, List.length_singleton]
      rcases List.mem_append.1 hm with hm | hm
      · have := h.lt t hm; omega
      · rw [List.mem_singleton.1 hm]; exact Nat.lt_succ_self _
    · refine List.pairwise_append.2 ⟨h.nodup, List.pairwise_singleton _ _, ?_⟩
      intro a ha b hb
      rw [List.mem_singleton.1 hb]
      have := h.lt a ha
      show a.req ≠ s.reqs.length
      omega
    · intro x hx
      simp only [List.length_append, List.length_singleton]
      have := h.qlt x hx; omega
    · intro x hx
      simp only [List.length_append, List.length_singleton]
      have := h.wlt x hx; omega
    · intro t hm g hg
      rcases List.mem_append.1 hm with hm | hm
      · exact h.wait t hm g hg
      · rw [List.mem_singleton.1 hm] at hg
        unfold phaseOf at hg
        by_cases hp : k = .login ∨ (k = .submit ∧ d.allow = false)
        · rw [if_pos hp] at hg; cases hg
        · rw [if_neg hp] at hg
          cases hg
          rcases ht.1 with h1 | h1
          · exact absurd (.inl h1) hp
          · exact h.gen1 h1
    · intro k' r hr
      have hnone : ∀ n, n = s.reqs.length → forReq n s.wire = [] ∧ forReq n s.queue = [] ∧ pend s.tasks n = [] := by
        intro n hn
        refine ⟨?_, ?_, pend_none fun t ht => ?_⟩
        · have : s.wire.filter (·.1 = n) = [] := by
            simp only [List.filter_eq_nil_iff, decide_eq_true_eq]
            intro x hx hx'; have := h.wlt x hx; omega
          simp [forReq, this]
        · have : s.queue.filter (·.1 = n) = [] := by
            simp only [List.filter_eq_nil_iff, decide_eq_true_eq]
            intro x hx hx'; have := h.qlt x hx; omega
          simp [forReq, this]
        · have := h.lt t ht; omega
      have hown : ∀ n, owed { s with reqs := s.reqs ++ [⟨s.ver, k, cmd, seq, body, d⟩]
                                     tasks := s.tasks ++ [⟨s.reqs.length, phaseOf s k d, work e.gbDec e.md5 e.proto s.ver k seq body d⟩] } n
          = owed s n ++ pend [⟨s.reqs.length, phaseOf s k d, work e.gbDec e.md5 e.proto s.ver k seq body d⟩] n := by
        intro n
        simp only [owed, pend_append, List.append_assoc]
      rw [hown]
      by_cases hlt : k' < s.reqs.length
      · rw [List.getElem?_append_left hlt] at hr
        rw [pend_ne (by simp only; omega), List.append_nil]
        exact h.owes k' r hr
      · have hk' : k' = s.reqs.length := by
          have := (List.getElem?_eq_some_iff.1 hr).1
          simp at this; omega
        rw [hk', List.getElem?_append_right (Nat.le_refl _)] at hr
        simp at hr
        obtain ⟨a1, a2, a3⟩ := hnone _ hk'
        have : owed s k' = [] := by simp [owed, a1, a2, a3]
        rw [this, List.nil_append, hk', pend_eq (⟨s.reqs.length, _, _⟩ : Task), ← hr]
        exact ⟨List.prefix_refl _, fun _ => rfl⟩
    · intro r hr
      rcases List.mem_append.1 hr with hr | hr
      · exact h.good r hr
      · rw [List.mem_singleton.1 hr]
        exact ⟨ht.2.2, ht.2.1⟩

/-- Replacing a task by a later stage of itself, with what it has queued meanwhile. -/
theorem owed_set {s : State} (hn : s.tasks.Pairwise (fun a b => a.req ≠ b.req)) {i : Nat} {t : Task}
    (ht : s.tasks[i]? = some t) (t' : Task) (hr : t'.req = t.req) (q : List (Nat × Bytes × After))
    (hq : ∀ x ∈ q, x.1 = t.req) (hs : q.map (·.2) ++ sends t'.acts = sends t.acts) (k : Nat) :
    owed { s with tasks := s.tasks.set i t', queue := s.queue ++ q } k = owed s k := by
  obtain ⟨a, b, hab, hi⟩ := split_at ht
  have hset : s.tasks.set i t' = a ++ t' :: b := by rw [hab, ← hi]; simp
  rw [hab] at hn
  have hn' := List.pairwise_append.1 hn
  have hb := (List.pairwise_cons.1 hn'.2.1).1
  have ha : ∀ x ∈ a, x.req ≠ t.req := fun x hx => hn'.2.2 x hx t List.mem_cons_self
  simp only [owed, hset, forReq_append]
  rw [hab]
  have e1 : a ++ t' :: b = a ++ ([t'] ++ b) := by simp
  have e2 : a ++ t :: b = a ++ ([t] ++ b) := by simp
  rw [e1, e2]
  simp only [pend_append]
  by_cases hk : k = t.req
  · subst hk
    rw [pend_none ha, pend_none (fun x hx => (hb x hx).symm), pend_eq t]
    have : pend [t'] t.req = sends t'.acts := by rw [← hr, pend_eq]
    rw [this]
    have hf : forReq t.req q = q.map (·.2) := by
      unfold forReq
      rw [List.filter_eq_self.2 (by simpa using hq)]
    rw [hf, ← hs]
    simp
  · have hf : forReq k q = [] := by
      have : q.filter (·.1 = k) = [] := by
        simp only [List.filter_eq_nil_iff, decide_eq_true_eq]
        intro x hx h2; rw [hq x hx] at h2; exact hk h2.symm
      simp [forReq, this]
    rw [hf, pend_ne (fun h2 => hk (hr ▸ h2).symm), pend_ne (fun h2 => hk h2.symm)]
    simp

/-- Removing a task. -/
theorem owed_erase {s : State} (hn : s.tasks.Pairwise (fun a b => a.req ≠ b.req)) {i : Nat} {t : Task}
    (ht : s.tasks[i]? = some t) (k : Nat) :
    owed { s with tasks := s.tasks.eraseIdx i } k ++ pend [t] k = owed s k := by
  obtain ⟨a, b, hab, hi⟩ := split_at ht
  have hset : s.tasks.eraseIdx i = a ++ b := by
    rw [hab, ← hi, List.eraseIdx_append_of_length_le (Nat.le_refl _)]; simp
  rw [hab] at hn
  have hn' := List.pairwise_append.1 hn
  have hb := (List.pairwise_cons.1 hn'.2.1).1
  simp only [owed, hset]
  rw [hab]
  have e2 : a ++ t :: b = a ++ ([t] ++ b) := by simp
  rw [e2]
  simp only [pend_append]
  by_cases hk : k = t.req
  · subst hk
    rw [pend_none (fun x hx => (hb x hx).symm)]
    simp
  · rw [pend_ne (fun h2 => hk h2.symm)]
    simp

theorem mem_set_task {l : List Task} {i : Nat} {t' x : Task} (h : x ∈ l.set i t') : x = t' ∨ x ∈ l := by
  rcases List.mem_or_eq_of_mem_set h with h | h
  · exact .inr h
  · exact .inl h

theorem pairwise_set {l : List Task} (hn : l.Pairwise (fun a b => a.req ≠ b.req)) {i : Nat} {t : Task}
    (ht : l[i]? = some t) (t' : Task) (hr : t'.req = t.req) :
    (l.set i t').Pairwise (fun a b => a.req ≠ b.req) := by
  obtain ⟨a, b, hab, hi⟩ := split_at ht
  have hset : l.set i t' = a ++ t' :: b := by rw [hab, ← hi]; simp
  rw [hset]
  rw [hab] at hn
  have hn' := List.pairwise_append.1 hn
  have hc := List.pairwise_cons.1 hn'.2.1
  refine List.pairwise_append.2 ⟨hn'.1, List.pairwise_cons.2 ⟨?_, hc.2⟩, ?_⟩
  · intro x hx; rw [hr]; exact hc.1 x hx
  · intro x hx y hy
    rcases List.mem_cons.1 hy with rfl | hy
    · rw [hr]; exact hn'.2.2 x hx t List.mem_cons_self
    · exact hn'.2.2 x hx y (List.mem_cons_of_mem _ hy)

theorem inv_run {e : Env} {s : State} (h : Inv e s) (i : Nat) : Inv e (onRun s i) := by
  unfold onRun
  cases ht : s.tasks[i]? with
  | none => exact h
  | some t =>
    have hmem : t ∈ s.tasks := List.mem_of_getElem? ht
    have base : ∀ (t' : Task), t'.req = t.req → (∀ g, t'.phase ≠ .waiting g) → ∀ (q : List (Nat × Bytes × After)),
        (∀ x ∈ q, x.1 = t.req) → q.map (·.2) ++ sends t'.acts = sends t.acts → ∀ c sl,
        Inv e { s with tasks := s.tasks.set i t', queue := s.queue ++ q, closing := c, slots := sl } := by
      intro t' hr hp q hq hs c sl
      refine ⟨?_, pairwise_set h.nodup ht t' hr, ?_, h.wlt, h.gen1, ?_, ?_, h.mt, h.rpt, h.good⟩
      · intro x hx
        rcases mem_set_task hx with rfl | hx
        · rw [hr]; exact h.lt t hmem
        · exact h.lt x hx
      · intro x hx
        rcases List.mem_append.1 hx with hx | hx
        · exact h.qlt x hx
        · rw [hq x hx]; exact h.lt t hmem
      · intro x hx g hg
        rcases mem_set_task hx with rfl | hx
        · exact absurd hg (hp g)
        · exact h.wait x hx g hg
      · intro k r hk
        have := owed_set h.nodup ht t' hr q hq hs k
        have e1 : owed { s with tasks := s.tasks.set i t', queue := s.queue ++ q, closing := c, slots := sl } k = owed s k := this
        rw [e1]
        exact h.owes k r hk
    have fin : (∀ g, t.phase ≠ .waiting g) → Inv e (onGo s i t) := by
      intro hp
      unfold onGo
      cases ha : t.acts with
      | nil =>
        refine ⟨?_, h.nodup.sublist (List.eraseIdx_sublist ..), h.qlt, h.wlt, h.gen1, ?_, ?_, h.mt, h.rpt, h.good⟩
        · intro x hx; exact h.lt x (List.mem_of_mem_eraseIdx hx)
        · intro x hx; exact h.wait x (List.mem_of_mem_eraseIdx hx)
        · intro k r hk
          have := owed_erase h.nodup ht k
          have hz : pend [t] k = [] := by
            by_cases hkt : t.req = k
            · rw [← hkt, pend_eq, ha]; rfl
            · exact pend_ne hkt
          rw [hz, List.append_nil] at this
          have e1 : owed { s with tasks := s.tasks.eraseIdx i, slots := freed s t } k = owed s k := this
          show owed { s with tasks := s.tasks.eraseIdx i, slots := freed s t } k <+: _ ∧ _
          rw [e1]
          exact h.owes k r hk
      | cons a rest =>
        cases a with
        | send f af =>
          refine base { t with acts := rest } rfl hp [(t.req, f, af)] ?_ ?_ s.closing s.slots
          · intro x hx; rw [List.mem_singleton.1 hx]
          · rw [ha]; rfl
        | shut =>
          have := base { t with acts := rest } rfl hp [] (by simp) (by rw [ha]; rfl) true s.slots
          simpa [onAct] using this
    cases hp : t.phase with
    | waiting g =>
      simp only [hp]
      by_cases hh : s.slots < s.win
      · rw [if_pos hh]
        have := base { t with phase := .inside s.gen } rfl (by simp) [] (by simp) rfl s.closing (s.slots + 1)
        simpa using this
      · rw [if_neg hh]; exact h
    | free => simp only [hp]; exact fin (by simp [hp])
    | inside g => simp only [hp]; exact fin (by simp [hp])

theorem inv_drop {e : Env} {s : State} (h : Inv e s) (i : Nat) : Inv e (onDrop s i) := by
  unfold onDrop
  split
  · rename_i k g acts ht
    by_cases hg : g < s.gen
    · rw [if_pos hg]
      have h1 := h.wait _ (List.mem_of_getElem? ht) g rfl
      refine ⟨?_, h.nodup.sublist (List.eraseIdx_sublist ..), h.qlt, h.wlt, h.gen1, ?_, ?_, h.mt, h.rpt, h.good⟩
      · intro x hx; exact h.lt x (List.mem_of_mem_eraseIdx hx)
      · intro x hx; exact h.wait x (List.mem_of_mem_eraseIdx hx)
      · intro k' r hk
        have := owed_erase h.nodup ht k'
        refine ⟨?_, fun hg1 => ?_⟩
        · refine List.IsPrefix.trans ?_ (h.owes k' r hk).1
          rw [← this]
          exact List.prefix_append _ _
        · have : s.gen ≤ 1 := hg1
          omega
    · rw [if_neg hg]; exact h
  · exact h

theorem ofNat_succ64 (n : Nat) : UInt64.ofNat n + 1 = UInt64.ofNat (n + 1) := by
  rw [UInt64.ofNat_add]; rfl

theorem inv_loop {e : Env} {s : State} (h : Inv e s) : Inv e (onLoop s) := by
  unfold onLoop
  split
  · exact h
  · rename_i k f a q hq
    have how : ∀ (n : Nat) (s' : State), s'.wire = s.wire ++ [(k, f, a)] → s'.queue = q → s'.tasks = s.tasks →
        owed s' n = owed s n := by
      intro n s' h1 h2 h3
      simp only [owed, h1, h2, h3, hq]
      have : (k, f, a) :: q = [(k, f, a)] ++ q := rfl
      rw [this, forReq_append, forReq_append]
      simp
    have hql : ∀ x ∈ q, x.1 < s.reqs.length := fun x hx => h.qlt x (by rw [hq]; exact List.mem_cons_of_mem _ hx)
    have hwl : ∀ x ∈ s.wire ++ [(k, f, a)], x.1 < s.reqs.length := by
      intro x hx
      rcases List.mem_append.1 hx with hx | hx
      · exact h.wlt x hx
      · rw [List.mem_singleton.1 hx]; exact h.qlt (k, f, a) (by rw [hq]; exact List.mem_cons_self)
    have hcount : ∀ b, (List.filter (fun x => decide (x.2.2 = b)) (s.wire ++ [(k, f, a)])).length =
        (List.filter (fun x => decide (x.2.2 = b)) s.wire).length + if a = b then 1 else 0 := by
      intro b
      rw [List.filter_append, List.length_append]
      by_cases hab : a = b <;> simp [hab]
    have hN : ∀ (x : UInt64) b, x = UInt64.ofNat (List.filter (fun x => decide (x.2.2 = b)) s.wire).length → a ≠ b →
        x = UInt64.ofNat (List.filter (fun x => decide (x.2.2 = b)) (s.wire ++ [(k, f, a)])).length := by
      intro x b hx hab
      rw [hcount, if_neg hab, Nat.add_zero]; exact hx
    have hY : ∀ (x : UInt64) b, x = UInt64.ofNat (List.filter (fun x => decide (x.2.2 = b)) s.wire).length → a = b →
        x + 1 = UInt64.ofNat (List.filter (fun x => decide (x.2.2 = b)) (s.wire ++ [(k, f, a)])).length := by
      intro x b hx hab
      rw [hcount, if_pos hab, hx, ofNat_succ64]
    cases a with
    | none =>
      refine ⟨h.lt, h.nodup, hql, hwl, h.gen1, h.wait, ?_, ?_, ?_, h.good⟩
      · intro n r hn; have := how n (onAfter { s with queue := q, wire := s.wire ++ [(k, f, .none)] } .none) rfl rfl rfl
        rw [this]; exact h.owes n r hn
      · exact hN _ _ h.mt (by simp)
      · exact hN _ _ h.rpt (by simp)
    | mt =>
      refine ⟨h.lt, h.nodup, hql, hwl, h.gen1, h.wait, ?_, ?_, ?_, h.good⟩
      · intro n r hn; have := how n (onAfter { s with queue := q, wire := s.wire ++ [(k, f, .mt)] } .mt) rfl rfl rfl
        rw [this]; exact h.owes n r hn
      · exact hY _ _ h.mt rfl
      · exact hN _ _ h.rpt (by simp)
    | rpt =>
      refine ⟨h.lt, h.nodup, hql, hwl, h.gen1, h.wait, ?_, ?_, ?_, h.good⟩
      · intro n r hn; have := how n (onAfter { s with queue := q, wire := s.wire ++ [(k, f, .rpt)] } .rpt) rfl rfl rfl
        rw [this]; exact h.owes n r hn
      · exact hN _ _ h.mt (by simp)
      · exact hY _ _ h.rpt rfl
    | close =>
      refine ⟨h.lt, h.nodup, hql, hwl, h.gen1, h.wait, ?_, ?_, ?_, h.good⟩
      · intro n r hn; have := how n (onAfter { s with queue := q, wire := s.wire ++ [(k, f, .close)] } .close) rfl rfl rfl
        rw [this]; exact h.owes n r hn
      · exact hN _ _ h.mt (by simp)
      · exact hN _ _ h.rpt (by simp)
    | refuse =>
      refine ⟨h.lt, h.nodup, hql, hwl, (fun h1 => nomatch h1), h.wait, ?_, ?_, ?_, h.good⟩
      · intro n r hn; have := how n (onAfter { s with queue := q, wire := s.wire ++ [(k, f, .refuse)] } .refuse) rfl rfl rfl
        rw [this]; exact h.owes n r hn
      · exact hN _ _ h.mt (by simp)
      · exact hN _ _ h.rpt (by simp)
    | login ac =>
      have m' : s.mt = UInt64.ofNat (List.filter (fun x => decide (x.2.2 = .mt)) (s.wire ++ [(k, f, .login ac)])).length := by
        exact hN _ _ h.mt (by simp)
      have r' : s.rpt = UInt64.ofNat (List.filter (fun x => decide (x.2.2 = .rpt)) (s.wire ++ [(k, f, .login ac)])).length := by
        exact hN _ _ h.rpt (by simp)
      unfold onAfter
      dsimp only
      by_cases hneg : ac.mtWindowSize < 0
      · rw [if_pos hneg]
        refine ⟨h.lt, h.nodup, hql, hwl, h.gen1, h.wait, ?_, m', r', h.good⟩
        intro n r hn
        have e1 := how n { s with queue := q, wire := s.wire ++ [(k, f, .login ac)], crashed := true } rfl rfl rfl
        rw [e1]; exact h.owes n r hn
      · rw [if_neg hneg]
        refine ⟨h.lt, h.nodup, hql, hwl, fun _ => by show 1 ≤ s.gen + 1; omega, h.wait, ?_, m', r', h.good⟩
        intro n r hn
        have e1 := how n { s with queue := q, wire := s.wire ++ [(k, f, .login ac)], stat := .login, ver := ac.version,
                                  win := ac.mtWindowSize.toNat, gen := s.gen + 1, slots := 0 } rfl rfl rfl
        rw [e1]
        refine ⟨(h.owes n r hn).1, fun hg => (h.owes n r hn).2 ?_⟩
        have : s.gen + 1 ≤ 1 := hg
        omega

theorem inv_step {e : Env} {s : State} (h : Inv e s) (x : Step) : Inv e (step e s x) := by
  unfold step
  by_cases hc : s.crashed = true ∨ s.isOpen = false
  · rw [if_pos hc]; exact h
  · rw [if_neg hc]
    cases x with
    | packet cmd seq body d => exact inv_packet h cmd seq body d
    | run i => exact inv_run h i
    | drop i => exact inv_drop h i
    | loop => exact inv_loop h
    | close => exact ⟨h.lt, h.nodup, h.qlt, h.wlt, h.gen1, h.wait, h.owes, h.mt, h.rpt, h.good⟩

theorem inv_run_all (e : Env) (steps : List Step) : Inv e (run e steps) := by
  unfold run
  suffices ∀ s, Inv e s → Inv e (steps.foldl (step e) s) from this _ (inv_init e)
  induction steps with
  | nil => exact fun s h => h
  | cons x l ih => exact fun s h => ih _ (inv_step h x)

end Gosms.ServerTraffic
