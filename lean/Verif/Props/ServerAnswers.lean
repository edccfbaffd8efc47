import Verif.Props.ServerWork

/-! # What the server answers, for every schedule (C76-C80) -/

namespace Gosms.ServerTraffic
open Handlers Spec.ServerTraffic

/-- The bytes written on the connection, frame by frame. -/
def frames (s : State) : List Bytes := s.wire.map (·.2.1)

/-- Whether the step is a packet for which the property holds. -/
def onPackets (q : UInt32 → UInt32 → Bytes → Draw → Bool) : Step → Bool
  | .packet cmd seq body d => q cmd seq body d
  | _ => false

/-! ## Where requests and frames come from -/

def ofReq (r : Req) : Step := .packet r.cmd r.seq r.body r.draw

theorem run_snoc (e : Env) (l : List Step) (x : Step) : run e (l ++ [x]) = step e (run e l) x := by simp [run]

theorem run_append (e : Env) (a b : List Step) : run e (a ++ b) = b.foldl (step e) (run e a) := by simp [run]

/-- What a step does to the requests, the wire and the queue. -/
theorem onAfter_reqs (s : State) (a : After) : (onAfter s a).reqs = s.reqs ∧ (onAfter s a).wire = s.wire ∧
    (onAfter s a).tasks = s.tasks ∧ (onAfter s a).queue = s.queue ∧ (onAfter s a).isOpen = s.isOpen := by
  cases a <;> simp only [onAfter, and_self]
  split <;> exact ⟨rfl, rfl, rfl, rfl, rfl⟩

theorem onGo_reqs (s : State) (i : Nat) (t : Task) : (onGo s i t).reqs = s.reqs ∧ (onGo s i t).wire = s.wire := by
  unfold onGo
  split
  · exact ⟨rfl, rfl⟩
  · rename_i a _ _; cases a <;> exact ⟨rfl, rfl⟩

theorem onRun_reqs (s : State) (i : Nat) : (onRun s i).reqs = s.reqs ∧ (onRun s i).wire = s.wire := by
  unfold onRun
  split
  · exact ⟨rfl, rfl⟩
  · split
    · split <;> exact ⟨rfl, rfl⟩
    · exact onGo_reqs ..
    · exact onGo_reqs ..

theorem onDrop_reqs (s : State) (i : Nat) : (onDrop s i).reqs = s.reqs ∧ (onDrop s i).wire = s.wire := by
  unfold onDrop
  split
  · split <;> exact ⟨rfl, rfl⟩
  · exact ⟨rfl, rfl⟩

theorem onLoop_reqs (s : State) : (onLoop s).reqs = s.reqs := by
  unfold onLoop
  split
  · rfl
  · exact (onAfter_reqs _ _).1

/-- A step adds a request exactly when it is a packet a task is started for. -/
theorem step_reqs (e : Env) (s : State) (x : Step) : (step e s x).reqs = s.reqs ∨
    ∃ cmd seq body d k, x = .packet cmd seq body d ∧ s.crashed = false ∧ s.isOpen = true ∧
      serve e.gbDec e.proto s.stat s.ver cmd seq body = .task k ∧
      (step e s x).reqs = s.reqs ++ [⟨s.ver, k, cmd, seq, body, d⟩] := by
  unfold step
  by_cases h : s.crashed ∨ s.isOpen = false
  · rw [if_pos h]; exact .inl rfl
  · rw [if_neg h]
    cases x with
    | packet cmd seq body d =>
      simp only [onPacket]
      cases hs : serve e.gbDec e.proto s.stat s.ver cmd seq body with
      | task k =>
        right
        refine ⟨cmd, seq, body, d, k, rfl, ?_, ?_, hs, rfl⟩
        · simpa using fun hc => h (.inl hc)
        · simpa using fun hc => h (.inr hc)
      | crash => exact .inl rfl
      | close => exact .inl rfl
      | ignored => exact .inl rfl
    | run i => exact .inl (onRun_reqs s i).1
    | drop i => exact .inl (onDrop_reqs s i).1
    | loop => exact .inl (onLoop_reqs s)
    | close => exact .inl rfl

theorem step_wire (e : Env) (s : State) (x : Step) : s.wire <+: (step e s x).wire := by
  unfold step
  split
  · exact List.prefix_refl _
  · cases x with
    | packet cmd seq body d =>
      simp only [onPacket]
      split <;> exact List.prefix_refl _
    | run i => simp only; rw [(onRun_reqs s i).2]; exact List.prefix_refl _
    | drop i => simp only; rw [(onDrop_reqs s i).2]; exact List.prefix_refl _
    | loop =>
      simp only [onLoop]
      split
      · exact List.prefix_refl _
      · rw [(onAfter_reqs _ _).2.1]; exact List.prefix_append _ _
    | close => exact List.prefix_refl _

theorem reqs_prefix (e : Env) (b : List Step) : ∀ s : State, s.reqs <+: (b.foldl (step e) s).reqs := by
  induction b with
  | nil => intro s; exact List.prefix_refl _
  | cons x b ih =>
    intro s
    refine List.IsPrefix.trans ?_ (ih (step e s x))
    rcases step_reqs e s x with h | ⟨cmd, seq, body, d, k, _, _, _, _, h⟩
    · rw [h]; exact List.prefix_refl _
    · rw [h]; exact List.prefix_append _ _

theorem wire_prefix (e : Env) (b : List Step) : ∀ s : State, s.wire <+: (b.foldl (step e) s).wire := by
  induction b with
  | nil => intro s; exact List.prefix_refl _
  | cons x b ih => intro s; exact (step_wire e s x).trans (ih (step e s x))

/-- The requests are the packets tasks were started for, in order. -/
theorem reqs_sublist (e : Env) (steps : List Step) : ((run e steps).reqs.map ofReq).Sublist steps := by
  induction steps using snoc_induction with
  | nil => exact List.Sublist.refl _
  | snoc l x ih =>
    rw [run_snoc]
    rcases step_reqs e (run e l) x with h | ⟨cmd, seq, body, d, k, hx, _, _, _, h⟩
    · rw [h]; exact ih.trans (List.sublist_append_left _ _)
    · rw [h, List.map_append, hx]
      exact List.Sublist.append ih (List.Sublist.refl _)

/-- Each request is a packet of the history, taken in the state reached before it. -/
theorem req_origin (e : Env) (steps : List Step) : ∀ k r, (run e steps).reqs[k]? = some r →
    ∃ a b, steps = a ++ ofReq r :: b ∧ (run e a).reqs.length = k ∧ r.ver = (run e a).ver ∧
      (run e a).crashed = false ∧ (run e a).isOpen = true ∧ (r.kind = .login ∨ (run e a).stat = .login) := by
  induction steps using snoc_induction with
  | nil => intro k r h; simp [run] at h
  | snoc l x ih =>
    intro k r h
    rw [run_snoc] at h
    have old : (run e l).reqs[k]? = some r → ∃ a b, l ++ [x] = a ++ ofReq r :: b ∧ (run e a).reqs.length = k ∧
        r.ver = (run e a).ver ∧ (run e a).crashed = false ∧ (run e a).isOpen = true ∧
        (r.kind = .login ∨ (run e a).stat = .login) := by
      intro h
      obtain ⟨a, b, hab, rest⟩ := ih k r h
      exact ⟨a, b ++ [x], by rw [hab]; simp, rest⟩
    rcases step_reqs e (run e l) x with h' | ⟨cmd, seq, body, d, k', hx, hc, ho, hs, h'⟩
    · rw [h'] at h; exact old h
    · rw [h'] at h
      rcases Nat.lt_or_ge k (run e l).reqs.length with hk | hk
      · rw [List.getElem?_append_left hk] at h; exact old h
      · rw [List.getElem?_append_right hk] at h
        have hk0 : k - (run e l).reqs.length = 0 := by
          rcases Nat.lt_or_ge (k - (run e l).reqs.length) 1 with h1 | h1
          · omega
          · rw [List.getElem?_eq_none (by simpa using h1)] at h; cases h
        rw [hk0] at h
        simp only [List.getElem?_cons_zero, Option.some.injEq] at h
        refine ⟨l, [], by rw [hx, ← h]; rfl, by omega, by rw [← h], hc, ho, ?_⟩
        rw [← h]; exact (chain_task hs).1

/-! ## What a task may send, case by case -/

theorem chain_submit {p : Proto} {cmd : UInt32} {k : Kind} (h : (cmd, k) ∈ chain p) : k = .submit ↔ cmd = submitCmd p := by
  have : ∀ p, ∀ x ∈ chain p, (x.2 = .submit ↔ x.1 = submitCmd p) := by intro p; cases p <;> decide
  exact this p _ h

theorem chain_login {p : Proto} {cmd : UInt32} {k : Kind} (h : (cmd, k) ∈ chain p) : k = .login ↔ cmd = loginCmd p := by
  have : ∀ p, ∀ x ∈ chain p, (x.2 = .login ↔ x.1 = loginCmd p) := by intro p; cases p <;> decide
  exact this p _ h

theorem chain_active {p : Proto} {cmd : UInt32} {k : Kind} (h : (cmd, k) ∈ chain p) :
    k = .active ↔ activeCmd p = some cmd := by
  have : ∀ p, ∀ x ∈ chain p, (x.2 = .active ↔ activeCmd p = some x.1) := by intro p; cases p <;> decide
  exact this p _ h

theorem chain_terminate {p : Proto} {cmd : UInt32} {k : Kind} (h : (cmd, k) ∈ chain p) :
    k = .terminate ↔ cmd = terminateCmd p := by
  have : ∀ p, ∀ x ∈ chain p, (x.2 = .terminate ↔ x.1 = terminateCmd p) := by intro p; cases p <;> decide
  exact this p _ h

/-- The decision about the login packet `r`. -/
def decision (e : Env) (r : Req) : Login := loginVerdict e.md5 e.proto r.body r.draw.find r.draw.sessions

/-- The submit response to `r`. -/
def submitAnswer (e : Env) (r : Req) : Bytes :=
  submitResponse (Cmpp.v3 r.ver) e.proto r.seq r.body (verdict r.draw) r.draw.id r.draw.bcd

/-- What the frames of a request may be. -/
inductive Entry (e : Env) (r : Req) : Bytes × After → Prop where
  | submit : r.kind = .submit → r.cmd = submitCmd e.proto → (r.draw.allow = false ∨ Able r.draw) →
      Entry e r (submitAnswer e r, if verdict r.draw = .accepted then .mt else .none)
  | report (f : Bytes) : r.kind = .submit → r.cmd = submitCmd e.proto → Able r.draw → verdict r.draw = .accepted →
      command f = be32 (deliverCmd e.proto) → e.proto ≠ .sgip →
      ((e.proto = .smgp → r.draw.bcd.length = 10) →
        reportId (Cmpp.v3 r.ver) e.proto f = messageId e.proto r.draw.id r.draw.bcd) →
      Entry e r (f, .rpt)
  | login : r.kind = .login → r.cmd = loginCmd e.proto →
      Entry e r (loginResponse e.md5 e.proto r.seq r.body (decision e r), afterLogin (decision e r))
  | active (f : Bytes) : r.kind = .active → activeCmd e.proto = some r.cmd → activeResponse e.proto r.seq = some f →
      Entry e r (f, .none)
  | terminate : r.kind = .terminate → r.cmd = terminateCmd e.proto →
      Entry e r (terminateResponse e.proto r.seq r.body, .close)

/-- A report is only sent after the response. -/
def IsAnswer (e : Env) (r : Req) (x : Bytes × After) : Prop := Entry e r x ∧ x.2 ≠ .rpt

def Good (e : Env) (r : Req) : Prop :=
  (r.cmd, r.kind) ∈ chain e.proto ∧ decodes e.gbDec r.ver r.seq r.body e.proto r.kind = true

/-- The frames of a request: nothing, or the answer and at most one report. -/
theorem sends_shape {e : Env} (h16 : ∀ x, (e.md5 x).length = 16) {r : Req} (hg : Good e r) :
    sends (workOf e r) = [] ∨ ∃ x rest, sends (workOf e r) = x :: rest ∧ Entry e r x ∧ x.2 ≠ .rpt ∧ rest.length ≤ 1 ∧
      ∀ y ∈ rest, Entry e r y ∧ y.2 = .rpt ∧ x = (submitAnswer e r, .mt) := by
  obtain ⟨hc, hd⟩ := hg
  by_cases h1 : r.kind = .submit
  · have hs := (chain_submit hc).1 h1
    obtain ⟨w1, w2⟩ := submit_work h1 hd
    by_cases ha : r.draw.allow = false ∨ Able r.draw
    · obtain ⟨reports, hr, hl, hall⟩ := w2 ha
      refine .inr ⟨_, reports, hr, .submit h1 hs ha, ?_, hl, ?_⟩
      · dsimp only; split <;> simp
      · intro y hy
        obtain ⟨q1, q2, q3, q4, q5⟩ := hall y hy
        refine ⟨?_, q2, ?_⟩
        · obtain ⟨f, a⟩ := y
          simp only at q2 q3 q5
          subst q2
          refine .report f h1 hs ?_ q1 q3 q4 q5
          rcases ha with ha | ha
          · simp [verdict, ha] at q1
          · exact ha
        · rw [if_pos q1]; rfl
    · left
      have ha1 : r.draw.allow = true := by simpa using fun h => ha (.inl h)
      have ha2 : ¬ Able r.draw := fun h => ha (.inr h)
      exact w1 ha1 ha2
  by_cases h2 : r.kind = .login
  · refine .inr ⟨_, [], login_work h16 h2 hd, .login h2 ((chain_login hc).1 h2), ?_, by simp, by simp⟩
    dsimp only
    cases loginVerdict e.md5 e.proto r.body r.draw.find r.draw.sessions <;> simp [afterLogin]
  by_cases h3 : r.kind = .active
  · have ha := (chain_active hc).1 h3
    obtain ⟨f, hf⟩ : ∃ f, activeResponse e.proto r.seq = some f := by
      cases hp : e.proto
      · exact ⟨_, rfl⟩
      · rw [hp] at ha; cases ha
      · exact ⟨_, rfl⟩
    exact .inr ⟨_, [], active_work h3 f hf, .active f h3 ha hf, by simp, by simp, by simp⟩
  by_cases h4 : r.kind = .terminate
  · exact .inr ⟨_, [], terminate_work h4 hd, .terminate h4 ((chain_terminate hc).1 h4), by simp, by simp, by simp⟩
  · exact .inl (other_work h1 h2 h3 h4)

theorem entry_of_mem {e : Env} (h16 : ∀ x, (e.md5 x).length = 16) {r : Req} (hg : Good e r) {x : Bytes × After}
    (hx : x ∈ sends (workOf e r)) : Entry e r x := by
  rcases sends_shape h16 hg with h | ⟨y, rest, h, hy, _, _, hrest⟩
  · rw [h] at hx; cases hx
  · rw [h] at hx
    rcases List.mem_cons.1 hx with rfl | hx
    · exact hy
    · exact (hrest x hx).1

/-! ## Frames on the wire -/

theorem forReq_mem {k : Nat} {l : List (Nat × Bytes × After)} {x : Nat × Bytes × After} (hx : x ∈ l) (hk : x.1 = k) :
    x.2 ∈ forReq k l := List.mem_map_of_mem (List.mem_filter.2 ⟨hx, by simpa using hk⟩)

/-- A frame on the wire belongs to a request, and its earlier frames for the same request are those its task sent before. -/
theorem wire_split {e : Env} {s : State} (h : Inv e s) {pre post : List (Nat × Bytes × After)} {x : Nat × Bytes × After}
    (hw : s.wire = pre ++ x :: post) : ∃ r, s.reqs[x.1]? = some r ∧ Good e r ∧
      forReq x.1 pre ++ [x.2] <+: sends (workOf e r) := by
  have hlt := h.wlt x (by rw [hw]; simp)
  obtain ⟨r, hr⟩ : ∃ r, s.reqs[x.1]? = some r := ⟨_, List.getElem?_eq_getElem hlt⟩
  refine ⟨r, hr, h.good r (List.mem_of_getElem? hr), ?_⟩
  refine List.IsPrefix.trans ?_ (h.owes _ _ hr).1
  have e1 : forReq x.1 (x :: post) = x.2 :: forReq x.1 post := by simp [forReq]
  rw [owed, hw, forReq_append, e1]
  simp only [List.append_assoc, List.cons_append]
  exact ⟨_, by rw [List.append_assoc]; rfl⟩

theorem wire_entry {e : Env} (h16 : ∀ x, (e.md5 x).length = 16) {s : State} (h : Inv e s) {x : Nat × Bytes × After}
    (hx : x ∈ s.wire) : ∃ r, s.reqs[x.1]? = some r ∧ Good e r ∧ Entry e r x.2 := by
  obtain ⟨pre, post, hw⟩ := List.append_of_mem hx
  obtain ⟨r, hr, hg, hp⟩ := wire_split h hw
  exact ⟨r, hr, hg, entry_of_mem h16 hg (hp.subset (by simp))⟩

/-- Counting: if each request has at most one frame with the property, and only requests with `q` have one, then there are at most
as many such frames as such requests. -/
theorem count_le {e : Env} {s : State} (h : Inv e s) (P : Bytes × After → Bool) (q : Req → Bool)
    (hq : ∀ r, Good e r → ((sends (workOf e r)).filter P).length ≤ if q r then 1 else 0) :
    (s.wire.filter fun x => P x.2).length ≤ (s.reqs.filter q).length := by
  have key : ∀ N, N ≤ s.reqs.length →
      (s.wire.filter fun x => decide (x.1 < N) && P x.2).length ≤ ((s.reqs.take N).filter q).length := by
    intro N
    induction N with
    | zero => intro _; simp
    | succ N ih =>
      intro hN
      have hsplit : ∀ l : List (Nat × Bytes × After), (l.filter fun x => decide (x.1 < N + 1) && P x.2).length =
          (l.filter fun x => decide (x.1 < N) && P x.2).length + ((forReq N l).filter P).length := by
        intro l
        induction l with
        | nil => rfl
        | cons y l ihl =>
          have e1 : forReq N (y :: l) = forReq N [y] ++ forReq N l := forReq_append N [y] l
          rw [e1, List.filter_append, List.length_append, List.filter_cons, List.filter_cons]
          rcases Nat.lt_trichotomy y.1 N with hy | hy | hy
          · have h1 : y.1 < N + 1 := by omega
            have h2 : ¬ y.1 = N := by omega
            have h3 : forReq N [y] = [] := by simp [forReq, h2]
            rw [h3]
            cases hp : P y.2 <;> simp [hy, h1] <;> omega
          · have h1 : y.1 < N + 1 := by omega
            have h2 : ¬ y.1 < N := by omega
            have h3 : forReq N [y] = [y.2] := by simp [forReq, hy]
            rw [h3]
            cases hp : P y.2 <;> simp [h1, h2, hp] <;> omega
          · have h1 : ¬ y.1 < N + 1 := by omega
            have h2 : ¬ y.1 < N := by omega
            have h3 : forReq N [y] = [] := by
              have : ¬ y.1 = N := by omega
              simp [forReq, this]
            rw [h3]
            simp [h1, h2]; omega
      rw [hsplit]
      have hlt : N < s.reqs.length := hN
      rw [List.take_succ_eq_append_getElem hlt, List.filter_append, List.length_append]
      have hr : s.reqs[N]? = some s.reqs[N] := List.getElem?_eq_getElem hlt
      have hp := (h.owes _ _ hr).1
      have hf : ((forReq N s.wire).filter P).length ≤ ((sends (workOf e s.reqs[N])).filter P).length := by
        have : forReq N s.wire <+: sends (workOf e s.reqs[N]) := List.IsPrefix.trans (List.prefix_append _ _) hp
        exact (this.sublist.filter P).length_le
      have hgood := hq _ (h.good _ (List.getElem_mem hlt))
      have e2 : ([s.reqs[N]].filter q).length = if q s.reqs[N] then 1 else 0 := by
        cases hqq : q s.reqs[N] <;> simp [hqq]
      rw [e2]
      have := ih (by omega)
      omega
  have hall := key s.reqs.length (Nat.le_refl _)
  rw [List.take_length] at hall
  refine Nat.le_trans (Nat.le_of_eq ?_) hall
  congr 1
  apply List.filter_congr
  intro x hx
  simp [h.wlt x hx]

/-- And at most as many as packets with the corresponding property. -/
theorem count_le_packets {e : Env} (steps : List Step) (P : Bytes × After → Bool) (q : UInt32 → UInt32 → Bytes → Draw → Bool)
    (hq : ∀ r, Good e r → ((sends (workOf e r)).filter P).length ≤ if q r.cmd r.seq r.body r.draw then 1 else 0) :
    ((run e steps).wire.filter fun x => P x.2).length ≤ (steps.filter (onPackets q)).length := by
  refine Nat.le_trans (count_le (inv_run_all e steps) P (fun r => q r.cmd r.seq r.body r.draw) hq) ?_
  have := ((reqs_sublist e steps).filter (onPackets q)).length_le
  rw [List.filter_map, List.length_map] at this
  exact this

theorem frame_iff {s : State} {f : Bytes} : f ∈ frames s ↔ ∃ x ∈ s.wire, x.2.1 = f := by simp [frames]

/-! ## Commands and sequence numbers of answers -/

theorem responseOf_toNat {c : UInt32} (h : c < 0x80000000) : (Spec.responseOf c).toNat = c.toNat + 0x80000000 := by
  have h' : c.toNat < 2 ^ 31 := h
  rw [Spec.responseOf, UInt32.toNat_or]
  have := Nat.two_pow_add_eq_or_of_lt h' 1
  simp only [Nat.mul_one] at this
  have e1 : (0x80000000 : UInt32).toNat = 2 ^ 31 := rfl
  rw [e1, Nat.or_comm, ← this]
  omega

theorem responseOf_inj {c c' : UInt32} (h : c < 0x80000000) (h' : c' < 0x80000000)
    (hh : Spec.responseOf c = Spec.responseOf c') : c = c' := by
  have := congrArg UInt32.toNat hh
  rw [responseOf_toNat h, responseOf_toNat h'] at this
  exact UInt32.toNat_inj.1 (by omega)

theorem deliver_ne {c : UInt32} (p : Proto) (h : c < 0x80000000) : be32 (deliverCmd p) ≠ be32 (Spec.responseOf c) := by
  intro hh
  have := congrArg UInt32.toNat (be32_inj hh)
  rw [responseOf_toNat h] at this
  have h2 : (deliverCmd p).toNat ≤ 5 := by cases p <;> decide
  omega

theorem seqOf_response (cmd seq : UInt32) (b : Bytes) (p : Proto) :
    seqOf p (response cmd seq b) = be32 seq ++ (if p = .sgip then b.take 8 else []) := by
  have e1 : (response cmd seq b).drop 8 = be32 seq ++ b := by
    have : response cmd seq b = (be32 (UInt32.ofNat (12 + b.length)) ++ be32 (Spec.responseOf cmd)) ++ (be32 seq ++ b) := by
      simp [response, Spec.header12]
    rw [this, List.drop_left' (by simp)]
  rw [seqOf, e1]
  by_cases h : p = .sgip
  · rw [if_pos h, if_pos h, List.take_append, List.take_of_length_le (by simp)]; simp
  · rw [if_neg h, if_neg h, List.take_left' (by simp)]; simp

theorem good_sgip {e : Env} {r : Req} (hg : Good e r) (hp : e.proto = .sgip) : 8 ≤ r.body.length := by
  obtain ⟨hc, hd⟩ := hg
  have hb := (decodes_iff ..).1 hd
  rw [hp] at hc hb
  have hk : r.kind = .submit ∨ r.kind = .login ∨ r.kind = .terminate ∨ r.kind = .terminateResp := by
    have : ∀ x ∈ chain .sgip, x.2 = .submit ∨ x.2 = .login ∨ x.2 = .terminate ∨ x.2 = .terminateResp := by decide
    exact this _ hc
  rcases hk with h | h | h | h <;> rw [h] at hb <;> simp only [Spec.BodyComplete, Spec.SgipSubmitBody] at hb <;> omega

theorem cmds_lt : ∀ p, submitCmd p < 0x80000000 ∧ loginCmd p < 0x80000000 ∧ terminateCmd p < 0x80000000 ∧
    (∀ c, activeCmd p = some c → c < 0x80000000) := by
  intro p; cases p <;> simp [submitCmd, loginCmd, terminateCmd, activeCmd] <;> decide

/-- An answer carries the command of the request with the top bit set, and its sequence number. -/
theorem entry_answer {e : Env} {r : Req} (hg : Good e r) {x : Bytes × After} (hx : Entry e r x) (hr : x.2 ≠ .rpt) :
    command x.1 = be32 (Spec.responseOf r.cmd) ∧ seqOf e.proto x.1 = packetSeq e.proto r.seq r.body ∧ r.cmd < 0x80000000 := by
  have hs := good_sgip hg
  obtain ⟨c1, c2, c3, c4⟩ := cmds_lt e.proto
  have tk : ∀ (b c : Bytes), 8 ≤ b.length → (b.take 8 ++ c).take 8 = b.take 8 := by
    intro b c h; rw [List.take_left' (by simp; omega)]
  cases hx with
  | submit hk hc ha =>
    refine ⟨by rw [hc]; exact command_response _ _ _, ?_, by rw [hc]; exact c1⟩
    unfold submitAnswer submitResponse; rw [seqOf_response, packetSeq]
    cases hp : e.proto with
    | cmpp => rfl
    | smgp => rfl
    | sgip => simp only [if_true, List.append_assoc]; rw [tk _ _ (hs hp)]
  | report f _ _ _ _ _ _ _ => exact absurd rfl hr
  | login hk hc =>
    refine ⟨by rw [hc]; exact command_response _ _ _, ?_, by rw [hc]; exact c2⟩
    unfold loginResponse; rw [seqOf_response, packetSeq]
    cases hp : e.proto with
    | cmpp => rfl
    | smgp => rfl
    | sgip => simp only [if_true]; rw [tk _ _ (hs hp)]
  | active f hk hc hf =>
    refine ⟨?_, ?_, c4 _ hc⟩
    · cases hp : e.proto <;> rw [hp] at hc hf <;> simp only [activeCmd, activeResponse, Option.some.injEq, reduceCtorEq] at hc hf
      · rw [← hf, ← hc]; exact command_response _ _ _
      · rw [← hf, ← hc]; exact command_response _ _ _
    · cases hp : e.proto <;> rw [hp] at hc hf <;> simp only [activeCmd, activeResponse, Option.some.injEq, reduceCtorEq] at hc hf
      · rw [← hf, seqOf_response]; rfl
      · rw [← hf, seqOf_response]; rfl
  | terminate hk hc =>
    refine ⟨by rw [hc]; exact command_response _ _ _, ?_, by rw [hc]; exact c3⟩
    rw [terminateResponse, seqOf_response, packetSeq]
    cases hp : e.proto with
    | cmpp => rfl
    | smgp => rfl
    | sgip => simp only [if_true]; rw [List.take_take]; rfl

theorem entry_report {e : Env} {r : Req} {x : Bytes × After} (hx : Entry e r x) (hr : x.2 = .rpt) :
    command x.1 = be32 (deliverCmd e.proto) ∧ r.cmd = submitCmd e.proto ∧ verdict r.draw = .accepted ∧ e.proto ≠ .sgip ∧
      Able r.draw ∧ ((e.proto = .smgp → r.draw.bcd.length = 10) →
        reportId (Cmpp.v3 r.ver) e.proto x.1 = messageId e.proto r.draw.id r.draw.bcd) := by
  cases hx with
  | submit hk hc ha =>
    dsimp only at hr
    split at hr <;> cases hr
  | report f h1 h2 h3 h4 h5 h6 h7 => exact ⟨h5, h2, h4, h6, h3, h7⟩
  | login hk hc =>
    dsimp only at hr
    cases hd : decision e r <;> rw [hd] at hr <;> cases hr
  | active f hk hc hf => cases hr
  | terminate hk hc => cases hr

/-- The command tells answers from reports. -/
theorem entry_command {e : Env} {r : Req} (hg : Good e r) {x : Bytes × After} (hx : Entry e r x) :
    x.2 = .rpt ↔ command x.1 = be32 (deliverCmd e.proto) := by
  refine ⟨fun h => (entry_report hx h).1, fun h => Classical.byContradiction fun hr => ?_⟩
  have := entry_answer hg hx hr
  rw [h] at this
  exact deliver_ne e.proto this.2.2 this.1

/-! ## C76: answers -/

/-- C76, the first part: whatever the packets and the schedule, no request is answered twice. For every request command and sequence
number there are at most as many responses on the connection as there were packets with them. -/
theorem response_at_most_once (e : Env) (h16 : ∀ x, (e.md5 x).length = 16) (steps : List Step) (cmd : UInt32)
    (hcmd : cmd < 0x80000000) (n : Bytes) :
    ((frames (run e steps)).filter fun f => command f = be32 (Spec.responseOf cmd) ∧ seqOf e.proto f = n).length ≤
      (steps.filter (onPackets fun c seq body _ => c = cmd ∧ packetSeq e.proto seq body = n)).length := by
  rw [frames, List.filter_map, List.length_map]
  refine count_le_packets steps (fun x => decide (command x.1 = be32 (Spec.responseOf cmd) ∧ seqOf e.proto x.1 = n)) _ ?_
  intro r hg
  rcases sends_shape h16 hg with h | ⟨x, rest, h, hx, hxr, _, hrest⟩
  · rw [h]; simp
  · rw [h]
    obtain ⟨a1, a2, a3⟩ := entry_answer hg hx hxr
    have hnone : rest.filter (fun x => decide (command x.1 = be32 (Spec.responseOf cmd) ∧ seqOf e.proto x.1 = n)) = [] := by
      rw [List.filter_eq_nil_iff]
      intro y hy
      have hd := (entry_report (hrest y hy).1 (hrest y hy).2.1).1
      have := deliver_ne e.proto hcmd
      simp [hd, this]
    rw [List.filter_cons, hnone]
    by_cases hq : r.cmd = cmd ∧ packetSeq e.proto r.seq r.body = n
    · have e2 : decide (r.cmd = cmd ∧ packetSeq e.proto r.seq r.body = n) = true := by simpa using hq
      rw [e2, if_pos rfl]
      split <;> simp
    · have : ¬ (command x.1 = be32 (Spec.responseOf cmd) ∧ seqOf e.proto x.1 = n) := by
        rintro ⟨b1, b2⟩
        rw [a1] at b1
        rw [a2] at b2
        exact hq ⟨responseOf_inj a3 hcmd (be32_inj b1), b2⟩
      rw [if_neg (by simpa using this)]
      simp

/-- What the specification says the server answers to a packet (`ver`: the session's protocol version). -/
def answer (e : Env) (ver : UInt8) (cmd seq : UInt32) (body : Bytes) (d : Draw) : Option Bytes :=
  if cmd = submitCmd e.proto then
    some (submitResponse (Cmpp.v3 ver) e.proto seq body (verdict d) d.id d.bcd)
  else if cmd = loginCmd e.proto then
    some (loginResponse e.md5 e.proto seq body (loginVerdict e.md5 e.proto body d.find d.sessions))
  else if activeCmd e.proto = some cmd then activeResponse e.proto seq
  else if cmd = terminateCmd e.proto then some (terminateResponse e.proto seq body)
  else none

theorem answer_of_entry {e : Env} {r : Req} {x : Bytes × After} (hx : Entry e r x) (hr : x.2 ≠ .rpt) :
    answer e r.ver r.cmd r.seq r.body r.draw = some x.1 := by
  have hne : ∀ p, submitCmd p ≠ loginCmd p ∧ activeCmd p ≠ some (submitCmd p) ∧ activeCmd p ≠ some (loginCmd p) ∧
      terminateCmd p ≠ submitCmd p ∧ terminateCmd p ≠ loginCmd p ∧ activeCmd p ≠ some (terminateCmd p) := by
    intro p; cases p <;> decide
  obtain ⟨n1, n2, n3, n4, n5, n6⟩ := hne e.proto
  unfold answer
  cases hx with
  | submit hk hc ha => rw [if_pos hc]; rfl
  | report f h1 h2 h3 h4 h5 h6 h7 => exact absurd rfl hr
  | login hk hc => rw [if_neg (by rw [hc]; exact Ne.symm n1), if_pos hc]; rfl
  | active f hk hc hf =>
    rw [if_neg (by intro h; rw [h] at hc; exact n2 hc), if_neg (by intro h; rw [h] at hc; exact n3 hc), if_pos hc, hf]
  | terminate hk hc =>
    rw [if_neg (by rw [hc]; exact n4), if_neg (by rw [hc]; exact n5), if_neg (by rw [hc]; exact n6), if_pos hc]

/-- C76: the server speaks only when spoken to, and says what the specification says. Every frame on the connection that is not a
delivery is, byte for byte, the answer to a packet received, in the version the session had when the packet arrived; and that packet
was a login or the session was logged in by then. -/
theorem frame_answers (e : Env) (h16 : ∀ x, (e.md5 x).length = 16) (steps : List Step) (f : Bytes)
    (hf : f ∈ frames (run e steps)) (hc : command f ≠ be32 (deliverCmd e.proto)) :
    ∃ a cmd seq body d b, steps = a ++ .packet cmd seq body d :: b ∧
      answer e (run e a).ver cmd seq body d = some f ∧ (cmd = loginCmd e.proto ∨ (run e a).stat = .login) := by
  obtain ⟨x, hx, rfl⟩ := frame_iff.1 hf
  obtain ⟨r, hr, hg, hE⟩ := wire_entry h16 (inv_run_all e steps) hx
  obtain ⟨a, b, hab, _, hv, _, _, hl⟩ := req_origin e steps _ _ hr
  refine ⟨a, r.cmd, r.seq, r.body, r.draw, b, hab, ?_, ?_⟩
  · rw [← hv]; exact answer_of_entry hE (fun h => hc ((entry_command hg hE).1 h))
  · exact hl.imp (chain_login hg.1).1 id

/-! ## C76: every request is answered once everything has run -/

/-- The steps the server takes by itself. -/
def Internal : Step → Prop
  | .run _ => True
  | .drop _ => True
  | .loop => True
  | _ => False

/-- Nothing is left to do: no task and not the event loop can go on. -/
def Settled (e : Env) (s : State) : Prop := ∀ x, Internal x → step e s x = s

/-- A bound for what is left to do. -/
def weight (t : Task) : Nat := 2 * t.acts.length + (match t.phase with | .waiting _ => 3 | _ => 2)
def measure (s : State) : Nat := (s.tasks.map weight).sum + s.queue.length

theorem sum_set {l : List Nat} : ∀ {i : Nat} {x y : Nat}, l[i]? = some x → (l.set i y).sum + x = l.sum + y := by
  induction l with
  | nil => intro i x y h; cases h
  | cons a l ih =>
    intro i x y h
    cases i with
    | zero =>
      simp only [List.getElem?_cons_zero, Option.some.injEq] at h
      simp only [List.set_cons_zero, List.sum_cons]; omega
    | succ i =>
      simp only [List.getElem?_cons_succ] at h
      have := ih (y := y) h
      simp only [List.set_cons_succ, List.sum_cons]; omega

theorem sum_eraseIdx {l : List Nat} : ∀ {i : Nat} {x : Nat}, l[i]? = some x → (l.eraseIdx i).sum + x = l.sum := by
  induction l with
  | nil => intro i x h; cases h
  | cons a l ih =>
    intro i x h
    cases i with
    | zero =>
      simp only [List.getElem?_cons_zero, Option.some.injEq] at h
      simp only [List.eraseIdx_cons_zero, List.sum_cons]; omega
    | succ i =>
      simp only [List.getElem?_cons_succ] at h
      have := ih h
      simp only [List.eraseIdx_cons_succ, List.sum_cons]; omega

theorem weight_get {s : State} {i : Nat} {t : Task} (h : s.tasks[i]? = some t) : (s.tasks.map weight)[i]? = some (weight t) := by
  simp [h]

theorem measure_erase {s : State} {i : Nat} {t : Task} (h : s.tasks[i]? = some t) :
    measure { s with tasks := s.tasks.eraseIdx i } < measure s := by
  have := sum_eraseIdx (weight_get h)
  have hw : 2 ≤ weight t := by unfold weight; split <;> omega
  have e1 : ∀ (l : List Task) (i : Nat), (l.eraseIdx i).map weight = (l.map weight).eraseIdx i := by
    intro l
    induction l with
    | nil => intro i; rfl
    | cons a l ih =>
      intro i
      cases i with
      | zero => rfl
      | succ i => simp only [List.eraseIdx_cons_succ, List.map_cons, ih]
  simp only [measure, e1]
  omega

theorem measure_go {s : State} {i : Nat} {t : Task} (h : s.tasks[i]? = some t) : measure (onGo s i t) < measure s := by
  unfold onGo
  split
  · exact measure_erase h
  · rename_i a rest ha
    have hs := sum_set (y := weight { t with acts := rest }) (weight_get h)
    have hw : weight t = weight { t with acts := rest } + 2 := by
      unfold weight; rw [ha]; simp only [List.length_cons]; split <;> omega
    cases a with
    | send f a =>
      simp only [onAct, measure, List.map_set, List.length_append, List.length_singleton]
      omega
    | shut =>
      simp only [onAct, measure, List.map_set]
      omega

theorem measure_run (s : State) (i : Nat) : onRun s i = s ∨ measure (onRun s i) < measure s := by
  unfold onRun
  split
  · exact .inl rfl
  · rename_i t ht
    split
    · rename_i g hg
      split
      · right
        have hs := sum_set (y := weight { t with phase := .inside s.gen }) (weight_get ht)
        have hw : weight t = weight { t with phase := .inside s.gen } + 1 := by
          simp only [weight, hg]
        simp only [measure, List.map_set]
        omega
      · exact .inl rfl
    · exact .inr (measure_go ht)
    · exact .inr (measure_go ht)

theorem measure_drop (s : State) (i : Nat) : onDrop s i = s ∨ measure (onDrop s i) < measure s := by
  unfold onDrop
  split
  · rename_i ht
    split
    · exact .inr (measure_erase ht)
    · exact .inl rfl
  · exact .inl rfl

theorem measure_loop (s : State) : onLoop s = s ∨ measure (onLoop s) < measure s := by
  unfold onLoop
  split
  · exact .inl rfl
  · rename_i k f a q hq
    right
    have ha := onAfter_reqs { s with queue := q, wire := s.wire ++ [(k, f, a)] } a
    unfold measure
    rw [ha.2.2.1, ha.2.2.2.1, hq]
    simp

/-- Each step of its own that changes anything brings the server closer to having nothing left to do. -/
theorem measure_step (e : Env) (s : State) (x : Step) (hx : Internal x) : step e s x = s ∨ measure (step e s x) < measure s := by
  unfold step
  split
  · exact .inl rfl
  · cases x with
    | packet => cases hx
    | run i => exact measure_run s i
    | drop i => exact measure_drop s i
    | loop => exact measure_loop s
    | close => cases hx

/-- A schedule of the server's own steps that do something. -/
def Effective (e : Env) : State → List Step → Prop
  | _, [] => True
  | s, x :: l => Internal x ∧ step e s x ≠ s ∧ Effective e (step e s x) l

/-- C76: without further packets the server comes to rest: whatever order its tasks and its event loop run in, only a bounded number
of steps have any effect. -/
theorem server_settles (e : Env) (l : List Step) : ∀ s, Effective e s l → l.length ≤ measure s := by
  induction l with
  | nil => intro s _; exact Nat.zero_le _
  | cons x l ih =>
    intro s h
    obtain ⟨h1, h2, h3⟩ := h
    have := ih _ h3
    rcases measure_step e s x h1 with h | h
    · exact absurd h h2
    · simp only [List.length_cons]; omega

/-- And some order leads to rest from every state. -/
theorem server_can_settle (e : Env) : ∀ n s, measure s ≤ n → ∃ l : List Step, (∀ x ∈ l, Internal x) ∧
    Settled e (l.foldl (step e) s) := by
  intro n
  induction n with
  | zero =>
    intro s hs
    refine ⟨[], by simp, fun x hx => ?_⟩
    rcases measure_step e s x hx with h | h
    · exact h
    · omega
  | succ n ih =>
    intro s hs
    by_cases h : Settled e s
    · exact ⟨[], by simp, h⟩
    · obtain ⟨x, hx⟩ := Classical.not_forall.1 h
      obtain ⟨hi, hx⟩ := Classical.not_imp.1 hx
      rcases measure_step e s x hi with hm | hm
      · exact absurd hm hx
      · obtain ⟨l, hl, hset⟩ := ih (step e s x) (by omega)
        refine ⟨x :: l, fun y hy => ?_, hset⟩
        rcases List.mem_cons.1 hy with rfl | hy
        · exact hi
        · exact hl y hy

/-- How many tasks have taken a slot, of any window. -/
def slotOf (t : Task) : Nat := match t.phase with | .inside _ => 1 | _ => 0

def insides (s : State) : Nat := (s.tasks.map slotOf).sum

theorem slots_step {e : Env} {s : State} (h : s.slots ≤ insides s) (x : Step) : (step e s x).slots ≤ insides (step e s x) := by
  have get : ∀ {i : Nat} {t : Task}, s.tasks[i]? = some t → (s.tasks.map slotOf)[i]? = some (slotOf t) := by
    intro i t ht; simp [ht]
  have er : ∀ (l : List Task) (i : Nat), (l.eraseIdx i).map slotOf = (l.map slotOf).eraseIdx i := by
    intro l
    induction l with
    | nil => intro i; rfl
    | cons a l ih =>
      intro i
      cases i with
      | zero => rfl
      | succ i => simp only [List.eraseIdx_cons_succ, List.map_cons, ih]
  unfold insides at h
  unfold step
  split
  · exact h
  · cases x with
    | packet cmd seq body d =>
      simp only [onPacket]
      split
      · exact h
      · exact h
      · exact h
      · simp only [insides, List.map_append, List.sum_append]; omega
    | run i =>
      simp only [onRun]
      split
      · exact h
      · rename_i t ht
        have go : (onGo s i t).slots ≤ insides (onGo s i t) := by
          unfold onGo
          split
          · have hs := sum_eraseIdx (get ht)
            simp only [insides, er, freed]
            cases hp : t.phase with
            | inside g =>
              have h1 : slotOf t = 1 := by simp only [slotOf, hp]
              dsimp only; omega
            | free =>
              have h1 : slotOf t = 0 := by simp only [slotOf, hp]
              dsimp only; omega
            | waiting g =>
              have h1 : slotOf t = 0 := by simp only [slotOf, hp]
              dsimp only; omega
          · rename_i a rest _
            have hs := sum_set (y := slotOf { t with acts := rest }) (get ht)
            have h1 : slotOf { t with acts := rest } = slotOf t := rfl
            cases a <;> (simp only [onAct, insides, List.map_set]; omega)
        split
        · rename_i g hp
          split
          · have hs := sum_set (y := slotOf { t with phase := .inside s.gen }) (get ht)
            have h1 : slotOf { t with phase := .inside s.gen } = 1 := rfl
            have h2 : slotOf t = 0 := by simp only [slotOf, hp]
            simp only [insides, List.map_set]
            omega
          · exact h
        · exact go
        · exact go
    | drop i =>
      simp only [onDrop]
      split
      · rename_i r g acts ht
        split
        · have hs := sum_eraseIdx (get ht)
          have h1 : slotOf ⟨r, .waiting g, acts⟩ = 0 := rfl
          simp only [insides, er]
          omega
        · exact h
      · exact h
    | loop =>
      simp only [onLoop]
      split
      · exact h
      · rename_i k f a q _
        cases a with
        | login ac =>
          simp only [onAfter]
          split
          · exact h
          · simp only [insides]; omega
        | none => exact h
        | mt => exact h
        | rpt => exact h
        | close => exact h
        | refuse => exact h
    | close => exact h

theorem slots_le (e : Env) (steps : List Step) : (run e steps).slots ≤ insides (run e steps) := by
  induction steps using snoc_induction with
  | nil => exact Int.le_refl _
  | snoc l x ih =>
    have : run e (l ++ [x]) = step e (run e l) x := by unfold run; rw [List.foldl_append]; rfl
    rw [this]
    exact slots_step ih x

/-- At rest with a free window slot, everything has been done. -/
theorem settled_empty {e : Env} {s : State} (hc : s.crashed = false) (ho : s.isOpen = true) (hs : Settled e s)
    (hsl : s.slots ≤ insides s) (hw : 0 < s.win ∨ ∀ t ∈ s.tasks, ∀ g, t.phase ≠ .waiting g) : s.tasks = [] ∧ s.queue = [] := by
  have hn : ¬ (s.crashed ∨ s.isOpen = false) := by simp [hc, ho]
  have hrun : ∀ i, onRun s i = s := by
    intro i
    have := hs (.run i) trivial
    unfold step at this
    rwa [if_neg hn] at this
  have hloop : onLoop s = s := by
    have := hs .loop trivial
    unfold step at this
    rwa [if_neg hn] at this
  have hq : s.queue = [] := by
    cases hq : s.queue with
    | nil => rfl
    | cons x q =>
      obtain ⟨k, f, a⟩ := x
      have := congrArg State.queue hloop
      unfold onLoop at this
      simp only [hq] at this
      rw [(onAfter_reqs _ _).2.2.2.1] at this
      have := congrArg List.length this
      simp at this
  refine ⟨?_, hq⟩
  have hgo : ∀ (i : Nat) t, s.tasks[i]? = some t → ∃ g, t.phase = .waiting g := by
    intro i t ht
    have := hrun i
    unfold onRun at this
    rw [ht] at this
    cases hp : t.phase with
    | waiting g => exact ⟨g, rfl⟩
    | free =>
      simp only [hp] at this
      have hm := measure_go ht
      rw [this] at hm
      exact absurd hm (Nat.lt_irrefl _)
    | inside g =>
      simp only [hp] at this
      have hm := measure_go ht
      rw [this] at hm
      exact absurd hm (Nat.lt_irrefl _)
  cases htk : s.tasks with
  | nil => rfl
  | cons t l =>
    exfalso
    have h0 : s.tasks[0]? = some t := by rw [htk]; rfl
    obtain ⟨g, hg⟩ := hgo 0 t h0
    rcases hw with hw | hw
    · have hhold : insides s = 0 := by
        unfold insides
        rw [List.sum_eq_zero_iff_forall_eq_nat]
        intro n hn
        obtain ⟨t', ht', rfl⟩ := List.mem_map.1 hn
        obtain ⟨i, hi⟩ := List.getElem?_of_mem ht'
        obtain ⟨g', hg'⟩ := hgo i t' hi
        simp only [slotOf, hg']
      have := hrun 0
      unfold onRun at this
      rw [h0] at this
      simp only [hg] at this
      rw [if_pos (by omega)] at this
      have h1 := congrArg (fun s => s.tasks[0]?) this
      simp only [htk, List.set_cons_zero, List.getElem?_cons_zero, Option.some.injEq] at h1
      have h2 := congrArg Task.phase h1
      rw [hg] at h2
      cases h2
    · exact hw t (by rw [htk]; exact List.mem_cons_self) g hg

/-- A frame in the queue belongs to a request, like one on the wire. -/
theorem queue_entry {e : Env} (h16 : ∀ x, (e.md5 x).length = 16) {s : State} (h : Inv e s) {x : Nat × Bytes × After}
    (hx : x ∈ s.queue) : ∃ r, s.reqs[x.1]? = some r ∧ Good e r ∧ Entry e r x.2 := by
  have hlt := h.qlt x hx
  obtain ⟨r, hr⟩ : ∃ r, s.reqs[x.1]? = some r := ⟨_, List.getElem?_eq_getElem hlt⟩
  have hg := h.good r (List.mem_of_getElem? hr)
  refine ⟨r, hr, hg, entry_of_mem h16 hg ?_⟩
  refine (h.owes _ _ hr).1.subset ?_
  rw [owed]
  exact List.mem_append_right _ (List.mem_append_left _ (forReq_mem hx rfl))

theorem afterLogin_ok {l : Login} {ac : AuthConf} (h : afterLogin l = .login ac) : l = .ok ac := by
  cases l <;> simp [afterLogin] at h
  rw [h]

theorem loginVerdict_ok {md5 : Bytes → Bytes} {p : Proto} {body : Bytes} {find : Bytes → Option AuthConf} {n : Int}
    {ac : AuthConf} (h : loginVerdict md5 p body find n = .ok ac) : find (loginName p body) = some ac := by
  unfold loginVerdict at h
  split at h
  · cases h
  · rename_i a ha
    split at h
    · cases h
    · split at h
      · cases h
      · split at h
        · cases h
        · injection h with h; rw [ha, h]

/-- A queued or written frame that completes a login answers an accepted login. -/
theorem entry_login {e : Env} {r : Req} {x : Bytes × After} (hx : Entry e r x) {ac : AuthConf} (h : x.2 = .login ac) :
    r.kind = .login ∧ r.cmd = loginCmd e.proto ∧ decision e r = .ok ac ∧
      x.1 = loginResponse e.md5 e.proto r.seq r.body (.ok ac) := by
  cases hx with
  | submit => dsimp only at h; split at h <;> cases h
  | report => cases h
  | login h1 h2 => have h3 := afterLogin_ok h; exact ⟨h1, h2, h3, by rw [h3]⟩
  | active => cases h
  | terminate => cases h

def isLogin : After → Bool
  | .login _ => true
  | _ => false

theorem mem_eraseIdx {α : Type} {l : List α} {i : Nat} {x : α} (h : x ∈ l.eraseIdx i) : x ∈ l :=
  (List.eraseIdx_sublist l i).subset h

/-- Windows: tasks wait for windows there have been, and there is one per accepted login. -/
theorem gen_inv (e : Env) (steps : List Step) :
    (run e steps).gen ≤ ((run e steps).wire.filter fun x => isLogin x.2.2).length ∧
    ∀ t ∈ (run e steps).tasks, ∀ g, t.phase = .waiting g → g ≤ (run e steps).gen := by
  induction steps using snoc_induction with
  | nil => simp [run]
  | snoc l x ih =>
    rw [run_snoc]
    obtain ⟨i1, i2⟩ := ih
    generalize run e l = s at *
    unfold step
    split
    · exact ⟨i1, i2⟩
    · cases x with
      | packet cmd seq body d =>
        simp only [onPacket]
        split
        · exact ⟨i1, i2⟩
        · exact ⟨i1, i2⟩
        · exact ⟨i1, i2⟩
        · refine ⟨i1, fun t ht g hg => ?_⟩
          rcases List.mem_append.1 ht with ht | ht
          · exact i2 t ht g hg
          · simp only [List.mem_singleton] at ht
            subst ht
            simp only [phaseOf] at hg
            split at hg
            · cases hg
            · injection hg with hg; simp only; omega
      | run i =>
        have go : ∀ t, s.tasks[i]? = some t → (onGo s i t).gen ≤ ((onGo s i t).wire.filter fun x => isLogin x.2.2).length ∧
            ∀ t' ∈ (onGo s i t).tasks, ∀ g, t'.phase = .waiting g → g ≤ (onGo s i t).gen := by
          intro t ht
          unfold onGo
          split
          · exact ⟨i1, fun t' ht' => i2 t' (mem_eraseIdx ht')⟩
          · rename_i a rest _
            have hset : ∀ t' ∈ s.tasks.set i { t with acts := rest }, ∀ g, t'.phase = .waiting g → g ≤ s.gen := by
              intro t' ht' g hg
              rcases mem_set_task ht' with rfl | ht'
              · exact i2 t (List.mem_of_getElem? ht) g hg
              · exact i2 t' ht' g hg
            cases a <;> exact ⟨i1, hset⟩
        simp only [onRun]
        split
        · exact ⟨i1, i2⟩
        · rename_i t ht
          split
          · split
            · refine ⟨i1, fun t' ht' g hg => ?_⟩
              rcases mem_set_task ht' with rfl | ht'
              · cases hg
              · exact i2 t' ht' g hg
            · exact ⟨i1, i2⟩
          · exact go t ht
          · exact go t ht
      | drop i =>
        simp only [onDrop]
        split
        · split
          · exact ⟨i1, fun t' ht' => i2 t' (mem_eraseIdx ht')⟩
          · exact ⟨i1, i2⟩
        · exact ⟨i1, i2⟩
      | loop =>
        simp only [onLoop]
        split
        · exact ⟨i1, i2⟩
        · rename_i k f a q hq
          have hw : (s.wire.filter fun x => isLogin x.2.2).length ≤
              ((s.wire ++ [(k, f, a)]).filter fun x => isLogin x.2.2).length := by
            rw [List.filter_append, List.length_append]; omega
          cases a with
          | login ac =>
            simp only [onAfter]
            split
            · exact ⟨Nat.le_trans i1 hw, i2⟩
            · refine ⟨?_, fun t ht g hg => Nat.le_succ_of_le (i2 t ht g hg)⟩
              simp only [List.filter_append, List.length_append]
              have : ([(k, f, After.login ac)].filter fun x => isLogin x.2.2).length = 1 := rfl
              omega
          | none => exact ⟨Nat.le_trans i1 hw, i2⟩
          | mt => exact ⟨Nat.le_trans i1 hw, i2⟩
          | rpt => exact ⟨Nat.le_trans i1 hw, i2⟩
          | close => exact ⟨Nat.le_trans i1 hw, i2⟩
          | refuse => exact ⟨Nat.le_trans i1 hw, i2⟩
      | close => exact ⟨i1, i2⟩

/-- Accounts that logins find satisfy `P`. -/
def Accounts (P : AuthConf → Prop) (steps : List Step) : Prop :=
  ∀ cmd seq body d, Step.packet cmd seq body d ∈ steps → ∀ n ac, d.find n = some ac → P ac

theorem accounts_left {P : AuthConf → Prop} {a b : List Step} (h : Accounts P (a ++ b)) : Accounts P a :=
  fun cmd seq body d hm => h cmd seq body d (List.mem_append_left _ hm)

/-- A login in the queue is for such an account. -/
theorem queue_account {e : Env} (h16 : ∀ x, (e.md5 x).length = 16) {steps : List Step} {P : AuthConf → Prop}
    (hP : Accounts P steps) {k : Nat} {f : Bytes} {ac : AuthConf} (hx : (k, f, After.login ac) ∈ (run e steps).queue) : P ac := by
  obtain ⟨r, hr, hg, hE⟩ := queue_entry h16 (inv_run_all e steps) hx
  obtain ⟨_, _, hd, _⟩ := entry_login hE rfl
  obtain ⟨a, b, hab, _⟩ := req_origin e steps _ _ hr
  exact hP r.cmd r.seq r.body r.draw (by rw [hab]; exact List.mem_append_right _ List.mem_cons_self) _ ac (loginVerdict_ok hd)

/-- The window of a logged-in session is that of an account. -/
theorem win_inv {e : Env} (h16 : ∀ x, (e.md5 x).length = 16) (P : AuthConf → Prop) (steps : List Step)
    (hP : Accounts P steps) : (run e steps).gen = 0 ∧ (run e steps).win = 0 ∨
      ∃ ac, P ac ∧ 0 ≤ ac.mtWindowSize ∧ (run e steps).win = ac.mtWindowSize.toNat := by
  induction steps using snoc_induction with
  | nil => exact .inl ⟨rfl, rfl⟩
  | snoc l x ih =>
    have ih := ih (accounts_left hP)
    have hq := fun k f ac => queue_account (e := e) h16 (accounts_left hP) (k := k) (f := f) (ac := ac)
    rw [run_snoc]
    generalize run e l = s at *
    unfold step
    split
    · exact ih
    · cases x with
      | packet cmd seq body d => simp only [onPacket]; split <;> exact ih
      | run i =>
        have go : ∀ t, (onGo s i t).gen = s.gen ∧ (onGo s i t).win = s.win := by
          intro t; unfold onGo
          split
          · exact ⟨rfl, rfl⟩
          · rename_i a _ _; cases a <;> exact ⟨rfl, rfl⟩
        simp only [onRun]
        split
        · exact ih
        · rename_i t _
          split
          · split <;> exact ih
          · rw [(go t).1, (go t).2]; exact ih
          · rw [(go t).1, (go t).2]; exact ih
      | drop i =>
        simp only [onDrop]
        split
        · split <;> exact ih
        · exact ih
      | loop =>
        simp only [onLoop]
        split
        · exact ih
        · rename_i k f a q hqq
          cases a with
          | login ac =>
            simp only [onAfter]
            split
            · exact ih
            · rename_i hn
              exact .inr ⟨ac, hq k f ac (by rw [hqq]; exact List.mem_cons_self), by omega, rfl⟩
          | none => exact ih
          | mt => exact ih
          | rpt => exact ih
          | close => exact ih
          | refuse => exact ih
      | close => exact ih

theorem crashed_mono {e : Env} {s : State} (x : Step) (h : (step e s x).crashed = false ∧ (step e s x).isOpen = true) :
    s.crashed = false ∧ s.isOpen = true := by
  by_cases hc : s.crashed ∨ s.isOpen = false
  · unfold step at h; rw [if_pos hc] at h; exact h
  · exact ⟨by simpa using fun hh => hc (.inl hh), by simpa using fun hh => hc (.inr hh)⟩

theorem alive_foldl {e : Env} (b : List Step) : ∀ {s : State}, (b.foldl (step e) s).crashed = false ∧
    (b.foldl (step e) s).isOpen = true → s.crashed = false ∧ s.isOpen = true := by
  induction b with
  | nil => intro s h; exact h
  | cons x b ih => intro s h; exact crashed_mono x (ih h)

theorem answer_chain {e : Env} {ver : UInt8} {cmd seq : UInt32} {body : Bytes} {d : Draw} {f : Bytes}
    (h : answer e ver cmd seq body d = some f) : ∃ k, (cmd, k) ∈ chain e.proto ∧
      (k = .submit ∨ k = .login ∨ k = .active ∨ k = .terminate) := by
  have key : ∀ p, (submitCmd p, Kind.submit) ∈ chain p ∧ (loginCmd p, Kind.login) ∈ chain p ∧
      (terminateCmd p, Kind.terminate) ∈ chain p := by intro p; cases p <;> decide
  obtain ⟨k1, k2, k3⟩ := key e.proto
  unfold answer at h
  split at h
  · rename_i hc; exact ⟨_, hc ▸ k1, .inl rfl⟩
  · split at h
    · rename_i hc; exact ⟨_, hc ▸ k2, .inr (.inl rfl)⟩
    · split at h
      · rename_i hc
        refine ⟨.active, ?_, .inr (.inr (.inl rfl))⟩
        cases hp : e.proto <;> rw [hp] at hc <;> simp only [activeCmd, Option.some.injEq, reduceCtorEq] at hc <;>
          rw [← hc] <;> decide
      · split at h
        · rename_i hc; exact ⟨_, hc ▸ k3, .inr (.inr (.inr rfl))⟩
        · cases h

/-- A frame that answers a packet a task was started for. -/
theorem task_answers {e : Env} (h16 : ∀ x, (e.md5 x).length = 16) {r : Req} (hg : Good e r)
    (ha : r.cmd = submitCmd e.proto → r.draw.allow = true → Able r.draw) {f : Bytes}
    (hf : answer e r.ver r.cmd r.seq r.body r.draw = some f) : ∃ x ∈ sends (workOf e r), x.1 = f ∧ x.2 ≠ .rpt := by
  rcases sends_shape h16 hg with h | ⟨x, rest, h, hx, hr, _⟩
  · exfalso
    obtain ⟨k, hk, hk'⟩ := answer_chain hf
    have := chain_functional _ _ _ _ hk hg.1
    subst this
    rcases hk' with hk' | hk' | hk' | hk'
    · have ha' := ha ((chain_submit hg.1).1 hk')
      have hw := (submit_work hk' hg.2).2 (by
        by_cases hh : r.draw.allow = true
        · exact .inr (ha' hh)
        · exact .inl (by simpa using hh))
      obtain ⟨_, hw, _⟩ := hw
      rw [h] at hw; cases hw
    · rw [login_work h16 hk' hg.2] at h; cases h
    · have hac := (chain_active hg.1).1 hk'
      obtain ⟨f, hf⟩ : ∃ f, activeResponse e.proto r.seq = some f := by
        cases hp : e.proto
        · exact ⟨_, rfl⟩
        · rw [hp] at hac; cases hac
        · exact ⟨_, rfl⟩
      rw [active_work hk' f hf] at h; cases h
    · rw [terminate_work hk' hg.2] at h; cases h
  · refine ⟨x, by rw [h]; exact List.mem_cons_self, ?_, hr⟩
    have := answer_of_entry hx hr
    rw [hf] at this
    exact (Option.some.inj this).symm

/-- C76, the second part: a server at rest has answered. If the connection is still open, the accounts have windows of at least one
slot and there was no second login, then every submit, login, heartbeat and termination received has its answer on the connection, byte
for byte as specified - for submits: unless the sender's account was no longer known, or the configured shortest processing time was not
less than the longest. -/
theorem packet_answered_partial (e : Env) (h16 : ∀ x, (e.md5 x).length = 16) (a b : List Step) (cmd seq : UInt32) (body : Bytes)
    (d : Draw) (f : Bytes) (hf : answer e (run e a).ver cmd seq body d = some f)
    (hacc : cmd = submitCmd e.proto → d.allow = true → d.account ≠ none ∧ d.minMs < d.maxMs)
    (hwin : Accounts (fun ac => 1 ≤ ac.mtWindowSize) (a ++ .packet cmd seq body d :: b))
    (hone : ((a ++ .packet cmd seq body d :: b).filter (onPackets fun c _ _ _ => c = loginCmd e.proto)).length ≤ 1)
    (hc : (run e (a ++ .packet cmd seq body d :: b)).crashed = false)
    (ho : (run e (a ++ .packet cmd seq body d :: b)).isOpen = true)
    (hs : Settled e (run e (a ++ .packet cmd seq body d :: b))) :
    f ∈ frames (run e (a ++ .packet cmd seq body d :: b)) := by
  generalize hst : a ++ Step.packet cmd seq body d :: b = steps at *
  have hinv := inv_run_all e steps
  have hrun : run e steps = b.foldl (step e) (step e (run e a) (.packet cmd seq body d)) := by
    rw [← hst, run_append]; rfl
  -- a task was started for the packet
  have hal := alive_foldl b (s := step e (run e a) (.packet cmd seq body d)) (by rw [← hrun]; exact ⟨hc, ho⟩)
  have hal0 := crashed_mono _ hal
  obtain ⟨k, hk, _⟩ := answer_chain hf
  have hserve : serve e.gbDec e.proto (run e a).stat (run e a).ver cmd seq body = .task k := by
    rw [serve_handled _ _ _ _ _ _ _ _ hk]
    have hstep : step e (run e a) (.packet cmd seq body d) = onPacket e (run e a) cmd seq body d := by
      unfold step; rw [if_neg (by simp [hal0.1, hal0.2])]
    rw [hstep] at hal
    unfold onPacket at hal
    rw [serve_handled _ _ _ _ _ _ _ _ hk] at hal
    unfold handle at hal ⊢
    split
    · rename_i h; simp [if_pos h] at hal
    · rename_i h
      split
      · rfl
      · rename_i h'; simp [if_neg h, if_neg h'] at hal
  have hreqs : (step e (run e a) (.packet cmd seq body d)).reqs = (run e a).reqs ++ [⟨(run e a).ver, k, cmd, seq, body, d⟩] := by
    unfold step
    rw [if_neg (by simp [hal0.1, hal0.2])]
    simp only [onPacket, hserve]
  have hr : (run e steps).reqs[(run e a).reqs.length]? = some ⟨(run e a).ver, k, cmd, seq, body, d⟩ := by
    have hp := reqs_prefix e b (step e (run e a) (.packet cmd seq body d))
    rw [← hrun, hreqs] at hp
    obtain ⟨t, ht⟩ := hp
    rw [← ht, List.append_assoc, List.getElem?_append_right (Nat.le_refl _)]
    simp
  have hg := hinv.good _ (List.mem_of_getElem? hr)
  obtain ⟨x, hx, hxf, _⟩ := task_answers h16 (r := ⟨(run e a).ver, k, cmd, seq, body, d⟩) hg hacc hf
  -- at most one window, with a slot
  have hgen : (run e steps).gen ≤ 1 := by
    refine Nat.le_trans (gen_inv e steps).1 (Nat.le_trans ?_ hone)
    refine count_le_packets steps (fun x => isLogin x.2) (fun c _ _ _ => decide (c = loginCmd e.proto)) ?_
    intro r hgr
    rcases sends_shape h16 hgr with h | ⟨y, rest, h, hy, hyr, _, hrest⟩
    · rw [h]; simp
    · have hnone : rest.filter (fun x => isLogin x.2) = [] := by
        rw [List.filter_eq_nil_iff]
        intro z hz
        rw [(hrest z hz).2.1]; simp [isLogin]
      rw [h, List.filter_cons, hnone]
      cases hyl : isLogin y.2 with
      | false => simp
      | true =>
        cases hy2 : y.2 with
        | login ac =>
          have := (entry_login hy hy2).2.1
          simp [this]
        | none => rw [hy2] at hyl; cases hyl
        | mt => rw [hy2] at hyl; cases hyl
        | rpt => rw [hy2] at hyl; cases hyl
        | close => rw [hy2] at hyl; cases hyl
        | refuse => rw [hy2] at hyl; cases hyl
  have hw : 0 < (run e steps).win ∨ ∀ t ∈ (run e steps).tasks, ∀ g, t.phase ≠ .waiting g := by
    rcases win_inv h16 _ steps hwin with ⟨h0, _⟩ | ⟨ac, h1, h2, h3⟩
    · right
      intro t ht g hg'
      have h1 := hinv.wait t ht g hg'
      have h2 := (gen_inv e steps).2 t ht g hg'
      omega
    · left; omega
  obtain ⟨ht, hq⟩ := settled_empty hc ho hs (slots_le e steps) hw
  have how := (hinv.owes _ _ hr).2 hgen
  rw [owed, ht, hq] at how
  simp only [forReq, pend, List.filter_nil, List.map_nil, List.flatMap_nil, List.append_nil] at how
  rw [← how] at hx
  obtain ⟨y, hy, hyx⟩ := List.mem_map.1 hx
  rw [frame_iff]
  exact ⟨y, (List.mem_filter.1 hy).1, by rw [← hxf, ← hyx]⟩

theorem answer_command {e : Env} {ver : UInt8} {cmd seq : UInt32} {body : Bytes} {d : Draw} {f : Bytes}
    (h : answer e ver cmd seq body d = some f) : command f = be32 (Spec.responseOf cmd) ∧ cmd < 0x80000000 ∧
      ((e.proto = .sgip → 8 ≤ body.length) → seqOf e.proto f = packetSeq e.proto seq body) := by
  obtain ⟨c1, c2, c3, c4⟩ := cmds_lt e.proto
  have tk : ∀ (b c : Bytes), 8 ≤ b.length → (b.take 8 ++ c).take 8 = b.take 8 := by
    intro b c h; rw [List.take_left' (by simp; omega)]
  unfold answer at h
  split at h
  · rename_i hc
    obtain rfl := Option.some.inj h
    refine ⟨by rw [hc]; exact command_response _ _ _, by rw [hc]; exact c1, fun hs => ?_⟩
    unfold submitResponse; rw [seqOf_response, packetSeq]
    cases hp : e.proto with
    | cmpp => rfl
    | smgp => rfl
    | sgip => simp only [if_true, List.append_assoc]; rw [tk _ _ (hs hp)]
  · split at h
    · rename_i hc
      obtain rfl := Option.some.inj h
      refine ⟨by rw [hc]; exact command_response _ _ _, by rw [hc]; exact c2, fun hs => ?_⟩
      unfold loginResponse; rw [seqOf_response, packetSeq]
      cases hp : e.proto with
      | cmpp => rfl
      | smgp => rfl
      | sgip => simp only [if_true]; rw [tk _ _ (hs hp)]
    · split at h
      · rename_i hc
        cases hp : e.proto <;> rw [hp] at hc h <;> simp only [activeCmd, activeResponse, Option.some.injEq, reduceCtorEq] at hc h
        · rw [← h, ← hc]; exact ⟨command_response _ _ _, by decide, fun _ => by rw [seqOf_response]; rfl⟩
        · rw [← h, ← hc]; exact ⟨command_response _ _ _, by decide, fun _ => by rw [seqOf_response]; rfl⟩
      · split at h
        · rename_i hc
          obtain rfl := Option.some.inj h
          refine ⟨by rw [hc]; exact command_response _ _ _, by rw [hc]; exact c3, fun hs => ?_⟩
          rw [terminateResponse, seqOf_response, packetSeq]
          cases hp : e.proto with
          | cmpp => rfl
          | smgp => rfl
          | sgip => simp only [if_true]; rw [List.take_take]; rfl
        · cases h

/-- C76: exactly one answer. Under the same conditions, a request whose sequence number was used once for its command has exactly one
response with that command and number on the connection: the specified one. (An SGIP packet has its whole sequence number.) -/
theorem packet_answered_once_partial (e : Env) (h16 : ∀ x, (e.md5 x).length = 16) (a b : List Step) (cmd seq : UInt32)
    (body : Bytes) (d : Draw) (f : Bytes) (hf : answer e (run e a).ver cmd seq body d = some f)
    (hacc : cmd = submitCmd e.proto → d.allow = true → d.account ≠ none ∧ d.minMs < d.maxMs)
    (hwin : Accounts (fun ac => 1 ≤ ac.mtWindowSize) (a ++ .packet cmd seq body d :: b))
    (hone : ((a ++ .packet cmd seq body d :: b).filter (onPackets fun c _ _ _ => c = loginCmd e.proto)).length ≤ 1)
    (hc : (run e (a ++ .packet cmd seq body d :: b)).crashed = false)
    (ho : (run e (a ++ .packet cmd seq body d :: b)).isOpen = true)
    (hs : Settled e (run e (a ++ .packet cmd seq body d :: b)))
    (h8 : e.proto = .sgip → 8 ≤ body.length)
    (huniq : ((a ++ .packet cmd seq body d :: b).filter (onPackets fun c s b _ =>
      c = cmd ∧ packetSeq e.proto s b = packetSeq e.proto seq body)).length = 1) :
    ((frames (run e (a ++ .packet cmd seq body d :: b))).filter fun g =>
      command g = be32 (Spec.responseOf cmd) ∧ seqOf e.proto g = packetSeq e.proto seq body) = [f] := by
  have hm := packet_answered_partial e h16 a b cmd seq body d f hf hacc hwin hone hc ho hs
  obtain ⟨q1, q2, q3⟩ := answer_command hf
  have hle := response_at_most_once e h16 (a ++ .packet cmd seq body d :: b) cmd q2 (packetSeq e.proto seq body)
  rw [huniq] at hle
  have hmem : f ∈ ((frames (run e (a ++ .packet cmd seq body d :: b))).filter fun g =>
      command g = be32 (Spec.responseOf cmd) ∧ seqOf e.proto g = packetSeq e.proto seq body) :=
    List.mem_filter.2 ⟨hm, by simpa using ⟨q1, q3 h8⟩⟩
  generalize ((frames (run e (a ++ .packet cmd seq body d :: b))).filter fun g =>
      command g = be32 (Spec.responseOf cmd) ∧ seqOf e.proto g = packetSeq e.proto seq body) = l at *
  match l, hle, hmem with
  | [], _, hm => cases hm
  | [y], _, hm => rw [List.mem_singleton] at hm; rw [hm]
  | _ :: _ :: _, hle, _ => simp at hle

/-! ## C76: what goes unanswered -/

theorem not_able {d : Draw} (h : d.account = none ∨ d.maxMs ≤ d.minMs) : ¬ Able d := by
  rintro ⟨h1, h2⟩
  rcases h with h | h
  · exact h1 h
  · omega

/-- C76 fails (1): a submit whose sender's account is not found any more (auth.Cache.FindByCid gives nil) is never answered, in no
schedule: its task panics. So is every submit if the configured shortest processing time is not less than the longest (for instance if
neither is configured). -/
theorem submit_answered_fails (e : Env) (h16 : ∀ x, (e.md5 x).length = 16) (steps : List Step) (n : Bytes)
    (hall : ∀ seq body d, Step.packet (submitCmd e.proto) seq body d ∈ steps → packetSeq e.proto seq body = n →
      d.allow = true ∧ (d.account = none ∨ d.maxMs ≤ d.minMs)) :
    ∀ f ∈ frames (run e steps), ¬ (command f = be32 (Spec.responseOf (submitCmd e.proto)) ∧ seqOf e.proto f = n) := by
  rintro f hf ⟨h1, h2⟩
  obtain ⟨x, hx, rfl⟩ := frame_iff.1 hf
  obtain ⟨r, hr, hg, hE⟩ := wire_entry h16 (inv_run_all e steps) hx
  obtain ⟨a, b, hab, _⟩ := req_origin e steps _ _ hr
  have hne : x.2.2 ≠ .rpt := by
    intro h
    have := (entry_report hE h).1
    rw [h1] at this
    exact deliver_ne e.proto (cmds_lt e.proto).1 this.symm
  obtain ⟨q1, q2, q3⟩ := entry_answer hg hE hne
  rw [h1] at q1
  have hcmd := responseOf_inj (cmds_lt e.proto).1 q3 (be32_inj q1)
  have hin : Step.packet (submitCmd e.proto) r.seq r.body r.draw ∈ steps := by
    rw [hab, hcmd]; exact List.mem_append_right _ List.mem_cons_self
  obtain ⟨a1, a2⟩ := hall _ _ _ hin (by rw [← q2, h2])
  have hk := (chain_submit hg.1).2 hcmd.symm
  cases hE' : x.2 with
  | mk ff aa =>
  rw [hE'] at hE
  cases hE with
  | submit _ _ h =>
    rcases h with h | h
    · rw [a1] at h; cases h
    · exact not_able a2 h
  | report _ _ _ h => exact not_able a2 h
  | login h => rw [hk] at h; cases h
  | active _ h => rw [hk] at h; cases h
  | terminate h => rw [hk] at h; cases h

/-- Requests that need no window slot. -/
def needsNoSlot (r : Req) : Prop := r.kind = .login ∨ (r.kind = .submit ∧ r.draw.allow = false)

theorem zero_window_slots (e : Env) (h16 : ∀ x, (e.md5 x).length = 16) (steps : List Step)
    (hz : Accounts (fun ac => ac.mtWindowSize ≤ 0) steps) :
    (∀ t ∈ (run e steps).tasks, ∀ g, t.phase ≠ .inside g) ∧ (run e steps).slots = 0 := by
  induction steps using snoc_induction with
  | nil => exact ⟨(fun t ht => by cases ht), rfl⟩
  | snoc l x ih =>
    obtain ⟨i1, i2⟩ := ih (accounts_left hz)
    have hw : (run e l).win = 0 := by
      rcases win_inv h16 _ l (accounts_left hz) with ⟨_, h⟩ | ⟨ac, h1, h2, h3⟩
      · exact h
      · rw [h3]; omega
    rw [run_snoc]
    generalize run e l = s at *
    unfold step
    split
    · exact ⟨i1, i2⟩
    · cases x with
      | packet cmd seq body d =>
        simp only [onPacket]
        split
        · exact ⟨i1, i2⟩
        · exact ⟨i1, i2⟩
        · exact ⟨i1, i2⟩
        · refine ⟨fun t ht g => ?_, i2⟩
          rcases List.mem_append.1 ht with ht | ht
          · exact i1 t ht g
          · simp only [List.mem_singleton] at ht
            subst ht
            simp only [phaseOf]
            split <;> simp
      | run i =>
        simp only [onRun]
        split
        · exact ⟨i1, i2⟩
        · rename_i t ht
          have htm := i1 t (List.mem_of_getElem? ht)
          split
          · rw [if_neg (by omega)]; exact ⟨i1, i2⟩
          · rename_i hp
            unfold onGo
            split
            · refine ⟨fun t' ht' => i1 t' (mem_eraseIdx ht'), ?_⟩
              simp only [freed, hp]; exact i2
            · rename_i a rest _
              have hset : ∀ t' ∈ s.tasks.set i { t with acts := rest }, ∀ g, t'.phase ≠ .inside g := by
                intro t' ht'
                rcases mem_set_task ht' with rfl | ht'
                · exact htm
                · exact i1 t' ht'
              cases a <;> exact ⟨hset, i2⟩
          · rename_i g hp
            exact absurd hp (htm g)
      | drop i =>
        simp only [onDrop]
        split
        · split
          · exact ⟨fun t ht => i1 t (mem_eraseIdx ht), i2⟩
          · exact ⟨i1, i2⟩
        · exact ⟨i1, i2⟩
      | loop =>
        simp only [onLoop]
        split
        · exact ⟨i1, i2⟩
        · rename_i k f a q _
          cases a with
          | login ac =>
            simp only [onAfter]
            split
            · exact ⟨i1, i2⟩
            · exact ⟨i1, rfl⟩
          | none => exact ⟨i1, i2⟩
          | mt => exact ⟨i1, i2⟩
          | rpt => exact ⟨i1, i2⟩
          | close => exact ⟨i1, i2⟩
          | refuse => exact ⟨i1, i2⟩
      | close => exact ⟨i1, i2⟩

/-- C76 fails (2), the invariant: with windows of size 0 only tasks that need no slot ever send. -/
theorem zero_window_inv (e : Env) (h16 : ∀ x, (e.md5 x).length = 16) (steps : List Step)
    (hz : Accounts (fun ac => ac.mtWindowSize ≤ 0) steps) :
    (∀ t ∈ (run e steps).tasks, (∃ g, t.phase = .waiting g) ∨
      t.phase = .free ∧ ∃ r, (run e steps).reqs[t.req]? = some r ∧ needsNoSlot r) ∧
    (∀ x, x ∈ (run e steps).queue ∨ x ∈ (run e steps).wire → ∃ r, (run e steps).reqs[x.1]? = some r ∧ needsNoSlot r) := by
  induction steps using snoc_induction with
  | nil => simp [run]
  | snoc l x ih =>
    obtain ⟨i1, i2⟩ := ih (accounts_left hz)
    have hw : (run e l).win = 0 := by
      rcases win_inv h16 _ l (accounts_left hz) with ⟨_, h⟩ | ⟨ac, h1, h2, h3⟩
      · exact h
      · rw [h3]; omega
    have hsl := (zero_window_slots e h16 l (accounts_left hz)).2
    rw [run_snoc]
    generalize run e l = s at *
    unfold step
    split
    · exact ⟨i1, i2⟩
    · cases x with
      | packet cmd seq body d =>
        simp only [onPacket]
        split
        · exact ⟨i1, i2⟩
        · exact ⟨i1, i2⟩
        · exact ⟨i1, i2⟩
        · rename_i k _
          have grow : ∀ {n : Nat}, (∃ r, s.reqs[n]? = some r ∧ needsNoSlot r) →
              ∃ r, (s.reqs ++ [⟨s.ver, k, cmd, seq, body, d⟩])[n]? = some r ∧ needsNoSlot r := by
            rintro n ⟨r, hr, hn⟩
            have hlt : n < s.reqs.length := by
              rcases Nat.lt_or_ge n s.reqs.length with h | h
              · exact h
              · rw [List.getElem?_eq_none h] at hr; cases hr
            exact ⟨r, by rw [List.getElem?_append_left hlt]; exact hr, hn⟩
          refine ⟨fun t ht => ?_, fun x hx => grow (i2 x hx)⟩
          rcases List.mem_append.1 ht with ht | ht
          · exact (i1 t ht).imp id (fun h => ⟨h.1, grow h.2⟩)
          · simp only [List.mem_singleton] at ht
            subst ht
            simp only [phaseOf]
            split
            · rename_i hp
              right
              refine ⟨rfl, ⟨s.ver, k, cmd, seq, body, d⟩, ?_, hp⟩
              rw [List.getElem?_append_right (Nat.le_refl _)]; simp
            · exact .inl ⟨_, rfl⟩
      | run i =>
        simp only [onRun]
        split
        · exact ⟨i1, i2⟩
        · rename_i t ht
          have htm := i1 t (List.mem_of_getElem? ht)
          split
          · rw [if_neg (by omega)]; exact ⟨i1, i2⟩
          · rename_i hp
            have hr : ∃ r, s.reqs[t.req]? = some r ∧ needsNoSlot r := by
              rcases htm with ⟨g, hg⟩ | h
              · rw [hp] at hg; cases hg
              · exact h.2
            unfold onGo
            split
            · exact ⟨fun t' ht' => i1 t' (mem_eraseIdx ht'), i2⟩
            · rename_i a rest _
              have hset : ∀ t' ∈ s.tasks.set i { t with acts := rest }, (∃ g, t'.phase = .waiting g) ∨
                  t'.phase = .free ∧ ∃ r, s.reqs[t'.req]? = some r ∧ needsNoSlot r := by
                intro t' ht'
                rcases mem_set_task ht' with rfl | ht'
                · exact .inr ⟨hp, hr⟩
                · exact i1 t' ht'
              cases a with
              | send f a =>
                refine ⟨hset, fun x hx => ?_⟩
                rcases hx with hx | hx
                · rcases List.mem_append.1 hx with hx | hx
                  · exact i2 x (.inl hx)
                  · simp only [List.mem_singleton] at hx; rw [hx]; exact hr
                · exact i2 x (.inr hx)
              | shut => exact ⟨hset, i2⟩
          · rename_i g hp
            rcases htm with ⟨g', hg⟩ | h
            · rw [hp] at hg; cases hg
            · rw [hp] at h; cases h.1
      | drop i =>
        simp only [onDrop]
        split
        · split
          · exact ⟨fun t' ht' => i1 t' (mem_eraseIdx ht'), i2⟩
          · exact ⟨i1, i2⟩
        · exact ⟨i1, i2⟩
      | loop =>
        simp only [onLoop]
        split
        · exact ⟨i1, i2⟩
        · rename_i k f a q hq
          have ha := onAfter_reqs { s with queue := q, wire := s.wire ++ [(k, f, a)] } a
          rw [ha.1, ha.2.1, ha.2.2.1, ha.2.2.2.1]
          refine ⟨i1, fun x hx => ?_⟩
          rcases hx with hx | hx
          · exact i2 x (.inl (by rw [hq]; exact List.mem_cons_of_mem _ hx))
          · rcases List.mem_append.1 hx with hx | hx
            · exact i2 x (.inr hx)
            · simp only [List.mem_singleton] at hx
              exact i2 x (.inl (by rw [hq, hx]; exact List.mem_cons_self))
      | close => exact ⟨i1, i2⟩

/-- C76 fails (2): if the accounts are configured with a window of size 0, the server answers nothing but logins and submits over the
rate limit: in no schedule is there a heartbeat or termination response, a report, or any other submit response. -/
theorem zero_window_answers_fails (e : Env) (h16 : ∀ x, (e.md5 x).length = 16) (steps : List Step)
    (hz : Accounts (fun ac => ac.mtWindowSize ≤ 0) steps) (f : Bytes) (hf : f ∈ frames (run e steps)) :
    ∃ ver cmd seq body d, Step.packet cmd seq body d ∈ steps ∧ answer e ver cmd seq body d = some f ∧
      (cmd = loginCmd e.proto ∨ cmd = submitCmd e.proto ∧ d.allow = false) := by
  obtain ⟨x, hx, rfl⟩ := frame_iff.1 hf
  obtain ⟨r, hr, hg, hE⟩ := wire_entry h16 (inv_run_all e steps) hx
  obtain ⟨a, b, hab, _⟩ := req_origin e steps _ _ hr
  obtain ⟨r', hr', hn⟩ := (zero_window_inv e h16 steps hz).2 x (.inr hx)
  rw [hr] at hr'
  obtain rfl := Option.some.inj hr'
  refine ⟨r.ver, r.cmd, r.seq, r.body, r.draw, by rw [hab]; exact List.mem_append_right _ List.mem_cons_self, ?_, ?_⟩
  · refine answer_of_entry hE ?_
    intro h
    have := entry_report hE h
    rcases hn with hn | hn
    · have := (chain_submit hg.1).2 this.2.1
      rw [hn] at this; cases this
    · have hv := this.2.2.1
      simp [verdict, hn.2] at hv
  · rcases hn with hn | hn
    · exact .inl ((chain_login hg.1).1 hn)
    · exact .inr ⟨(chain_submit hg.1).1 hn.1, hn.2⟩

theorem settled_of_empty {e : Env} {s : State} (ht : s.tasks = []) (hq : s.queue = []) : Settled e s := by
  intro x hx
  unfold step
  split
  · rfl
  · cases x with
    | packet => cases hx
    | run i => simp [onRun, ht]
    | drop i => simp [onDrop, ht]
    | loop => simp [onLoop, hq]
    | close => cases hx

/-! ### A session: an account, a login, heartbeats and a submit -/

def demoEnv : Env := { proto := .cmpp, md5 := fun _ => List.replicate 16 7 }
def demoAccount : AuthConf := { clientId := [65], version := 0x20, maxConns := 1, mtWindowSize := 1 }
def demoDraw : Draw := { find := fun _ => some demoAccount }
def demoLogin : Bytes := [65, 0, 0, 0, 0, 0] ++ List.replicate 16 7 ++ [0x20] ++ [0, 0, 0, 1]
/-- The account logs in, sends a submit (accepted, with a report) and a heartbeat; the server's steps interleave. -/
def demoSteps : List Step :=
  [.packet 1 1 demoLogin demoDraw, .run 0, .run 0, .loop,
   .packet 4 2 (Handlers.exampleSubmitBody [97]) { account := some {}, id := 77, rptId := 78, rptSeq := 9 },
   .packet 8 3 [] {}, .run 0, .run 1, .run 0, .loop, .run 1, .run 0, .run 0, .run 0, .loop, .run 0, .loop, .run 0]

set_option maxRecDepth 20000 in
theorem demo_run : (run demoEnv demoSteps).tasks = [] ∧ (run demoEnv demoSteps).queue = [] ∧
    (run demoEnv demoSteps).crashed = false ∧ (run demoEnv demoSteps).isOpen = true ∧
    ((run demoEnv demoSteps).wire.map fun x => (command x.2.1, seqOf .cmpp x.2.1)) =
      [(be32 0x80000001, be32 1), (be32 0x80000004, be32 2), (be32 5, be32 9), (be32 0x80000008, be32 3)] := by
  decide

theorem demo_settled : Settled demoEnv (run demoEnv demoSteps) := settled_of_empty demo_run.1 demo_run.2.1

theorem demo_accounts : Accounts (fun ac => 1 ≤ ac.mtWindowSize) demoSteps := by
  intro cmd seq body d hm n ac hf
  simp only [demoSteps, List.mem_cons, Step.packet.injEq, reduceCtorEq, List.not_mem_nil, or_false, false_or, or_self] at hm
  rcases hm with ⟨_, _, _, rfl⟩ | ⟨_, _, _, rfl⟩ | ⟨_, _, _, rfl⟩
  · obtain rfl := Option.some.inj hf; decide
  · cases hf
  · cases hf

/-- The hypotheses of `packet_answered_once_partial` hold for the submit of that session (its answer: message id 77, result 0). -/
example : ((frames (run demoEnv demoSteps)).filter fun g =>
    command g = be32 (Spec.responseOf 4) ∧ seqOf .cmpp g = packetSeq .cmpp 2 (Handlers.exampleSubmitBody [97])) =
      [submitResponse false .cmpp 2 (Handlers.exampleSubmitBody [97]) .accepted 77 []] := by
  refine packet_answered_once_partial demoEnv (by simp [demoEnv]) (demoSteps.take 4) (demoSteps.drop 5) 4 2
    (Handlers.exampleSubmitBody [97]) { account := some {}, id := 77, rptId := 78, rptSeq := 9 } _ ?_ ?_ demo_accounts ?_
    demo_run.2.2.1 demo_run.2.2.2.1 demo_settled (by simp [demoEnv]) ?_
  · have : (run demoEnv (demoSteps.take 4)).ver = 0x20 := by decide
    rw [this]; rfl
  · simp
  · show (demoSteps.filter _).length ≤ 1; decide
  · show (demoSteps.filter _).length = 1; decide

set_option maxRecDepth 20000 in
/-- And the session has something left to do before its last step. -/
example : Effective demoEnv (run demoEnv (demoSteps.take 16)) [.loop, .run 0] := by
  refine ⟨trivial, fun h => ?_, trivial, fun h => ?_, trivial⟩
  · have := congrArg (·.queue.length) h
    revert this; decide
  · have := congrArg (·.tasks.length) h
    revert this; decide

/-- A history where the account is gone when the submit arrives: accepted by the rate limiter, never answered. -/
example : ∀ f ∈ frames (run demoEnv ([.packet 1 1 demoLogin demoDraw, .run 0, .run 0, .loop,
    .packet 4 2 (Handlers.exampleSubmitBody [97]) {}, .run 0, .run 0])),
      ¬ (command f = be32 0x80000004 ∧ seqOf .cmpp f = be32 2) := by
  refine submit_answered_fails demoEnv (by simp [demoEnv]) _ (be32 2) ?_
  intro seq body d hm _
  simp only [List.mem_cons, Step.packet.injEq, reduceCtorEq, List.not_mem_nil, or_false, false_or, or_self] at hm
  rcases hm with ⟨h, _⟩ | ⟨_, _, _, rfl⟩
  · exact absurd h (by decide)
  · exact ⟨rfl, .inl rfl⟩

/-- The same with a known account and no processing times configured. -/
example : ∀ f ∈ frames (run demoEnv ([.packet 1 1 demoLogin demoDraw, .run 0, .run 0, .loop,
    .packet 4 2 (Handlers.exampleSubmitBody [97]) { account := some {}, minMs := 0, maxMs := 0 }, .run 0, .run 0])),
      ¬ (command f = be32 0x80000004 ∧ seqOf .cmpp f = be32 2) := by
  refine submit_answered_fails demoEnv (by simp [demoEnv]) _ (be32 2) ?_
  intro seq body d hm _
  simp only [List.mem_cons, Step.packet.injEq, reduceCtorEq, List.not_mem_nil, or_false, false_or, or_self] at hm
  rcases hm with ⟨h, _⟩ | ⟨_, _, _, rfl⟩
  · exact absurd h (by decide)
  · exact ⟨rfl, .inr (by decide)⟩

/-- A history with a window of size 0: the heartbeat's task waits for ever. -/
def muteSteps : List Step :=
  [.packet 1 1 demoLogin { find := fun _ => some { demoAccount with mtWindowSize := 0 } }, .run 0, .run 0, .loop, .packet 8 3 [] {},
   .run 0, .run 0]

example : Accounts (fun ac => ac.mtWindowSize ≤ 0) muteSteps ∧ (run demoEnv muteSteps).stat = .login ∧
    (run demoEnv muteSteps).tasks.length = 1 ∧ (run demoEnv muteSteps).wire.length = 1 := by
  refine ⟨?_, by decide, by decide, by decide⟩
  intro cmd seq body d hm n ac hf
  simp only [muteSteps, List.mem_cons, Step.packet.injEq, reduceCtorEq, List.not_mem_nil, or_false, false_or, or_self] at hm
  rcases hm with ⟨_, _, _, rfl⟩ | ⟨_, _, _, rfl⟩
  · obtain rfl := Option.some.inj hf; decide
  · cases hf

/-- A history with a second login while a heartbeat waits for a slot: the old window is closed and its task panics. -/
def twiceSteps : List Step :=
  [.packet 1 1 demoLogin demoDraw, .run 0, .run 0, .loop, .packet 8 2 [] {}, .packet 8 3 [] {}, .run 0,
   .packet 1 4 demoLogin demoDraw, .run 2, .run 2, .loop, .drop 1, .run 0, .run 0, .loop]

/-- C76 fails (3): after a second login on the connection a heartbeat can remain unanswered although everything has run. -/
theorem second_login_answers_fails : ∃ (e : Env) (a b : List Step),
    (∀ x, (e.md5 x).length = 16) ∧ Accounts (fun ac => 1 ≤ ac.mtWindowSize) (a ++ .packet 8 3 [] {} :: b) ∧
    (run e a).stat = .login ∧ activeCmd e.proto = some 8 ∧
    Settled e (run e (a ++ .packet 8 3 [] {} :: b)) ∧ (run e (a ++ .packet 8 3 [] {} :: b)).isOpen = true ∧
    (run e (a ++ .packet 8 3 [] {} :: b)).crashed = false ∧
    ∀ f ∈ frames (run e (a ++ .packet 8 3 [] {} :: b)), ¬ (command f = be32 0x80000008 ∧ seqOf e.proto f = be32 3) := by
  refine ⟨demoEnv, twiceSteps.take 5, twiceSteps.drop 6, by simp [demoEnv], ?_, by decide, by decide, ?_, by decide, by decide, by decide⟩
  · intro cmd seq body d hm n ac hf
    replace hm : Step.packet cmd seq body d ∈ twiceSteps := hm
    simp only [twiceSteps, List.mem_cons, Step.packet.injEq, reduceCtorEq, List.not_mem_nil, or_false, false_or, or_self] at hm
    rcases hm with ⟨_, _, _, rfl⟩ | ⟨_, _, _, rfl⟩ | ⟨_, _, _, rfl⟩ | ⟨_, _, _, rfl⟩
    · obtain rfl := Option.some.inj hf; decide
    · cases hf
    · cases hf
    · obtain rfl := Option.some.inj hf; decide
  · exact settled_of_empty (by decide) (by decide)

/-! ### What a task that is given up never sends -/

/-- What one step can change: a task of the new state is the task of a new request or one of the old tasks (unchanged if it waits for a
slot), and a frame that is new in the queue or on the wire belongs to a task that did not wait. -/
def Traced (s s' : State) : Prop :=
  s.reqs.length ≤ s'.reqs.length ∧
  (∀ t ∈ s'.tasks, (t.req = s.reqs.length ∧ s.reqs.length < s'.reqs.length) ∨
    ∃ t0 ∈ s.tasks, t0.req = t.req ∧ ∀ g, t.phase = .waiting g → t = t0) ∧
  (∀ y, y ∈ s'.queue ∨ y ∈ s'.wire → y ∈ s.queue ∨ y ∈ s.wire ∨
    ∃ t0 ∈ s.tasks, t0.req = y.1 ∧ ∀ g, t0.phase ≠ .waiting g)

theorem Traced.same {s s' : State} (hr : s'.reqs = s.reqs) (ht : s'.tasks = s.tasks)
    (hq : ∀ y, y ∈ s'.queue ∨ y ∈ s'.wire → y ∈ s.queue ∨ y ∈ s.wire) : Traced s s' := by
  refine ⟨by rw [hr]; exact Nat.le_refl _, fun t h => .inr ⟨t, ht ▸ h, rfl, fun _ _ => rfl⟩, fun y h => ?_⟩
  rcases hq y h with h | h
  · exact .inl h
  · exact .inr (.inl h)

theorem Traced.go {s : State} {i : Nat} {t : Task} (ht : s.tasks[i]? = some t) (hp : ∀ g, t.phase ≠ .waiting g) :
    Traced s (onGo s i t) := by
  have hmem : t ∈ s.tasks := List.mem_of_getElem? ht
  have hset : ∀ rest : List Act, ∀ t' ∈ s.tasks.set i { t with acts := rest },
      ∃ t0 ∈ s.tasks, t0.req = t'.req ∧ ∀ g, t'.phase = .waiting g → t' = t0 := by
    intro rest t' h
    rcases mem_set_task h with rfl | h
    · exact ⟨t, hmem, rfl, fun g hg => absurd hg (hp g)⟩
    · exact ⟨t', h, rfl, fun _ _ => rfl⟩
  unfold onGo
  cases ha : t.acts with
  | nil =>
    refine ⟨Nat.le_refl _, fun t' h => .inr ⟨t', List.mem_of_mem_eraseIdx h, rfl, fun _ _ => rfl⟩, fun y h => ?_⟩
    rcases h with h | h
    · exact .inl h
    · exact .inr (.inl h)
  | cons a rest =>
    cases a with
    | send f af =>
      refine ⟨Nat.le_refl _, fun t' h => .inr (hset rest t' h), fun y h => ?_⟩
      rcases h with h | h
      · replace h : y ∈ s.queue ++ [(t.req, f, af)] := h
        rcases List.mem_append.1 h with h | h
        · exact .inl h
        · rw [List.mem_singleton.1 h]; exact .inr (.inr ⟨t, hmem, rfl, hp⟩)
      · exact .inr (.inl h)
    | shut =>
      refine ⟨Nat.le_refl _, fun t' h => .inr (hset rest t' h), fun y h => ?_⟩
      rcases h with h | h
      · exact .inl h
      · exact .inr (.inl h)

theorem Traced.packet (e : Env) (s : State) (cmd seq : UInt32) (body : Bytes) (d : Draw) : Traced s (onPacket e s cmd seq body d) := by
  unfold onPacket
  cases serve e.gbDec e.proto s.stat s.ver cmd seq body with
  | crash => exact .same rfl rfl (fun _ h => h)
  | close => exact .same rfl rfl (fun _ h => h)
  | ignored => exact .same rfl rfl (fun _ h => h)
  | task k =>
    refine ⟨by simp, fun t h => ?_, fun y h => ?_⟩
    · rcases List.mem_append.1 h with h | h
      · exact .inr ⟨t, h, rfl, fun _ _ => rfl⟩
      · rw [List.mem_singleton.1 h]; exact .inl ⟨rfl, by simp⟩
    · rcases h with h | h
      · exact .inl h
      · exact .inr (.inl h)

theorem Traced.run (s : State) (i : Nat) : Traced s (onRun s i) := by
  unfold onRun
  cases ht : s.tasks[i]? with
  | none => exact .same rfl rfl (fun _ h => h)
  | some t =>
    cases hp : t.phase with
    | free => simp only [hp]; exact .go ht (by simp [hp])
    | inside g => simp only [hp]; exact .go ht (by simp [hp])
    | waiting g =>
      simp only [hp]
      split
      · refine ⟨Nat.le_refl _, fun t' h => .inr ?_, fun y h => ?_⟩
        · rcases mem_set_task h with rfl | h
          · exact ⟨t, List.mem_of_getElem? ht, rfl, fun g hg => by cases hg⟩
          · exact ⟨t', h, rfl, fun _ _ => rfl⟩
        · rcases h with h | h
          · exact .inl h
          · exact .inr (.inl h)
      · exact .same rfl rfl (fun _ h => h)

theorem Traced.drop (s : State) (i : Nat) : Traced s (onDrop s i) := by
  unfold onDrop
  split
  · split
    · refine ⟨Nat.le_refl _, fun t' h => .inr ⟨t', List.mem_of_mem_eraseIdx h, rfl, fun _ _ => rfl⟩, fun y h => ?_⟩
      rcases h with h | h
      · exact .inl h
      · exact .inr (.inl h)
    · exact .same rfl rfl (fun _ h => h)
  · exact .same rfl rfl (fun _ h => h)

theorem Traced.loop (s : State) : Traced s (onLoop s) := by
  unfold onLoop
  cases hq : s.queue with
  | nil => exact .same rfl rfl (fun _ h => h)
  | cons x q =>
    obtain ⟨k, f, a⟩ := x
    have ha : ∀ s1 : State, (onAfter s1 a).reqs = s1.reqs ∧ (onAfter s1 a).tasks = s1.tasks ∧ (onAfter s1 a).queue = s1.queue ∧
        (onAfter s1 a).wire = s1.wire := by
      intro s1
      cases a with
      | login ac =>
        unfold onAfter
        dsimp only
        split <;> exact ⟨rfl, rfl, rfl, rfl⟩
      | _ => exact ⟨rfl, rfl, rfl, rfl⟩
    obtain ⟨h1, h2, h3, h4⟩ := ha { s with queue := q, wire := s.wire ++ [(k, f, a)] }
    refine .same h1 h2 fun y hy => ?_
    dsimp only at hy
    rw [h3, h4] at hy
    rcases hy with hy | hy
    · exact .inl (by rw [hq]; exact List.mem_cons_of_mem _ hy)
    · rcases List.mem_append.1 hy with hy | hy
      · exact .inr hy
      · rw [List.mem_singleton.1 hy]; exact .inl (by rw [hq]; exact List.mem_cons_self)

theorem step_trace (e : Env) (s : State) (x : Step) : Traced s (step e s x) := by
  unfold step
  by_cases hc : s.crashed = true ∨ s.isOpen = false
  · rw [if_pos hc]; exact .same rfl rfl (fun _ h => h)
  · rw [if_neg hc]
    cases x with
    | packet cmd seq body d => exact .packet e s cmd seq body d
    | run i => exact .run s i
    | drop i => exact .drop s i
    | loop => exact .loop s
    | close => exact .same rfl rfl (fun _ h => h)

/-- Two tasks of the same request are the same. -/
theorem task_unique {l : List Task} (hn : l.Pairwise (fun a b => a.req ≠ b.req)) {t t' : Task} (h : t ∈ l) (h' : t' ∈ l)
    (hr : t.req = t'.req) : t = t' := by
  induction l with
  | nil => cases h
  | cons x l ih =>
    rw [List.pairwise_cons] at hn
    rcases List.mem_cons.1 h with rfl | h1
    · rcases List.mem_cons.1 h' with rfl | h2
      · rfl
      · exact absurd hr (hn.1 _ h2)
    · rcases List.mem_cons.1 h' with rfl | h2
      · exact absurd hr.symm (hn.1 _ h1)
      · exact ih hn.2 h1 h2

theorem erase_other {l : List Task} (hn : l.Pairwise (fun a b => a.req ≠ b.req)) {i : Nat} {t t' : Task} (ht : l[i]? = some t)
    (h : t' ∈ l.eraseIdx i) : t'.req ≠ t.req := by
  obtain ⟨a, b, hab, hi⟩ := split_at ht
  have hset : l.eraseIdx i = a ++ b := by
    rw [hab, ← hi, List.eraseIdx_append_of_length_le (Nat.le_refl _)]; simp
  rw [hset] at h
  rw [hab, List.pairwise_append, List.pairwise_cons] at hn
  rcases List.mem_append.1 h with h | h
  · exact hn.2.2 _ h _ List.mem_cons_self
  · exact fun hr => hn.2.1.1 _ h hr.symm

/-- If only one element of a list has a property, it is at one place. -/
theorem only_one {α : Type} {P : α → Bool} {l : List α} (h : (l.filter P).length = 1) {a b a' b' : List α} {x y : α}
    (h1 : l = a ++ x :: b) (h2 : l = a' ++ y :: b') (hx : P x = true) (hy : P y = true) : a' = a := by
  induction l generalizing a a' with
  | nil => cases a <;> cases h1
  | cons z l ih =>
    have two : ∀ (z w : α) (c d : List α), P z = true → P w = true → ((z :: (c ++ w :: d)).filter P).length ≠ 1 := by
      intro z w c d hz hw
      rw [List.filter_cons, if_pos hz, List.filter_append, List.filter_cons, if_pos hw]
      simp
    cases a with
    | nil =>
      cases a' with
      | nil => rfl
      | cons w a' =>
        simp only [List.nil_append, List.cons_append, List.cons.injEq] at h1 h2
        rw [h1.1, h2.2] at h
        exact absurd h (two x y a' b' hx hy)
    | cons v a =>
      cases a' with
      | nil =>
        simp only [List.nil_append, List.cons_append, List.cons.injEq] at h1 h2
        rw [h2.1, h1.2] at h
        exact absurd h (two y x a b hy hx)
      | cons w a' =>
        simp only [List.cons_append, List.cons.injEq] at h1 h2
        have hz : ¬ P z = true := by
          intro hz
          rw [h1.2] at h
          exact two z x a b hz hx h
        rw [List.filter_cons, if_neg hz] at h
        rw [ih h h1.2 h2.2, ← h1.1, ← h2.1]

/-- A task that still waits for a slot has sent nothing. -/
theorem waiting_silent (e : Env) (steps : List Step) : ∀ t ∈ (run e steps).tasks, ∀ g, t.phase = .waiting g →
    ∀ y, y ∈ (run e steps).queue ∨ y ∈ (run e steps).wire → y.1 ≠ t.req := by
  induction steps using snoc_induction with
  | nil => intro t h; simp [run] at h
  | snoc l x ih =>
    rw [run_snoc]
    have hI := inv_run_all e l
    obtain ⟨_, htk, hfr⟩ := step_trace e (run e l) x
    intro t ht g hg y hy
    have hlt : y ∈ (run e l).queue ∨ y ∈ (run e l).wire → y.1 < (run e l).reqs.length := by
      rintro (h | h)
      · exact hI.qlt y h
      · exact hI.wlt y h
    have old : t ∈ (run e l).tasks → y.1 ≠ t.req := by
      intro hm
      have : y ∈ (run e l).queue ∨ y ∈ (run e l).wire ∨
          ∃ t0 ∈ (run e l).tasks, t0.req = y.1 ∧ ∀ g, t0.phase ≠ .waiting g := hfr y hy
      rcases this with h | h | ⟨t0, h0, h1, h2⟩
      · exact ih t hm g hg y (.inl h)
      · exact ih t hm g hg y (.inr h)
      · intro he
        have : t0 = t := task_unique hI.nodup h0 hm (by rw [h1, he])
        rw [this] at h2
        exact h2 g hg
    rcases htk t ht with ⟨h1, _⟩ | ⟨t0, h0, h1, h2⟩
    · rw [h1]
      rcases hfr y hy with h | h | ⟨t1, h3, h4, _⟩
      · exact Nat.ne_of_lt (hlt (.inl h))
      · exact Nat.ne_of_lt (hlt (.inr h))
      · rw [← h4]; exact Nat.ne_of_lt (hI.lt t1 h3)
    · exact old (by rw [h2 g hg]; exact h0)

/-- A request without a task and without frames gets none later. -/
theorem gone_stays (e : Env) (k : Nat) : ∀ (b : List Step) (s : State), k < s.reqs.length → (∀ t ∈ s.tasks, t.req ≠ k) →
    (∀ y, y ∈ s.queue ∨ y ∈ s.wire → y.1 ≠ k) → ∀ y ∈ (b.foldl (step e) s).wire, y.1 ≠ k := by
  intro b
  induction b with
  | nil => intro s _ _ h y hy; exact h y (.inr hy)
  | cons x b ih =>
    intro s hk ht hf
    obtain ⟨h1, h2, h3⟩ := step_trace e s x
    refine ih (step e s x) (by omega) ?_ ?_
    · intro t hm
      rcases h2 t hm with ⟨h, _⟩ | ⟨t0, h0, h, _⟩
      · omega
      · rw [← h]; exact ht t0 h0
    · intro y hy
      rcases h3 y hy with h | h | ⟨t0, h0, h, _⟩
      · exact hf y (.inl h)
      · exact hf y (.inr h)
      · rw [← h]; exact ht t0 h0

/-- C76 fails (3), for every history: if a login is completed while a request waits for a slot of the window (`t`, number `i` of the
tasks, which has waited since the window numbered `g`), the request's task can be given up at that moment, and then the request is never
answered, whatever follows. `a` ends before the packet of the request and `c` at that moment. -/
theorem second_login_unanswered_fails (e : Env) (h16 : ∀ x, (e.md5 x).length = 16) (a c b : List Step) (cmd seq : UInt32) (body : Bytes)
    (d : Draw) (hcmd : cmd < 0x80000000) (i : Nat) (t : Task) (g : Nat)
    (ht : (run e (a ++ .packet cmd seq body d :: c)).tasks[i]? = some t) (hreq : t.req = (run e a).reqs.length)
    (hw : t.phase = .waiting g) (hg : g < (run e (a ++ .packet cmd seq body d :: c)).gen)
    (hopen : (run e (a ++ .packet cmd seq body d :: c)).isOpen = true)
    (hup : (run e (a ++ .packet cmd seq body d :: c)).crashed = false)
    (honly : ((a ++ .packet cmd seq body d :: c ++ .drop i :: b).filter
      (onPackets fun c' seq' body' _ => c' = cmd ∧ packetSeq e.proto seq' body' = packetSeq e.proto seq body)).length = 1) :
    ∀ f ∈ frames (run e (a ++ .packet cmd seq body d :: c ++ .drop i :: b)),
      ¬ (command f = be32 (Spec.responseOf cmd) ∧ seqOf e.proto f = packetSeq e.proto seq body) := by
  have hgone : ∀ y ∈ (run e (a ++ .packet cmd seq body d :: c ++ .drop i :: b)).wire, y.1 ≠ t.req := by
    have hI := inv_run_all e (a ++ .packet cmd seq body d :: c)
    have hs := waiting_silent e (a ++ .packet cmd seq body d :: c)
    generalize a ++ .packet cmd seq body d :: c = l at *
    have hmem := List.mem_of_getElem? ht
    have e1 : run e (l ++ .drop i :: b) = b.foldl (step e) (step e (run e l) (.drop i)) := by
      simp [run, List.foldl_append]
    have e2 : step e (run e l) (.drop i) = { run e l with tasks := (run e l).tasks.eraseIdx i } := by
      unfold step
      rw [if_neg (by simp [hopen, hup])]
      show onDrop (run e l) i = _
      obtain ⟨r, p, ac⟩ := t
      dsimp only at hw
      subst hw
      unfold onDrop
      rw [ht]
      simp only [if_pos hg]
    rw [e1, e2]
    refine gone_stays e t.req b _ (hI.lt t hmem) ?_ (fun y hy => hs t hmem g hw y hy)
    intro t' ht'
    exact erase_other hI.nodup ht ht'
  rintro f hf ⟨h1, h2⟩
  obtain ⟨x, hx, rfl⟩ := frame_iff.1 hf
  obtain ⟨r, hr, hgood, hE⟩ := wire_entry h16 (inv_run_all e _) hx
  obtain ⟨a', b', hab, hlen, _⟩ := req_origin e _ _ _ hr
  have hne : x.2.2 ≠ .rpt := by
    intro h
    have := (entry_report hE h).1
    rw [h1] at this
    exact deliver_ne e.proto hcmd this.symm
  obtain ⟨q1, q2, q3⟩ := entry_answer hgood hE hne
  rw [h1] at q1
  have hc := responseOf_inj hcmd q3 (be32_inj q1)
  have hk : x.1 ≠ (run e a).reqs.length := by rw [← hreq]; exact hgone x hx
  have hq : onPackets (fun c' seq' body' _ => decide (c' = cmd ∧ packetSeq e.proto seq' body' = packetSeq e.proto seq body))
      (ofReq r) = true := by
    show decide _ = true
    simp only [decide_eq_true_eq]
    exact ⟨hc.symm, by rw [← q2, h2]⟩
  have := only_one honly (a := a) (x := .packet cmd seq body d) (b := c ++ .drop i :: b) (a' := a') (y := ofReq r) (b' := b')
    (by simp) hab (by show decide _ = true; simp) hq
  rw [this] at hlen
  exact hk hlen.symm

set_option maxRecDepth 20000 in
/-- Its hypotheses hold for the heartbeat of `twiceSteps`, whatever follows (without another heartbeat numbered 3). -/
example (b : List Step) (hb : b.filter (onPackets fun c' seq' body' _ => c' = 8 ∧ packetSeq .cmpp seq' body' = packetSeq .cmpp 3 []) = []) :
    ∀ f ∈ frames (run demoEnv (twiceSteps.take 5 ++ .packet 8 3 [] {} :: (twiceSteps.drop 6).take 5 ++ .drop 1 :: b)),
      ¬ (command f = be32 (Spec.responseOf 8) ∧ seqOf .cmpp f = packetSeq .cmpp 3 []) := by
  refine second_login_unanswered_fails demoEnv (by simp [demoEnv]) (twiceSteps.take 5) ((twiceSteps.drop 6).take 5) b 8 3 [] {} (by decide)
    1 ((run demoEnv (twiceSteps.take 11)).tasks[1]'(by decide)) 1 (by decide) (by decide) (by decide) (by decide) (by decide) (by decide) ?_
  have e1 : twiceSteps.take 5 ++ .packet 8 3 [] {} :: (twiceSteps.drop 6).take 5 ++ .drop 1 :: b = twiceSteps.take 12 ++ b := rfl
  rw [e1, List.filter_append, List.length_append]
  show _ + (b.filter (onPackets fun c' seq' body' _ => c' = 8 ∧ packetSeq .cmpp seq' body' = packetSeq .cmpp 3 [])).length = 1
  rw [hb]
  show ((twiceSteps.take 12).filter (onPackets fun c' seq' body' _ =>
    c' = 8 ∧ packetSeq .cmpp seq' body' = packetSeq .cmpp 3 [])).length + 0 = 1
  decide

end Gosms.ServerTraffic
