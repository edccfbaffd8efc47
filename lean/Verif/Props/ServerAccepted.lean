import Verif.Props.ServerReported

/-! # C93: whatever the windows and logins, an accepted submit is reported -/

namespace Gosms.ServerTraffic
open Handlers Spec.ServerTraffic

/-- The task of a request does all its sending or none: it can only be lost before it has begun. -/
structure Whole (e : Env) (s : State) : Prop where
  start : ∀ t ∈ s.tasks, ∀ g, t.phase = .waiting g → forReq t.req s.wire = [] ∧ forReq t.req s.queue = []
  all : ∀ k r, s.reqs[k]? = some r → owed s k = sends (workOf e r) ∨ owed s k = []

theorem unique_task {l : List Task} (hn : l.Pairwise (fun a b => a.req ≠ b.req)) {x y : Task} (hx : x ∈ l) (hy : y ∈ l)
    (h : x.req = y.req) : x = y := by
  induction l with
  | nil => cases hx
  | cons a l ih =>
    obtain ⟨h1, h2⟩ := List.pairwise_cons.1 hn
    rcases List.mem_cons.1 hx with rfl | hx' <;> rcases List.mem_cons.1 hy with rfl | hy'
    · rfl
    · exact absurd h (h1 y hy')
    · exact absurd h.symm (h1 x hx')
    · exact ih h2 hx' hy'

theorem forReq_other {k : Nat} {q : List (Nat × Bytes × After)} (h : ∀ x ∈ q, x.1 ≠ k) : forReq k q = [] := by
  have : q.filter (·.1 = k) = [] := by simpa using h
  simp [forReq, this]

theorem whole_packet {e : Env} {s : State} (hi : Inv e s) (h : Whole e s) (cmd seq : UInt32) (body : Bytes) (d : Draw) :
    Whole e (onPacket e s cmd seq body d) := by
  unfold onPacket
  split
  · exact ⟨h.start, h.all⟩
  · exact ⟨h.start, h.all⟩
  · exact h
  · rename_i k hk
    have hnew : forReq s.reqs.length s.wire = [] ∧ forReq s.reqs.length s.queue = [] ∧ pend s.tasks s.reqs.length = [] := by
      refine ⟨forReq_other fun x hx => ?_, forReq_other fun x hx => ?_, pend_none fun t ht => ?_⟩
      · have := hi.wlt x hx; omega
      · have := hi.qlt x hx; omega
      · have := hi.lt t ht; omega
    refine ⟨?_, ?_⟩
    · intro t hm g hg
      rcases List.mem_append.1 hm with hm | hm
      · exact h.start t hm g hg
      · rw [List.mem_singleton.1 hm]; exact ⟨hnew.1, hnew.2.1⟩
    · intro k' r hr
      have hown : ∀ n, owed { s with reqs := s.reqs ++ [⟨s.ver, k, cmd, seq, body, d⟩]
                                     tasks := s.tasks ++ [⟨s.reqs.length, phaseOf s k d, work e.gbDec e.md5 e.proto s.ver k seq body d⟩] } n
          = owed s n ++ pend [⟨s.reqs.length, phaseOf s k d, work e.gbDec e.md5 e.proto s.ver k seq body d⟩] n := by
        intro n
        simp only [owed, pend_append, List.append_assoc]
      rw [hown]
      by_cases hlt : k' < s.reqs.length
      · rw [List.getElem?_append_left hlt] at hr
        rw [pend_ne (by simp only; omega), List.append_nil]
        exact h.all k' r hr
      · have hk' : k' = s.reqs.length := by
          have := (List.getElem?_eq_some_iff.1 hr).1
          simp at this; omega
        rw [hk', List.getElem?_append_right (Nat.le_refl _)] at hr
        simp at hr
        have : owed s k' = [] := by rw [hk']; simp [owed, hnew]
        rw [this, List.nil_append, hk', pend_eq (⟨s.reqs.length, _, _⟩ : Task), ← hr]
        exact .inl rfl

theorem whole_run {e : Env} {s : State} (hi : Inv e s) (h : Whole e s) (i : Nat) : Whole e (onRun s i) := by
  unfold onRun
  cases ht : s.tasks[i]? with
  | none => exact h
  | some t =>
    have hmem : t ∈ s.tasks := List.mem_of_getElem? ht
    have base : ∀ (t' : Task), t'.req = t.req → (∀ g, t'.phase ≠ .waiting g) → ∀ (q : List (Nat × Bytes × After)),
        (∀ x ∈ q, x.1 = t.req) → q.map (·.2) ++ sends t'.acts = sends t.acts → (q ≠ [] → ∀ g, t.phase ≠ .waiting g) → ∀ c sl,
        Whole e { s with tasks := s.tasks.set i t', queue := s.queue ++ q, closing := c, slots := sl } := by
      intro t' hr hp q hq hs hqn c sl
      refine ⟨?_, ?_⟩
      · intro x hx g hg
        rcases mem_set_task hx with rfl | hx
        · exact absurd hg (hp g)
        · obtain ⟨w1, w2⟩ := h.start x hx g hg
          refine ⟨w1, ?_⟩
          show forReq x.req (s.queue ++ q) = []
          rw [forReq_append, w2, List.nil_append]
          refine forReq_other fun y hy hxy => ?_
          have : x = t := unique_task hi.nodup hx hmem (by rw [← hxy, hq y hy])
          subst this
          exact hqn (List.ne_nil_of_mem hy) g hg
      · intro k r hk
        have e1 : owed { s with tasks := s.tasks.set i t', queue := s.queue ++ q, closing := c, slots := sl } k = owed s k :=
          owed_set hi.nodup ht t' hr q hq hs k
        rw [e1]
        exact h.all k r hk
    have fin : (∀ g, t.phase ≠ .waiting g) → Whole e (onGo s i t) := by
      intro hp
      unfold onGo
      cases ha : t.acts with
      | nil =>
        refine ⟨?_, ?_⟩
        · intro x hx; exact h.start x (List.mem_of_mem_eraseIdx hx)
        · intro k r hk
          have := owed_erase hi.nodup ht k
          have hz : pend [t] k = [] := by
            by_cases hkt : t.req = k
            · rw [← hkt, pend_eq, ha]; rfl
            · exact pend_ne hkt
          rw [hz, List.append_nil] at this
          have e1 : owed { s with tasks := s.tasks.eraseIdx i, slots := freed s t } k = owed s k := this
          show owed { s with tasks := s.tasks.eraseIdx i, slots := freed s t } k = _ ∨ _
          rw [e1]
          exact h.all k r hk
      | cons a rest =>
        cases a with
        | send f af =>
          refine base { t with acts := rest } rfl hp [(t.req, f, af)] ?_ ?_ (fun _ => hp) s.closing s.slots
          · intro x hx; rw [List.mem_singleton.1 hx]
          · rw [ha]; rfl
        | shut =>
          have := base { t with acts := rest } rfl hp [] (by simp) (by rw [ha]; rfl) (fun hh => absurd rfl hh) true s.slots
          simpa [onAct] using this
    cases hp : t.phase with
    | waiting g =>
      simp only [hp]
      by_cases hh : s.slots < s.win
      · rw [if_pos hh]
        have := base { t with phase := .inside s.gen } rfl (by simp) [] (by simp) rfl (fun hh => absurd rfl hh) s.closing (s.slots + 1)
        simpa using this
      · rw [if_neg hh]; exact h
    | free => simp only [hp]; exact fin (by simp [hp])
    | inside g => simp only [hp]; exact fin (by simp [hp])

theorem whole_drop {e : Env} {s : State} (hi : Inv e s) (h : Whole e s) (i : Nat) : Whole e (onDrop s i) := by
  unfold onDrop
  split
  · rename_i k g acts ht
    split
    · refine ⟨fun x hx => h.start x (List.mem_of_mem_eraseIdx hx), ?_⟩
      intro k' r hk
      have he := owed_erase hi.nodup ht k'
      by_cases hkk : k = k'
      · right
        subst hkk
        obtain ⟨w1, w2⟩ := h.start _ (List.mem_of_getElem? ht) g rfl
        have hp : pend (s.tasks.eraseIdx i) k = [] := by
          refine pend_none fun t hm hr => ?_
          obtain ⟨a, b, hab, hl⟩ := split_at ht
          have hset : s.tasks.eraseIdx i = a ++ b := by
            rw [hab, ← hl, List.eraseIdx_append_of_length_le (Nat.le_refl _)]; simp
          have hn := hi.nodup
          rw [hab] at hn
          have hn' := List.pairwise_append.1 hn
          rw [hset] at hm
          rcases List.mem_append.1 hm with hm | hm
          · exact hn'.2.2 t hm _ List.mem_cons_self hr
          · exact (List.pairwise_cons.1 hn'.2.1).1 t hm hr.symm
        simp only at w1 w2
        simp [owed, w1, w2, hp]
      · rw [pend_ne (by simpa using hkk), List.append_nil] at he
        have e1 : owed { s with tasks := s.tasks.eraseIdx i } k' = owed s k' := he
        rw [e1]
        exact h.all k' r hk
    · exact h
  · exact h

theorem whole_loop {e : Env} {s : State} (h : Whole e s) : Whole e (onLoop s) := by
  unfold onLoop
  split
  · exact h
  · rename_i k f a q hq
    obtain ⟨e1, e2, e3, e4, _⟩ := onAfter_reqs { s with queue := q, wire := s.wire ++ [(k, f, a)] } a
    refine ⟨?_, ?_⟩
    · rw [e2, e3, e4]
      intro t hm g hg
      obtain ⟨w1, w2⟩ := h.start t hm g hg
      rw [hq] at w2
      have : (k, f, a) :: q = [(k, f, a)] ++ q := rfl
      rw [this, forReq_append] at w2
      obtain ⟨w3, w4⟩ := List.append_eq_nil_iff.1 w2
      exact ⟨by rw [forReq_append, w1, w3]; rfl, w4⟩
    · rw [e1]
      intro n r hn
      have how : owed (onAfter { s with queue := q, wire := s.wire ++ [(k, f, a)] } a) n = owed s n := by
        simp only [owed, e2, e3, e4, hq]
        have : (k, f, a) :: q = [(k, f, a)] ++ q := rfl
        rw [this, forReq_append, forReq_append]
        simp
      rw [how]
      exact h.all n r hn

theorem whole_run_all (e : Env) (steps : List Step) : Whole e (run e steps) := by
  induction steps using snoc_induction with
  | nil => exact ⟨by simp [run], by simp [run]⟩
  | snoc l x ih =>
    have hi := inv_run_all e l
    rw [run_snoc]
    unfold step
    split
    · exact ih
    · cases x with
      | packet cmd seq body d => exact whole_packet hi ih cmd seq body d
      | run i => exact whole_run hi ih i
      | drop i => exact whole_drop hi ih i
      | loop => exact whole_loop ih
      | close => exact ⟨ih.start, ih.all⟩

/-- At rest only tasks waiting for a slot are left. -/
theorem settled_waiting {e : Env} {s : State} (hc : s.crashed = false) (ho : s.isOpen = true) (hs : Settled e s) :
    s.queue = [] ∧ ∀ t ∈ s.tasks, ∃ g, t.phase = .waiting g := by
  have hn : ¬ (s.crashed ∨ s.isOpen = false) := by simp [hc, ho]
  refine ⟨?_, ?_⟩
  · have hloop : onLoop s = s := by
      have := hs .loop trivial
      unfold step at this
      rwa [if_neg hn] at this
    cases hq : s.queue with
    | nil => rfl
    | cons x q =>
      obtain ⟨k, f, a⟩ := x
      have := congrArg State.queue hloop
      unfold onLoop at this
      simp only [hq] at this
      rw [(onAfter_reqs _ _).2.2.2.1] at this
      have := congrArg List.length this
      simp at this
  · intro t hm
    obtain ⟨i, hi, ht⟩ := List.getElem_of_mem hm
    have ht : s.tasks[i]? = some t := by rw [List.getElem?_eq_getElem hi, ht]
    have := hs (.run i) trivial
    unfold step at this
    rw [if_neg hn] at this
    simp only at this
    unfold onRun at this
    rw [ht] at this
    cases hp : t.phase with
    | waiting g => exact ⟨g, rfl⟩
    | free =>
      simp only [hp] at this
      have hm := measure_go ht
      rw [this] at hm
      exact absurd hm (Nat.lt_irrefl _)
    | inside g =>
      simp only [hp] at this
      have hm := measure_go ht
      rw [this] at hm
      exact absurd hm (Nat.lt_irrefl _)

/-- At rest, a request one frame of which is on the connection has all its frames there. -/
theorem settled_whole {e : Env} {steps : List Step} (hc : (run e steps).crashed = false) (ho : (run e steps).isOpen = true)
    (hs : Settled e (run e steps)) {k : Nat} {r : Req} (hr : (run e steps).reqs[k]? = some r)
    (hw : forReq k (run e steps).wire ≠ []) : forReq k (run e steps).wire = sends (workOf e r) := by
  obtain ⟨hq, ht⟩ := settled_waiting hc ho hs
  have h := whole_run_all e steps
  have hp : pend (run e steps).tasks k = [] := by
    refine pend_none fun t hm hk => ?_
    obtain ⟨g, hg⟩ := ht t hm
    have := (h.start t hm g hg).1
    rw [hk] at this
    exact hw this
  have ho : owed (run e steps) k = forReq k (run e steps).wire := by
    rw [owed, hq, hp]; simp [forReq]
  rcases h.all k r hr with h1 | h1
  · rw [← ho, h1]
  · rw [ho] at h1; exact absurd h1 hw

/-- An SMGP report needs the account and a recipient. -/
theorem smgp_needs {e : Env} (h16 : ∀ x, (e.md5 x).length = 16) {r : Req} (hg : Good e r) (hp : e.proto = .smgp) {x : Bytes × After}
    (hx : x ∈ sends (workOf e r)) (hrpt : x.2 = .rpt) : r.draw.conf ≠ none ∧ r.body.getD 104 0 ≠ 0 := by
  have hk := (chain_submit hg.1).2 (entry_report (entry_of_mem h16 hg hx) hrpt).2.1
  obtain ⟨p, gb, md5⟩ := e
  obtain ⟨ver, k, cmd, seq, body, d⟩ := r
  simp only at hk hp
  subst hk hp
  simp only [workOf, work] at hx
  cases hm : Smgp.Submit.decode gb ver seq (Buf.exact body) with
  | none => rw [hm] at hx; cases hx
  | some mt =>
    rw [hm] at hx
    simp only [Option.map_some, Option.getD_some, smgpSubmit, respond] at hx
    have key : ∀ id, x ∈ sends (smgpReport d mt id) → d.conf ≠ none ∧ body.getD 104 0 ≠ 0 := by
      intro id h
      unfold smgpReport at h
      split at h
      · cases h
      · cases hc : d.conf with
        | none => rw [hc] at h; cases h
        | some ac =>
          refine ⟨by simp, fun h0 => ?_⟩
          have hl := Smgp.submit_recipients hm
          rw [h0] at hl
          have hnil : mt.destTermID = [] := List.length_eq_zero_iff.1 hl
          rw [hc] at h
          simp only [Smgp.newDeliveryReport, hnil, List.head?_nil, Option.map_none, Option.bind_none, write] at h
          cases h
    have key' : ∀ (c : Prop) [Decidable c] id, x ∈ sends (if c then smgpReport d mt id else []) → d.conf ≠ none ∧ body.getD 104 0 ≠ 0 := by
      intro c _ id h
      split at h
      · exact key _ h
      · cases h
    split at hx
    · have := write_rpt (ite_mt _) hx hrpt; cases this
    · split at hx
      · cases hx
      · cases hx
      · have h := write_rpt (ite_mt _) hx hrpt
        exact key' _ _ h

/-- C93, in full for CMPP: take any submit response on the connection of a server at rest, whatever the packets, the schedule, the windows
and the number of logins. It is, byte for byte, the response to a submit of the history, and if it accepts that submit then the status
report of that submit is on the connection behind it, with the message id of the response, exactly if the draw did not deny it - and, in
SMGP, the account is still known and the submit names a recipient. The first component of an entry of `wire` is the number of the packet
the frame is for. (That an SMGP id has 10 bytes: C04.) -/
theorem accepted_submit_reported (e : Env) (h16 : ∀ x, (e.md5 x).length = 16) (hp : e.proto ≠ .sgip) (steps : List Step)
    (hc : (run e steps).crashed = false) (ho : (run e steps).isOpen = true) (hs : Settled e (run e steps))
    (pre post : List (Nat × Bytes × After)) (k : Nat) (f : Bytes) (x : After) (hw : (run e steps).wire = pre ++ (k, f, x) :: post)
    (hf : command f = be32 (Spec.responseOf (submitCmd e.proto))) :
    ∃ a seq body d b, steps = a ++ .packet (submitCmd e.proto) seq body d :: b ∧ (run e a).reqs.length = k ∧
      f = submitResponse (Cmpp.v3 (run e a).ver) e.proto seq body (verdict d) d.id d.bcd ∧
      (verdict d = .accepted → (e.proto = .smgp → d.bcd.length = 10) →
        ((∃ g y, (k, g, y) ∈ post ∧ command g = be32 (deliverCmd e.proto) ∧
            reportId (Cmpp.v3 (run e a).ver) e.proto g = messageId e.proto d.id d.bcd) ↔
          d.noReport = false ∧ (e.proto = .smgp → d.conf ≠ none ∧ body.getD 104 0 ≠ 0))) := by
  have hinv := inv_run_all e steps
  obtain ⟨r, hr, hg, hpre⟩ := wire_split hinv hw
  simp only at hr hpre
  have hx : (f, x) ∈ sends (workOf e r) := hpre.subset (by simp)
  have hE := entry_of_mem h16 hg hx
  have hnr : x ≠ .rpt := by
    intro h
    have := (entry_command hg hE).1 h
    rw [hf] at this
    exact deliver_ne e.proto (cmds_lt e.proto).1 this.symm
  have hans := entry_answer hg hE hnr
  have hcmd : r.cmd = submitCmd e.proto := by
    have := hans.1
    rw [hf] at this
    exact (responseOf_inj (cmds_lt e.proto).1 hans.2.2 (be32_inj this)).symm
  have hk := (chain_submit hg.1).2 hcmd
  obtain ⟨a, b, hab, hlen, hver, _⟩ := req_origin e steps k r hr
  have hall : forReq k (run e steps).wire = sends (workOf e r) := by
    refine settled_whole hc ho hs hr ?_
    exact List.ne_nil_of_mem (forReq_mem (x := (k, f, x)) (by rw [hw]; simp) rfl)
  rcases sends_shape h16 hg with h | ⟨y, rest, h, hy, hyr, hl, hrest⟩
  · rw [h] at hx; cases hx
  have hfx : (f, x) = y := by
    rw [h] at hx
    rcases List.mem_cons.1 hx with h1 | h1
    · exact h1
    · exact absurd (hrest _ h1).2.1 hnr
  have hsub : f = submitAnswer e r := by
    rw [hfx.symm] at hy
    generalize hz : ((f, x) : Bytes × After) = z at hy
    cases hy with
    | submit => exact congrArg Prod.fst hz
    | report g => exact absurd (congrArg Prod.snd hz) hnr
    | login h1 => rw [hk] at h1; cases h1
    | active g h1 => rw [hk] at h1; cases h1
    | terminate h1 => rw [hk] at h1; cases h1
  -- what is behind the response
  have hpost : forReq k post = rest := by
    rw [h, hw, forReq_append] at hall
    have e1 : forReq k ((k, f, x) :: post) = (f, x) :: forReq k post := by simp [forReq]
    rw [e1] at hall
    cases hpk : forReq k pre with
    | nil =>
      rw [hpk, List.nil_append] at hall
      exact (List.cons.inj hall).2
    | cons z zs =>
      rw [hpk] at hall
      have h2 := (List.cons.inj hall).2
      have hm : (f, x) ∈ rest := by rw [← h2]; simp
      exact absurd (hrest _ hm).2.1 hnr
  refine ⟨a, r.seq, r.body, r.draw, b, by rw [hab, ofReq, hcmd], hlen, by rw [← hver]; exact hsub, fun hv hb => ?_⟩
  rw [← hver]
  constructor
  · rintro ⟨g, y', hgm, hgc, _⟩
    have hgs : (g, y') ∈ sends (workOf e r) := by
      rw [h]; exact List.mem_cons_of_mem _ (by rw [← hpost]; exact forReq_mem (x := (k, g, y')) hgm rfl)
    have hrpt : y' = .rpt := (entry_command hg (entry_of_mem h16 hg hgs)).2 hgc
    refine ⟨?_, fun hsm => smgp_needs h16 hg hsm hgs hrpt⟩
    cases hn : r.draw.noReport with
    | false => rfl
    | true => exact absurd hrpt (denied h16 hg hn hgs)
  · rintro ⟨hn, hsm⟩
    have hable : Able r.draw := by
      generalize hz : ((f, x) : Bytes × After) = z at hE
      cases hE with
      | submit _ _ ha =>
        rcases ha with ha | ha
        · simp [verdict, ha] at hv
        · exact ha
      | report g _ _ ha => exact ha
      | login h1 => rw [hk] at h1; cases h1
      | active g h1 => rw [hk] at h1; cases h1
      | terminate h1 => rw [hk] at h1; cases h1
    obtain ⟨g, hgs⟩ : ∃ g, (g, After.rpt) ∈ sends (workOf e r) := by
      obtain ⟨p, gb, md5⟩ := e
      obtain ⟨ver, kk, cmd, seq, body, d⟩ := r
      simp only at hk
      subst hk
      cases p with
      | cmpp => exact cmpp_reported hg.2 hable hv hn
      | smgp => exact smgp_reported hg.2 hable hv hn ⟨(hsm rfl).1, hb rfl, (hsm rfl).2⟩
      | sgip => exact absurd rfl hp
    have hgr := entry_report (entry_of_mem h16 hg hgs) rfl
    rw [h] at hgs
    rcases List.mem_cons.1 hgs with h1 | h1
    · rw [← hfx] at h1; exact absurd (congrArg Prod.snd h1).symm hnr
    · rw [← hpost] at h1
      obtain ⟨z, hz, hze⟩ := List.mem_map.1 h1
      obtain ⟨hz1, hz2⟩ := List.mem_filter.1 hz
      have : z = (k, g, .rpt) := by
        obtain ⟨z1, z2⟩ := z
        simp only [decide_eq_true_eq] at hz2
        simp only at hze
        rw [hz2, hze]
      exact ⟨g, .rpt, this ▸ hz1, hgr.1, hgr.2.2.2.2.2 hb⟩

/-! ## C91 for windows of size 0 -/

theorem close_needs_slot {e : Env} {r : Req} {x : Bytes × After} (hE : Entry e r x) (hx : x.2 = .close) : ¬ needsNoSlot r := by
  cases hE with
  | submit h => dsimp only at hx; split at hx <;> cases hx
  | report _ h => cases hx
  | login h => simp only [afterLogin] at hx; split at hx <;> cases hx
  | active _ h => cases hx
  | terminate h => intro hn; rcases hn with hn | hn <;> simp [h] at hn

/-- With windows of size 0 only a refusal closes. -/
theorem zero_window_closing (e : Env) (h16 : ∀ x, (e.md5 x).length = 16) (steps : List Step)
    (hz : Accounts (fun ac => ac.mtWindowSize ≤ 0) steps) :
    (run e steps).closing = true → ∃ x ∈ (run e steps).wire, x.2.2 = .refuse := by
  induction steps using snoc_induction with
  | nil => intro h; cases h
  | snoc l x ih =>
    have ih := ih (accounts_left hz)
    have hzi := zero_window_inv e h16 l (accounts_left hz)
    have hsh := shut_run e l
    have hzi' := zero_window_inv e h16 _ hz
    have hinv' := inv_run_all e (l ++ [x])
    have keep : ∀ s' : State, (run e l).wire <+: s'.wire → s'.closing = (run e l).closing → s'.closing = true → ∃ x ∈ s'.wire, x.2.2 = .refuse := by
      intro s' h1 h2 h3
      rw [h2] at h3
      obtain ⟨y, hy, hr⟩ := ih h3
      exact ⟨y, h1.subset hy, hr⟩
    have hw := step_wire e (run e l) x
    rw [run_snoc] at hzi' hinv' ⊢
    by_cases hsame : (step e (run e l) x).closing = (run e l).closing
    · exact keep _ hw hsame
    intro hc
    unfold step at hsame hw hzi' hinv' ⊢
    split at hsame
    · exact absurd rfl hsame
    · rename_i hal
      rw [if_neg hal] at hw hzi' hinv' ⊢
      cases x with
      | packet cmd seq body d => simp only [onPacket] at hsame; split at hsame <;> exact absurd rfl hsame
      | run i =>
        simp only [onRun] at hsame
        split at hsame
        · exact absurd rfl hsame
        · rename_i t ht
          have go : (onGo (run e l) i t).closing ≠ (run e l).closing → Act.shut ∈ t.acts := by
            intro h
            unfold onGo at h
            split at h
            · exact absurd rfl h
            · rename_i a rest ha
              cases a with
              | send => exact absurd rfl h
              | shut => rw [ha]; exact List.mem_cons_self
          have htm := List.mem_of_getElem? ht
          split at hsame
          · split at hsame <;> exact absurd rfl hsame
          · rename_i hp
            obtain ⟨r, hr, hk⟩ := hsh.acts t htm (go hsame)
            rcases hzi.1 t htm with ⟨g, hg⟩ | ⟨_, r', hr', hn⟩
            · rw [hp] at hg; cases hg
            · rw [hr] at hr'
              obtain rfl := Option.some.inj hr'
              rcases hn with hn | hn <;> simp [hk] at hn
          · rename_i g hp
            rcases hzi.1 t htm with ⟨g', hg⟩ | ⟨hg, _⟩
            · rw [hp] at hg; cases hg
            · rw [hp] at hg; cases hg
      | drop i =>
        simp only [onDrop] at hsame
        split at hsame
        · split at hsame <;> exact absurd rfl hsame
        · exact absurd rfl hsame
      | loop =>
        simp only [onLoop] at hsame hzi' hinv' ⊢
        cases hq : (run e l).queue with
        | nil => rw [hq] at hsame; exact absurd rfl hsame
        | cons y q =>
          obtain ⟨k, f, a⟩ := y
          simp only [hq] at hsame hzi' hinv' ⊢
          have hm : (k, f, a) ∈ (onAfter { (run e l) with queue := q, wire := (run e l).wire ++ [(k, f, a)] } a).wire := by
            rw [(onAfter_reqs _ _).2.1]; simp
          cases a with
          | refuse => exact ⟨_, hm, rfl⟩
          | close =>
            obtain ⟨r, hr, hg, hE⟩ := wire_entry h16 hinv' hm
            obtain ⟨r', hr', hn⟩ := hzi'.2 _ (.inr hm)
            rw [hr] at hr'
            obtain rfl := Option.some.inj hr'
            exact absurd hn (close_needs_slot hE rfl)
          | none => exact absurd rfl hsame
          | mt => exact absurd rfl hsame
          | rpt => exact absurd rfl hsame
          | login ac => simp only [onAfter] at hsame; split at hsame <;> exact absurd rfl hsame
      | close => exact absurd rfl hsame

/-- C91 fails: if the accounts are configured with a window of size 0 no confirmation of a termination closes the connection, whatever the
packets and the schedule: unless it has written a login response that refuses, the server never asks for the connection to be closed. -/
theorem zero_window_closing_fails (e : Env) (h16 : ∀ x, (e.md5 x).length = 16) (steps : List Step)
    (hz : Accounts (fun ac => ac.mtWindowSize ≤ 0) steps)
    (hno : ∀ f ∈ frames (run e steps), command f = be32 (Spec.responseOf (loginCmd e.proto)) → refusal e.proto f = false) :
    (run e steps).closing = false := by
  cases hc : (run e steps).closing with
  | false => rfl
  | true =>
    obtain ⟨x, hx, hr⟩ := zero_window_closing e h16 steps hz hc
    obtain ⟨r, _, hg, hE⟩ := wire_entry h16 (inv_run_all e steps) hx
    obtain ⟨h1, h2⟩ := (entry_closes h16 hg hE).1 hr
    have := hno _ (frame_iff.2 ⟨x, hx, rfl⟩) h1
    rw [this] at h2; cases h2

/-- A session with such an account that confirms a termination: the account is logged in, the confirmation taken, nothing closes. -/
example : (run demoEnv (muteSteps.take 4 ++ [.packet 0x80000002 3 [] {}, .run 0])).closing = false := by
  refine zero_window_closing_fails demoEnv (by simp [demoEnv]) _ ?_ (by decide)
  intro cmd seq body d hm n ac hf
  simp only [muteSteps, List.take_succ_cons, List.take_zero, List.cons_append, List.nil_append, List.mem_cons, Step.packet.injEq, reduceCtorEq, List.not_mem_nil, or_false, false_or, or_self] at hm
  rcases hm with ⟨_, _, _, rfl⟩ | ⟨_, _, _, rfl⟩
  · obtain rfl := Option.some.inj hf; decide
  · cases hf

example : (run demoEnv (muteSteps.take 4 ++ [.packet 0x80000002 3 [] {}, .run 0])).stat = .login ∧
    (run demoEnv (muteSteps.take 4 ++ [.packet 0x80000002 3 [] {}, .run 0])).reqs.length = 2 ∧
    Spec.responseOf (terminateCmd demoEnv.proto) = 0x80000002 := by decide

/-! ## C93: what is not reported -/

/-- C93 fails for SMGP: a submit that names no recipient, or whose account is not found any more when the report is made, is accepted
like any other (at rest, under the conditions of `packet_answered_partial`, its response is on the connection) but never reported, in no
schedule, although the draw allows it: the task panics after the response. -/
theorem smgp_unreported_fails (e : Env) (h16 : ∀ x, (e.md5 x).length = 16) (hp : e.proto = .smgp) (a b : List Step) (seq : UInt32)
    (body : Bytes) (d : Draw) (hv : verdict d = .accepted) (hn : d.conf = none ∨ body.getD 104 0 = 0)
    (hc : (run e (a ++ .packet (submitCmd e.proto) seq body d :: b)).crashed = false)
    (ho : (run e (a ++ .packet (submitCmd e.proto) seq body d :: b)).isOpen = true) :
    (∀ g y, ((run e a).reqs.length, g, y) ∈ (run e (a ++ .packet (submitCmd e.proto) seq body d :: b)).wire →
      command g ≠ be32 (deliverCmd e.proto)) ∧
    (d.account ≠ none ∧ d.minMs < d.maxMs →
      Accounts (fun ac => 1 ≤ ac.mtWindowSize) (a ++ .packet (submitCmd e.proto) seq body d :: b) →
      ((a ++ .packet (submitCmd e.proto) seq body d :: b).filter (onPackets fun c _ _ _ => c = loginCmd e.proto)).length ≤ 1 →
      Settled e (run e (a ++ .packet (submitCmd e.proto) seq body d :: b)) →
      submitResponse (Cmpp.v3 (run e a).ver) e.proto seq body .accepted d.id d.bcd ∈
        frames (run e (a ++ .packet (submitCmd e.proto) seq body d :: b))) := by
  have hk : (submitCmd e.proto, Kind.submit) ∈ chain e.proto := by cases e.proto <;> decide
  have hr := received hk hc ho
  refine ⟨?_, fun hacc hwin hone hs => packet_answered_partial e h16 a b _ seq body d _ ?_ (fun _ _ => hacc) hwin hone hc ho hs⟩
  · intro g y hm hg
    obtain ⟨r, hr', hgood, hE⟩ := wire_entry h16 (inv_run_all e _) hm
    rw [hr] at hr'
    obtain rfl := Option.some.inj hr'
    obtain ⟨pre, post, hw⟩ := List.append_of_mem hm
    obtain ⟨r', hr2, _, hpre⟩ := wire_split (inv_run_all e _) hw
    rw [hr] at hr2
    obtain rfl := Option.some.inj hr2
    have := smgp_needs h16 hgood hp (hpre.subset (by simp)) ((entry_command hgood hE).2 hg)
    rcases hn with hn | hn
    · exact this.1 hn
    · exact this.2 hn
  · simp [answer, hv]

/-- An SMGP session: a login, and a submit without recipients. -/
def sloppyEnv : Env := { proto := .smgp, md5 := fun _ => List.replicate 16 7 }
def sloppyLogin : Bytes := [65, 65, 65, 65, 65, 65, 65, 65] ++ List.replicate 16 7 ++ [2, 0, 0, 0, 1, 0x30]
def sloppyDraw : Draw := { find := fun _ => some { clientId := List.replicate 8 65, version := 0x30, maxConns := 1, mtWindowSize := 1 } }
def sloppyBody : Bytes := List.replicate 105 0 ++ [1, 97] ++ List.replicate 8 0
def sloppySteps : List Step :=
  [.packet 1 1 sloppyLogin sloppyDraw, .run 0, .run 0, .loop] ++
  .packet 2 2 sloppyBody { account := some {}, conf := some {}, bcd := List.replicate 10 1 } :: [.run 0, .run 0, .loop, .run 0]

set_option maxRecDepth 20000 in
theorem sloppy_run : (run sloppyEnv sloppySteps).tasks = [] ∧ (run sloppyEnv sloppySteps).queue = [] ∧
    (run sloppyEnv sloppySteps).crashed = false ∧ (run sloppyEnv sloppySteps).isOpen = true ∧ (run sloppyEnv (sloppySteps.take 4)).ver = 0x30 ∧
    ((run sloppyEnv sloppySteps).wire.map fun x => (command x.2.1, seqOf .smgp x.2.1)) =
      [(be32 0x80000001, be32 1), (be32 0x80000002, be32 2)] := by
  decide +kernel

/-- Its submit is accepted, and not reported. -/
example : submitResponse false .smgp 2 sloppyBody .accepted 0 (List.replicate 10 1) ∈ frames (run sloppyEnv sloppySteps) ∧
    ∀ g y, (1, g, y) ∈ (run sloppyEnv sloppySteps).wire → command g ≠ be32 3 := by
  have h := smgp_unreported_fails sloppyEnv (by simp [sloppyEnv]) rfl (sloppySteps.take 4) (sloppySteps.drop 5) 2 sloppyBody
    { account := some {}, conf := some {}, bcd := List.replicate 10 1 } rfl (.inr (by decide)) sloppy_run.2.2.1 sloppy_run.2.2.2.1
  have hl : (run sloppyEnv (sloppySteps.take 4)).reqs.length = 1 := by decide +kernel
  rw [hl, sloppy_run.2.2.2.2.1] at h
  refine ⟨h.2 (by decide) ?_ (by decide) (settled_of_empty sloppy_run.1 sloppy_run.2.1), h.1⟩
  intro cmd seq body d hm n ac hf
  simp only [sloppySteps, List.take_succ_cons, List.take_zero, List.drop_succ_cons, List.drop_zero, List.cons_append, List.nil_append, List.mem_cons, Step.packet.injEq, reduceCtorEq, List.not_mem_nil,
    or_false, false_or, or_self] at hm
  rcases hm with ⟨_, _, _, rfl⟩ | ⟨_, _, _, rfl⟩
  · obtain rfl := Option.some.inj hf; decide
  · cases hf

set_option maxRecDepth 20000 in
/-- The CMPP session `demoSteps`: the response to its submit is the second frame, its report the third. -/
example : ∃ a seq body d b, demoSteps = a ++ .packet 4 seq body d :: b ∧ (run demoEnv a).reqs.length = 1 ∧
    ((∃ g y, (1, g, y) ∈ (run demoEnv demoSteps).wire.drop 2 ∧ command g = be32 5 ∧
      reportId (Cmpp.v3 (run demoEnv a).ver) .cmpp g = messageId .cmpp d.id d.bcd) ↔ d.noReport = false) := by
  have hw : (run demoEnv demoSteps).wire = (run demoEnv demoSteps).wire.take 1 ++
      (1, submitResponse false .cmpp 2 (Handlers.exampleSubmitBody [97]) .accepted 77 [], .mt) :: (run demoEnv demoSteps).wire.drop 2 := by decide
  obtain ⟨a, seq, body, d, b, h1, h2, h3, h4⟩ := accepted_submit_reported demoEnv (by simp [demoEnv]) (by decide) demoSteps demo_run.2.2.1
    demo_run.2.2.2.1 demo_settled _ _ _ _ _ hw (by decide)
  refine ⟨a, seq, body, d, b, h1, h2, ?_⟩
  have hv : verdict d = .accepted := by
    have hm : Step.packet 4 seq body d ∈ demoSteps := by rw [h1]; exact List.mem_append_right _ List.mem_cons_self
    simp only [demoSteps, List.mem_cons, Step.packet.injEq, reduceCtorEq, List.not_mem_nil, or_false, false_or, or_self] at hm
    rcases hm with ⟨h, _⟩ | ⟨_, _, _, rfl⟩ | ⟨h, _⟩
    · exact absurd h (by decide)
    · rfl
    · exact absurd h (by decide)
  have := h4 hv (fun h => nomatch h)
  refine this.trans ⟨fun h => h.1, fun h => ⟨h, fun h => nomatch h⟩⟩

end Gosms.ServerTraffic

namespace Gosms.ServerTicks
open ServerTraffic (Env After Draw answer verdict Accounts onPackets)
open Handlers Spec.ServerTraffic

theorem replies_split {w : List Item} {p q : List Item} {x : Nat × Bytes × After} (h : w = p ++ .reply x :: q) :
    replies w = replies p ++ x :: replies q := by
  rw [h, replies_append]; rfl

/-- C93, with the server's own frames in between. -/
theorem accepted_submit_reported (gb : Bytes → Option Bytes) (e : Env) (h16 : ∀ x, (e.md5 x).length = 16) (hp : e.proto ≠ .sgip) (t0 : Int)
    (steps : List Step) (hc : (run gb e t0 steps).base.crashed = false) (ho : (run gb e t0 steps).base.isOpen = true)
    (hs : Settled gb e (run gb e t0 steps)) (pre post : List Item) (k : Nat) (f : Bytes) (x : After)
    (hw : (run gb e t0 steps).wire = pre ++ .reply (k, f, x) :: post) (hf : command f = be32 (Spec.responseOf (submitCmd e.proto))) :
    ∃ a seq body d now b, steps = a ++ .base (.packet (submitCmd e.proto) seq body d) now :: b ∧ (run gb e t0 a).base.reqs.length = k ∧
      f = submitResponse (Cmpp.v3 (run gb e t0 a).base.ver) e.proto seq body (verdict d) d.id d.bcd ∧
      (verdict d = .accepted → (e.proto = .smgp → d.bcd.length = 10) →
        ((∃ g y, .reply (k, g, y) ∈ post ∧ command g = be32 (deliverCmd e.proto) ∧
            reportId (Cmpp.v3 (run gb e t0 a).base.ver) e.proto g = messageId e.proto d.id d.bcd) ↔
          d.noReport = false ∧ (e.proto = .smgp → d.conf ≠ none ∧ body.getD 104 0 ≠ 0))) := by
  obtain ⟨s1, s2⟩ := sim_run gb e t0 steps
  have hset := settled_base s1 hs
  have hw' : (ServerTraffic.run e (answering gb e t0 steps)).wire = replies pre ++ (k, f, x) :: replies post := by
    rw [← s2, s1.wire]; exact replies_split hw
  rw [s2] at hc ho hset
  obtain ⟨a', seq, body, d, b', h1, h2, h3, h4⟩ := ServerTraffic.accepted_submit_reported e h16 hp _ hc ho hset _ _ k f x hw' hf
  obtain ⟨a, now, b, h5, h6⟩ := project_packet gb e steps _ a' b' _ seq body d h1
  have h7 : (run gb e t0 a).base = ServerTraffic.run e a' := by rw [(sim_run gb e t0 a).2, answering, h6]
  refine ⟨a, seq, body, d, now, b, h5, by rw [h7]; exact h2, by rw [h7]; exact h3, fun hv hb => ?_⟩
  rw [h7, ← h4 hv hb]
  have hm : ∀ g y, (Item.reply (k, g, y) ∈ post) ↔ (k, g, y) ∈ replies post := by
    intro g y
    constructor
    · intro h; exact List.mem_filterMap.2 ⟨_, h, rfl⟩
    · intro h
      obtain ⟨it, hit, he⟩ := List.mem_filterMap.1 h
      cases it with
      | own => cases he
      | reply z => cases he; exact hit
  simp only [hm]

/-- The session `ownSteps`, with the server's own heartbeat and simulated text, and then a submit. -/
def mixedDraw : Draw := { account := some {}, id := 77, rptId := 78, rptSeq := 9 }
def mixedSteps : List Step :=
  ownSteps ++ .base (.packet 4 2 (Handlers.exampleSubmitBody [97]) mixedDraw) 60000000011 ::
    [.base (.run 0) 60000000012, .base (.run 0) 60000000013, .base .loop 60000000014, .base (.run 0) 60000000015, .base .loop 60000000016,
     .base (.run 0) 60000000017, .base (.run 0) 60000000018]

set_option maxRecDepth 20000 in
theorem mixed_run : (run some ServerTraffic.demoEnv 0 mixedSteps).own.length = 0 ∧ (run some ServerTraffic.demoEnv 0 mixedSteps).queue.length = 0 ∧
    (run some ServerTraffic.demoEnv 0 mixedSteps).base.tasks.length = 0 ∧ (run some ServerTraffic.demoEnv 0 mixedSteps).base.crashed = false ∧
    (run some ServerTraffic.demoEnv 0 mixedSteps).base.isOpen = true ∧ (run some ServerTraffic.demoEnv 0 ownSteps).base.ver = 0x20 ∧
    ((run some ServerTraffic.demoEnv 0 mixedSteps).wire.drop 3).head? =
      some (.reply (1, submitResponse false .cmpp 2 (Handlers.exampleSubmitBody [97]) .accepted 77 [], .mt)) := by
  refine ⟨?_, ?_, ?_, ?_, ?_, ?_, ?_⟩ <;> decide +kernel

/-- Its report is behind the response. -/
example : ∃ g y, Item.reply (1, g, y) ∈ (run some ServerTraffic.demoEnv 0 mixedSteps).wire.drop 4 ∧ command g = be32 5 := by
  obtain ⟨h1, h2, h3, h4, h5, _, h7⟩ := mixed_run
  have hw : (run some ServerTraffic.demoEnv 0 mixedSteps).wire = (run some ServerTraffic.demoEnv 0 mixedSteps).wire.take 3 ++
      .reply (1, submitResponse false .cmpp 2 (Handlers.exampleSubmitBody [97]) .accepted 77 [], .mt) ::
      (run some ServerTraffic.demoEnv 0 mixedSteps).wire.drop 4 := by
    generalize (run some ServerTraffic.demoEnv 0 mixedSteps).wire = w at h7
    rw [← List.take_append_drop 3 w]
    cases hd : w.drop 3 with
    | nil => rw [hd] at h7; cases h7
    | cons x l =>
      rw [hd] at h7
      obtain rfl := Option.some.inj h7
      have hl : (w.take 3).length = 3 := by
        have : (w.drop 3).length = l.length + 1 := by rw [hd]; rfl
        rw [List.length_drop] at this
        rw [List.length_take]; omega
      rw [List.take_left' hl, show 4 = 3 + 1 from rfl, ← List.drop_drop, List.drop_left' hl]
      rfl
  obtain ⟨a, seq, body, d, now, b, q1, _, _, q4⟩ := accepted_submit_reported some ServerTraffic.demoEnv (by simp [ServerTraffic.demoEnv])
    (by decide) 0 mixedSteps h4 h5 (settled_of_empty h1 h2 h3) _ _ _ _ _ hw (by decide)
  have hd : d = mixedDraw := by
    have hm : Step.base (.packet 4 seq body d) now ∈ mixedSteps := by rw [q1]; exact List.mem_append_right _ List.mem_cons_self
    simp only [mixedSteps, ownSteps, List.cons_append, List.nil_append, List.mem_cons, Step.base.injEq, ServerTraffic.Step.packet.injEq, reduceCtorEq, List.not_mem_nil,
      or_false, false_or, or_self, false_and] at hm
    rcases hm with ⟨⟨h, _⟩, _⟩ | ⟨⟨_, _, _, rfl⟩, _⟩
    · exact absurd h (by decide)
    · rfl
  subst hd
  obtain ⟨g, y, h, hg, _⟩ := (q4 rfl (fun h => nomatch h)).2 ⟨rfl, fun h => nomatch h⟩
  exact ⟨g, y, h, hg⟩

end Gosms.ServerTicks
