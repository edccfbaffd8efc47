import Verif.Props.Random
import Verif.Props.ServerAccepted

/-!
# C129: what the configured success rate and delivery rate do to the traffic of a connection

`Server.Mock.SuccessRate` is rolled against twice for a submit: once for the response (cmpp_submit.go:72, smgp_submit.go:73,
sgip_submit.go:71) and once for the report (cmpp_submit.go:106, smgp_submit.go:107). `Server.Mock.Delivery.Rate` is rolled against once
per tick (on_tick.go:117-118). Here the outcomes of the dice in the histories of Model/ServerTraffic.lean and Model/ServerTicks.lean are
those of `diceCheck` (Model/Random.lean). Floating point numbers are a type `F` with an order; `q k` is the number k / 10000.
-/

namespace Gosms.ServerTicks
open ServerTraffic (Env After Draw answer verdict Accounts onPackets)
open Handlers Spec.ServerTraffic
open Random (diceCheck)

variable {F : Type} [LT F] [DecidableLT F]

/-- The two outcomes of a submit are rolls against the success rate in force. -/
def Rolled (q : Nat → F) (rate : F) (d : Draw) : Prop :=
  ∃ r s, d.fail = diceCheck q r rate ∧ d.noReport = diceCheck q s rate

/-- In all the history (the configuration may be changed on the way) the success rate satisfies `P`. -/
def SuccessRates (q : Nat → F) (p : Proto) (P : F → Prop) (steps : List Step) : Prop :=
  ∀ seq body d now, Step.base (.packet (submitCmd p) seq body d) now ∈ steps → ∃ rate, P rate ∧ Rolled q rate d

/-- In all the history the delivery rate satisfies `P`. -/
def DeliveryRates (q : Nat → F) (P : F → Prop) (steps : List Step) : Prop :=
  ∀ d, Step.tick d ∈ steps → ∃ rate r, P rate ∧ d.dice = diceCheck q r rate

/-- Where a submit response comes from, and what it says. -/
theorem submit_response_origin (gb : Bytes → Option Bytes) (e : Env) (h16 : ∀ x, (e.md5 x).length = 16) (t0 : Int) (steps : List Step)
    (f : Bytes) (hf : f ∈ frames (run gb e t0 steps)) (hc : command f = be32 (Spec.responseOf (submitCmd e.proto))) :
    ∃ seq body d now, Step.base (.packet (submitCmd e.proto) seq body d) now ∈ steps ∧ seqOf e.proto f = packetSeq e.proto seq body ∧
      (acceptance e.proto f = true ↔ d.allow = true ∧ d.fail = false) := by
  have hverd : ∀ d : Draw, verdict d = .accepted ↔ d.allow = true ∧ d.fail = false := by
    intro d
    unfold verdict
    cases d.allow <;> cases d.fail <;> simp
  rcases frame_cases hf with h | ⟨x, hx⟩
  · rw [(sim_run gb e t0 steps).2] at h
    obtain ⟨x, hx, rfl⟩ := ServerTraffic.frame_iff.1 h
    obtain ⟨r, hr, hg, hE⟩ := ServerTraffic.wire_entry h16 (ServerTraffic.inv_run_all e _) hx
    have hnr : x.2.2 ≠ .rpt := by
      intro h
      have := (ServerTraffic.entry_report hE h).1
      rw [hc] at this
      exact ServerTraffic.deliver_ne e.proto (ServerTraffic.cmds_lt e.proto).1 this.symm
    obtain ⟨a1, a2, a3⟩ := ServerTraffic.entry_answer hg hE hnr
    have hcmd : r.cmd = submitCmd e.proto := by
      rw [hc] at a1
      exact (ServerTraffic.responseOf_inj (ServerTraffic.cmds_lt e.proto).1 a3 (be32_inj a1)).symm
    have hk := (ServerTraffic.chain_submit hg.1).2 hcmd
    obtain ⟨a', b', hab, _⟩ := ServerTraffic.req_origin e _ _ _ hr
    obtain ⟨a, now, b, h4, _⟩ := project_packet gb e steps _ a' b' _ _ _ _ hab
    refine ⟨r.seq, r.body, r.draw, now, ?_, a2, ?_⟩
    · rw [h4, ← hcmd]; simp
    · rw [← hverd]
      have hx1 : x.2.1 = ServerTraffic.submitAnswer e r := by
        have := ServerTraffic.answer_of_entry hE hnr
        unfold answer at this
        rw [if_pos hcmd] at this
        exact (Option.some.inj this).symm
      rw [hx1, ServerTraffic.submitAnswer, ServerTraffic.acceptance_iff _ _ _ _ _ _ _ (ServerTraffic.good_sgip hg)]
  · obtain ⟨lu, t, o, h⟩ := own_on_wire gb e t0 steps hx
    exact absurd hc ((own_command h).1 _)

/-- C129: the exact meaning of the rate for the responses, whatever the packets and the schedule. A submit response on the connection
accepts if and only if its submit was within the client's throughput limit and its roll, one of the 10000 equally likely numbers
0, 1/10000, ..., 9999/10000, was not above the rate in force. -/
theorem response_by_roll (q : Nat → F) (P : F → Prop) (gb : Bytes → Option Bytes) (e : Env) (h16 : ∀ x, (e.md5 x).length = 16) (t0 : Int)
    (steps : List Step) (hq : SuccessRates q e.proto P steps) (f : Bytes) (hf : f ∈ frames (run gb e t0 steps))
    (hc : command f = be32 (Spec.responseOf (submitCmd e.proto))) :
    ∃ seq body d now rate k, Step.base (.packet (submitCmd e.proto) seq body d) now ∈ steps ∧
      seqOf e.proto f = packetSeq e.proto seq body ∧ P rate ∧ k < 10000 ∧
      (acceptance e.proto f = true ↔ d.allow = true ∧ ¬ rate < q k) := by
  obtain ⟨seq, body, d, now, h1, h2, h3⟩ := submit_response_origin gb e h16 t0 steps f hf hc
  obtain ⟨rate, hP, r, s, hr, _⟩ := hq _ _ _ _ h1
  refine ⟨seq, body, d, now, rate, r % 10000, h1, h2, hP, Nat.mod_lt _ (by decide), ?_⟩
  rw [h3, hr, diceCheck]
  simp

/-- C129, the upper end: with a success rate of 0.9999 or more nothing is refused at random: a response that refuses belongs to a submit
over the client's throughput limit. -/
theorem full_rate_refuses_only_over_limit (q : Nat → F) (gb : Bytes → Option Bytes) (e : Env) (h16 : ∀ x, (e.md5 x).length = 16) (t0 : Int)
    (steps : List Step) (hq : SuccessRates q e.proto (fun rate => ∀ k, k < 10000 → ¬ rate < q k) steps) (f : Bytes)
    (hf : f ∈ frames (run gb e t0 steps)) (hc : command f = be32 (Spec.responseOf (submitCmd e.proto))) (hr : acceptance e.proto f = false) :
    ∃ seq body d now, Step.base (.packet (submitCmd e.proto) seq body d) now ∈ steps ∧ seqOf e.proto f = packetSeq e.proto seq body ∧
      d.allow = false := by
  obtain ⟨seq, body, d, now, rate, k, h1, h2, h3, h4, h5⟩ := response_by_roll q _ gb e h16 t0 steps hq f hf hc
  refine ⟨seq, body, d, now, h1, h2, ?_⟩
  cases ha : d.allow with
  | false => rfl
  | true => rw [h5.2 ⟨ha, h3 k h4⟩] at hr; cases hr

/-- C129, the upper end, reports: with a success rate of 0.9999 or more a CMPP server at rest has written, behind the response to every
accepted submit, its status report. -/
theorem full_rate_reports_all (q : Nat → F) (gb : Bytes → Option Bytes) (e : Env) (h16 : ∀ x, (e.md5 x).length = 16) (hp : e.proto = .cmpp)
    (t0 : Int) (steps : List Step) (hq : SuccessRates q e.proto (fun rate => ∀ k, k < 10000 → ¬ rate < q k) steps)
    (hc : (run gb e t0 steps).base.crashed = false) (ho : (run gb e t0 steps).base.isOpen = true)
    (hs : Settled gb e (run gb e t0 steps)) (pre post : List Item) (k : Nat) (f : Bytes) (x : After)
    (hw : (run gb e t0 steps).wire = pre ++ .reply (k, f, x) :: post) (hf : command f = be32 (Spec.responseOf (submitCmd e.proto)))
    (ha : acceptance e.proto f = true) :
    ∃ g y ver, .reply (k, g, y) ∈ post ∧ command g = be32 (deliverCmd e.proto) ∧
      reportId (Cmpp.v3 ver) e.proto g = (f.drop 12).take 8 := by
  obtain ⟨a, seq, body, d, now, b, h1, h2, h3, h4⟩ :=
    accepted_submit_reported gb e h16 (by rw [hp]; decide) t0 steps hc ho hs pre post k f x hw hf
  have hv : verdict d = .accepted := by
    rw [h3] at ha
    exact (ServerTraffic.acceptance_iff _ _ _ _ _ _ _ (by rw [hp]; intro h; cases h)).1 ha
  obtain ⟨rate, hP, r, s, _, hn⟩ := hq _ _ _ _ (show Step.base (.packet (submitCmd e.proto) seq body d) now ∈ steps by rw [h1]; simp)
  have hn' : d.noReport = false := by
    rw [hn, diceCheck]
    exact decide_eq_false (hP _ (Nat.mod_lt _ (by decide)))
  obtain ⟨g, y, w1, w2, w3⟩ := (h4 hv (by rw [hp]; intro h; cases h)).2 ⟨hn', by rw [hp]; intro h; cases h⟩
  refine ⟨g, y, _, w1, w2, w3.trans ?_⟩
  rw [h3, hv, hp]
  simp only [messageId, submitResponse, response, if_true]
  rw [List.drop_left' (by simp), List.take_left' (by simp)]

/-- C129, below the lower end: with a negative success rate no response ever accepts and no status report is ever written: every delivery on
the connection is a simulated text. -/
theorem negative_rate_accepts_nothing (q : Nat → F) (gb : Bytes → Option Bytes) (e : Env) (h16 : ∀ x, (e.md5 x).length = 16) (t0 : Int)
    (steps : List Step) (hq : SuccessRates q e.proto (fun rate => ∀ k, rate < q k) steps) (f : Bytes) (hf : f ∈ frames (run gb e t0 steps)) :
    (command f = be32 (Spec.responseOf (submitCmd e.proto)) → acceptance e.proto f = false) ∧
    (command f = be32 (deliverCmd e.proto) → ∃ d content number text, Step.tick d ∈ steps ∧ d.enable = true ∧ content ∈ d.contents ∧
      Spec.ServerTicks.entry content number text) := by
  refine ⟨fun hc => ?_, fun hc => ?_⟩
  · obtain ⟨seq, body, d, now, rate, k, h1, h2, h3, h4, h5⟩ := response_by_roll q _ gb e h16 t0 steps hq f hf hc
    cases ha : acceptance e.proto f with
    | false => rfl
    | true => exact absurd (h3 k) (h5.1 ha).2
  · obtain ⟨pre, post, hw⟩ := List.append_of_mem hf
    rcases delivery_origin gb e h16 t0 steps pre post f hw hc with
      ⟨a, seq, body, d, now, b, h1, _, _, _, h5, _⟩ | ⟨a, d, b, i, t, c, cli, content, number, text, h1, _, h3, _, _, h6, h7, _⟩
    · exfalso
      obtain ⟨rate, hP, r, s, hr, _⟩ := hq _ _ _ _ (show Step.base (.packet (submitCmd e.proto) seq body d) now ∈ steps by rw [h1]; simp)
      have : d.fail = true := by rw [hr, diceCheck]; exact decide_eq_true (hP _)
      unfold verdict at h5
      rw [this] at h5
      cases hd : d.allow <;> rw [hd] at h5 <;> cases h5
    · exact ⟨d, content, number, text, by rw [h1]; simp, h3, h6, h7⟩

/-- C129, the lower end, fails: a success rate of 0 does not mean that nothing succeeds. The submit that rolls 0 is accepted - and, rolling 0
again, reported: a server at rest has its accepting response on the connection. -/
theorem zero_rate_accepts_fails (q : Nat → F) (hq : Random.Ordered q) (gb : Bytes → Option Bytes) (e : Env)
    (h16 : ∀ x, (e.md5 x).length = 16) (t0 : Int) (a b : List Step) (seq : UInt32) (body : Bytes) (d : Draw) (now : Int)
    (hallow : d.allow = true) (hroll : d.fail = diceCheck q 0 (q 0)) (hacc : d.account ≠ none ∧ d.minMs < d.maxMs)
    (h8 : e.proto = .sgip → 8 ≤ body.length)
    (hwin : AccountsAll (fun ac => 1 ≤ ac.mtWindowSize) (a ++ .base (.packet (submitCmd e.proto) seq body d) now :: b))
    (hone : ((a ++ .base (.packet (submitCmd e.proto) seq body d) now :: b).filter
      (onPacketSteps fun c _ _ _ => c = loginCmd e.proto)).length ≤ 1)
    (hc : (run gb e t0 (a ++ .base (.packet (submitCmd e.proto) seq body d) now :: b)).base.crashed = false)
    (ho : (run gb e t0 (a ++ .base (.packet (submitCmd e.proto) seq body d) now :: b)).base.isOpen = true)
    (hs : Settled gb e (run gb e t0 (a ++ .base (.packet (submitCmd e.proto) seq body d) now :: b))) :
    ∃ f ∈ frames (run gb e t0 (a ++ .base (.packet (submitCmd e.proto) seq body d) now :: b)),
      command f = be32 (Spec.responseOf (submitCmd e.proto)) ∧ seqOf e.proto f = packetSeq e.proto seq body ∧ acceptance e.proto f = true := by
  have hfail : d.fail = false := by rw [hroll]; exact (Random.rate_zero_fails q hq).2
  have hv : verdict d = .accepted := by rw [verdict, hallow, hfail]; rfl
  have hans : answer e (run gb e t0 a).base.ver (submitCmd e.proto) seq body d =
      some (submitResponse (Cmpp.v3 (run gb e t0 a).base.ver) e.proto seq body .accepted d.id d.bcd) := by
    rw [answer, if_pos rfl, hv]
  have hmem := packet_answered_partial gb e h16 t0 a b _ seq body d now _ hans (fun _ _ => hacc) hwin hone hc ho hs
  exact ⟨_, hmem, (ServerTraffic.answer_command hans).1, (ServerTraffic.answer_command hans).2.2 h8,
    (ServerTraffic.acceptance_iff _ _ _ _ _ _ _ h8).2 rfl⟩

/-- C129: with a negative delivery rate the server sends no simulated text: every delivery is a status report of an accepted submit. -/
theorem negative_delivery_rate_no_texts (q : Nat → F) (gb : Bytes → Option Bytes) (e : Env) (h16 : ∀ x, (e.md5 x).length = 16) (t0 : Int)
    (steps : List Step) (hq : DeliveryRates q (fun rate => ∀ k, rate < q k) steps) (f : Bytes) (hf : f ∈ frames (run gb e t0 steps))
    (hc : command f = be32 (deliverCmd e.proto)) :
    ∃ seq body d now, Step.base (.packet (submitCmd e.proto) seq body d) now ∈ steps ∧ d.allow = true ∧ d.fail = false := by
  obtain ⟨pre, post, hw⟩ := List.append_of_mem hf
  rcases delivery_origin gb e h16 t0 steps pre post f hw hc with
    ⟨a, seq, body, d, now, b, h1, _, _, _, h5, _⟩ | ⟨a, d, b, i, t, c, cli, content, number, text, h1, _, _, h4, _⟩
  · refine ⟨seq, body, d, now, by rw [h1]; simp, ?_⟩
    unfold verdict at h5
    cases hd : d.allow <;> cases hf : d.fail <;> simp [hd, hf] at h5 ⊢
  · exfalso
    obtain ⟨rate, r, hP, hr⟩ := hq d (by rw [h1]; simp)
    rw [h4, diceCheck] at hr
    exact absurd hr (by simp [hP])

/-! ### Examples -/

theorem mixed_rates {F : Type} [LT F] [DecidableLT F] (q : Nat → F) (P : F → Prop) (rate : F) (hP : P rate) (h : ¬ rate < q 0) :
    SuccessRates q .cmpp P mixedSteps := by
  intro seq body d now hm
  refine ⟨rate, hP, 0, 0, ?_⟩
  have h0 : diceCheck q 0 rate = false := decide_eq_false h
  rw [h0]
  simp only [mixedSteps, ownSteps, List.cons_append, List.nil_append, List.mem_cons, Step.base.injEq, ServerTraffic.Step.packet.injEq, reduceCtorEq,
    List.not_mem_nil, or_false, false_or, or_self, false_and, submitCmd] at hm
  rcases hm with ⟨⟨h, _⟩, _⟩ | ⟨⟨_, _, _, rfl⟩, _⟩
  · exact absurd h (by decide)
  · exact ⟨rfl, rfl⟩

/-- The session `mixedSteps` at the rate 1: its submit is accepted and reported. -/
example : ∃ g y ver, Item.reply (1, g, y) ∈ (run some ServerTraffic.demoEnv 0 mixedSteps).wire.drop 4 ∧ command g = be32 5 ∧
    reportId (Cmpp.v3 ver) .cmpp g = [0, 0, 0, 0, 0, 0, 0, 77] := by
  obtain ⟨h1, h2, h3, h4, h5, _, h7⟩ := mixed_run
  have hw : (run some ServerTraffic.demoEnv 0 mixedSteps).wire = (run some ServerTraffic.demoEnv 0 mixedSteps).wire.take 3 ++
      .reply (1, submitResponse false .cmpp 2 (Handlers.exampleSubmitBody [97]) .accepted 77 [], .mt) ::
      (run some ServerTraffic.demoEnv 0 mixedSteps).wire.drop 4 := by
    generalize (run some ServerTraffic.demoEnv 0 mixedSteps).wire = w at h7
    rw [← List.take_append_drop 3 w]
    cases hd : w.drop 3 with
    | nil => rw [hd] at h7; cases h7
    | cons x l =>
      rw [hd] at h7
      obtain rfl := Option.some.inj h7
      have hl : (w.take 3).length = 3 := by
        have : (w.drop 3).length = l.length + 1 := by rw [hd]; rfl
        rw [List.length_drop] at this
        rw [List.length_take]; omega
      rw [List.take_left' hl, show 4 = 3 + 1 from rfl, ← List.drop_drop, List.drop_left' hl]
      rfl
  have hset : Settled some ServerTraffic.demoEnv (run some ServerTraffic.demoEnv 0 mixedSteps) := settled_of_empty h1 h2 h3
  exact full_rate_reports_all (fun k : Nat => k) some ServerTraffic.demoEnv (by simp [ServerTraffic.demoEnv]) rfl 0 mixedSteps
    (mixed_rates _ _ 10000 (fun k hk => by omega) (by omega)) h4 h5 hset _ _ 1 _ _ hw (by decide) (by decide)

/-- The same session at the rate 0: both rolls were 0. -/
example : ∃ f ∈ frames (run some ServerTraffic.demoEnv 0 mixedSteps), command f = be32 0x80000004 ∧ seqOf .cmpp f = be32 2 ∧
    acceptance .cmpp f = true := by
  obtain ⟨h1, h2, h3, h4, h5, _, h7⟩ := mixed_run
  refine zero_rate_accepts_fails (fun k : Nat => k) ⟨fun _ _ h => h, Nat.lt_irrefl, fun _ _ _ => Nat.lt_trans⟩ some ServerTraffic.demoEnv
    (by simp [ServerTraffic.demoEnv]) 0 ownSteps _ 2 _ mixedDraw 60000000011 rfl rfl (by decide) (fun h => nomatch h) ?_ (by decide) h4 h5
    (settled_of_empty h1 h2 h3)
  intro cmd seq body d now hm n ac hf
  simp only [ownSteps, List.cons_append, List.nil_append, List.mem_cons, Step.base.injEq, ServerTraffic.Step.packet.injEq, reduceCtorEq,
    List.not_mem_nil, or_false, false_or, or_self, false_and] at hm
  rcases hm with ⟨⟨_, _, _, rfl⟩, _⟩ | ⟨⟨_, _, _, rfl⟩, _⟩
  · simp only [ServerTraffic.demoDraw, Option.some.injEq] at hf
    subst hf; decide
  · cases hf

/-- A session at the rate -1: the submit is refused; the tick rolls against the delivery rate -1 and sends no text. -/
def refusedSteps : List Step :=
  [.base (.packet 1 1 ServerTraffic.demoLogin ServerTraffic.demoDraw) 0, .base (.run 0) 1, .base (.run 0) 2, .base .loop 5,
   .tick { now := 60000000006, force := 600000000000, enable := true, dice := true, account := some ServerTraffic.demoAccount,
           contents := [ascii "12_,_hi"] },
   .task 0 { now := 60000000007, seq := 9 }, .base .loop 60000000009,
   .base (.packet 4 2 (Handlers.exampleSubmitBody [97]) { mixedDraw with fail := true, noReport := true }) 60000000011,
   .base (.run 0) 60000000012, .base (.run 0) 60000000013, .base .loop 60000000014]

set_option maxRecDepth 20000 in
theorem refused_run : ((frames (run some ServerTraffic.demoEnv 0 refusedSteps)).map fun f => (command f, seqOf .cmpp f, acceptance .cmpp f)) =
    [(be32 0x80000001, be32 1, false), (be32 8, be32 9, true), (be32 0x80000004, be32 2, false)] := by decide +kernel

example : SuccessRates (fun k => (k : Int)) .cmpp (fun rate => ∀ k : Nat, rate < k) refusedSteps ∧
    DeliveryRates (fun k => (k : Int)) (fun rate => ∀ k : Nat, rate < k) refusedSteps := by
  refine ⟨fun seq body d now hm => ⟨-1, fun k => by omega, 0, 0, ?_⟩, fun d hm => ⟨-1, 0, fun k => by omega, ?_⟩⟩
  · simp only [refusedSteps, List.mem_cons, Step.base.injEq, ServerTraffic.Step.packet.injEq, reduceCtorEq, List.not_mem_nil, or_false,
      false_or, or_self, false_and, submitCmd] at hm
    rcases hm with ⟨⟨h, _⟩, _⟩ | ⟨⟨_, _, _, rfl⟩, _⟩
    · exact absurd h (by decide)
    · decide
  · simp only [refusedSteps, List.mem_cons, Step.tick.injEq, reduceCtorEq, List.not_mem_nil, or_false, false_or, or_self] at hm
    subst hm; decide

end Gosms.ServerTicks

namespace Gosms.Random

variable {F : Type} [LT F] [DecidableLT F]

/-- How many of the 10000 * 10000 equally likely pairs of rolls make a submit both accepted and reported. -/
def passingBoth (q : Nat → F) (rate : F) : Nat :=
  (((List.range 10000).flatMap fun r => (List.range 10000).map fun s => (r, s)).filter fun x =>
    !diceCheck q x.1 rate && !diceCheck q x.2 rate).length

theorem filter_pairs (p : Nat → Bool) (l m : List Nat) :
    ((l.flatMap fun r => m.map fun s => (r, s)).filter fun x => p x.1 && p x.2).length = (l.filter p).length * (m.filter p).length := by
  induction l with
  | nil => simp
  | cons a l ih =>
    rw [List.flatMap_cons, List.filter_append, List.length_append, ih, List.filter_map, List.length_map, List.filter_cons]
    cases h : p a with
    | false =>
      have : m.filter ((fun x : Nat × Nat => p x.1 && p x.2) ∘ fun s => (a, s)) = [] := by
        rw [List.filter_eq_nil_iff]; intro s _; simp [h]
      simp [this]
    | true =>
      have : m.filter ((fun x : Nat × Nat => p x.1 && p x.2) ∘ fun s => (a, s)) = m.filter p := by
        apply List.filter_congr; intro s _; simp [h]
      rw [this, if_pos rfl, List.length_cons, Nat.add_mul, Nat.one_mul, Nat.add_comm]

/-- C129: the rate is applied twice. With a success rate of k / 10000 a submit is accepted and reported in (k + 1)² of 10000² cases. -/
theorem rate_applied_twice_fails (q : Nat → F) (h : Ordered q) (k : Nat) (hk : k ≤ 9999) : passingBoth q (q k) = (k + 1) * (k + 1) := by
  unfold passingBoth
  rw [filter_pairs fun r => !diceCheck q r (q k)]
  have := rate_partial q h k hk
  unfold passing at this
  rw [this]

/-- The shipped rate 0.96: 92.18 of 100, not 96. -/
example : passingBoth (fun k : Nat => k) 9600 = 92179201 ∧ 92179201 < 96 * 10000 * 10000 / 100 :=
  ⟨rate_applied_twice_fails (fun k : Nat => k) ⟨fun _ _ h => h, Nat.lt_irrefl, fun _ _ _ => Nat.lt_trans⟩ 9600 (by decide), by decide⟩

end Gosms.Random
