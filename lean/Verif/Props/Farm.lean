import Verif.Props.ServerFrames
import Verif.Props.IdLockIds
import Verif.Spec.Farm

/-! # C127, C128: all connections of a server process -/

namespace Gosms.ServerTraffic
open Handlers Spec.ServerTraffic
open Spec.Farm (idLength accepting given takes)

theorem takes_iff (d : Draw) : takes d = true ↔ verdict d = .accepted := by
  unfold takes verdict
  cases d.allow <;> cases d.fail <;> simp

/-- The id in the response to an accepted submit. -/
def idIn : Proto → Draw → Bytes
  | .cmpp, d => be64 d.id
  | .smgp, d => d.bcd.take 10 ++ List.replicate (10 - d.bcd.length) 0
  | .sgip, _ => []

theorem length_idIn (p : Proto) (d : Draw) : (idIn p d).length = idLength p := by
  cases p <;> simp [idIn, idLength]; omega

theorem submitResponse_id (v3 : Bool) (p : Proto) (hp : p ≠ .sgip) (seq : UInt32) (body : Bytes) (d : Draw) (v : Verdict) :
    (accepting p (submitResponse v3 p seq body v d.id d.bcd) = true ↔ v = .accepted) ∧
    (v = .accepted → ((submitResponse v3 p seq body v d.id d.bcd).drop 12).take (idLength p) = idIn p d) := by
  have e1 : ∀ b, (response (submitCmd p) seq b).drop 12 = b := by
    intro b
    rw [response, List.drop_left' (by simp [Spec.header12])]
  have e2 : ∀ b, (response (submitCmd p) seq b).drop (12 + idLength p) = b.drop (idLength p) := by
    intro b; rw [← List.drop_drop, e1]
  unfold accepting submitResponse
  rw [e1, e2, command_response]
  cases p with
  | sgip => exact absurd rfl hp
  | cmpp =>
    have k : ∀ x : Bytes, ((be64 (if v = .accepted then d.id else 0) ++ x).drop (idLength .cmpp)) = x := by
      intro x; rw [List.drop_left' (by simp [idLength])]
    dsimp only
    rw [k]
    refine ⟨?_, ?_⟩
    · cases v <;> cases v3 <;> simp [code] <;> decide
    · rintro rfl
      rw [List.take_left' (by simp [idLength])]
      rfl
  | smgp =>
    have k : ∀ x : Bytes, (d.bcd.take 10 ++ List.replicate (10 - d.bcd.length) 0 ++ x).drop (idLength .smgp) = x := by
      intro x; rw [List.drop_left' (by simp [idLength]; omega)]
    dsimp only
    rw [k]
    refine ⟨?_, ?_⟩
    · cases v <;> simp [code] <;> decide
    · rintro rfl
      rw [List.take_left' (by simp [idLength]; omega)]
      rfl

/-- What an answering entry with an id is. -/
theorem entry_gives {e : Env} {r : Req} (hg : Good e r) {x : Bytes × After} (hx : Entry e r x) (ha : accepting e.proto x.1 = true) :
    r.cmd = submitCmd e.proto ∧ verdict r.draw = .accepted ∧ (x.1.drop 12).take (idLength e.proto) = idIn e.proto r.draw ∧
      x.2 ≠ .rpt := by
  have ha' := ha
  simp only [accepting, Bool.and_eq_true, bne_iff_ne, beq_iff_eq] at ha'
  obtain ⟨⟨hp, hc⟩, _⟩ := ha'
  have c1 := (cmds_lt e.proto).1
  have hr : x.2 ≠ .rpt := by
    intro h
    have := (entry_command hg hx).1 h
    rw [hc] at this
    exact deliver_ne e.proto c1 this.symm
  obtain ⟨a1, a2, a3⟩ := entry_answer hg hx hr
  rw [hc] at a1
  have hcmd : submitCmd e.proto = r.cmd := responseOf_inj c1 a3 (be32_inj a1)
  have hans := answer_of_entry hx hr
  rw [answer, if_pos hcmd.symm] at hans
  simp only [Option.some.injEq] at hans
  rw [← hans] at ha ⊢
  obtain ⟨k1, k2⟩ := submitResponse_id (Cmpp.v3 r.ver) e.proto hp r.seq r.body r.draw (verdict r.draw)
  have hv := k1.1 ha
  exact ⟨hcmd.symm, hv, k2 hv, hr⟩

theorem count_given (p : Proto) (fs : List Bytes) (x : Bytes) :
    (given p fs).count x = (fs.filter fun f => accepting p f ∧ (f.drop 12).take (idLength p) = x).length := by
  induction fs with
  | nil => rfl
  | cons f fs ih =>
    unfold given at ih ⊢
    rw [List.filter_cons, List.filter_cons]
    by_cases h : accepting p f = true
    · rw [if_pos h, List.map_cons, List.count_cons, ih]
      by_cases h2 : (f.drop 12).take (idLength p) = x <;> simp [h, h2]
    · rw [if_neg h, ih]
      simp [h]

/-- An id is given at most as often as accepted submits had it. -/
theorem given_le (e : Env) (h16 : ∀ x, (e.md5 x).length = 16) (steps : List Step) (x : Bytes) :
    (given e.proto (frames (run e steps))).count x ≤
      (steps.filter (onPackets fun c _ _ d => c = submitCmd e.proto ∧ takes d ∧ idIn e.proto d = x)).length := by
  rw [count_given, frames, List.filter_map, List.length_map]
  refine count_le_packets steps (fun y => decide (accepting e.proto y.1 ∧ (y.1.drop 12).take (idLength e.proto) = x)) _ ?_
  intro r hg
  rcases sends_shape h16 hg with h | ⟨y, rest, h, hy, hyr, _, hrest⟩
  · rw [h]; simp
  · rw [h]
    have hnone : rest.filter (fun y => decide (accepting e.proto y.1 ∧ (y.1.drop 12).take (idLength e.proto) = x)) = [] := by
      rw [List.filter_eq_nil_iff]
      intro z hz h
      simp only [decide_eq_true_eq] at h
      exact (entry_gives hg (hrest z hz).1 h.1).2.2.2 (hrest z hz).2.1
    rw [List.filter_cons, hnone]
    by_cases hP : accepting e.proto y.1 ∧ (y.1.drop 12).take (idLength e.proto) = x
    · obtain ⟨g1, g2, g3, _⟩ := entry_gives hg hy hP.1
      have : r.cmd = submitCmd e.proto ∧ takes r.draw ∧ idIn e.proto r.draw = x := ⟨g1, (takes_iff _).2 g2, by rw [← g3]; exact hP.2⟩
      simp [hP, this]
    · simp [hP]

end Gosms.ServerTraffic

namespace Gosms.ServerTicks
open ServerTraffic (Env)
open Handlers Spec.ServerTraffic
open Spec.Farm (idLength accepting given takes)

theorem given_le (gb : Bytes → Option Bytes) (e : Env) (h16 : ∀ x, (e.md5 x).length = 16) (t0 : Int) (steps : List Step) (x : Bytes) :
    (given e.proto (frames (run gb e t0 steps))).count x ≤
      (steps.filter (onPacketSteps fun c _ _ d => c = submitCmd e.proto ∧ takes d ∧ ServerTraffic.idIn e.proto d = x)).length := by
  rw [ServerTraffic.count_given, filter_frames, ← ServerTraffic.count_given]
  · rw [(sim_run gb e t0 steps).2]
    refine Nat.le_trans (ServerTraffic.given_le e h16 _ x) (Nat.le_of_eq ?_)
    exact project_packets gb e _ steps _
  · intro f y hy
    obtain ⟨lu, t, o, h⟩ := own_on_wire gb e t0 steps hy
    simp [accepting, (own_command h).1 (submitCmd e.proto)]

end Gosms.ServerTicks

namespace Gosms.Farm
open ServerTraffic (Env Draw)
open Handlers Spec.ServerTraffic
open Spec.Farm (idLength accepting given takes cmppIds smgpIds mine)
open ServerTicks (frames)

theorem run_snoc (gb : Bytes → Option Bytes) (envs : Nat → Env) (t0 : Nat → Int) (l : List (Nat × ServerTicks.Step)) (x : Nat × ServerTicks.Step) :
    run gb envs t0 (l ++ [x]) = step gb envs (run gb envs t0 l) x := by simp [run]

theorem mine_snoc (i : Nat) (l : List (Nat × ServerTicks.Step)) (x : Nat × ServerTicks.Step) :
    mine i (l ++ [x]) = mine i l ++ if x.1 = i then [x.2] else [] := by
  simp only [mine, List.filterMap_append, List.filterMap_cons, List.filterMap_nil]
  by_cases h : x.1 = i <;> simp [h]

/-- **C128, the part that holds.** Connections do not touch each other: up to the moment the process ends, each one is as if it were alone, with
the steps that happened on it. The process ends only with a panic on one of them; then all end. -/
theorem connections_isolated_partial (gb : Bytes → Option Bytes) (envs : Nat → Env) (t0 : Nat → Int) (steps : List (Nat × ServerTicks.Step)) :
    ∃ lived after, steps = lived ++ after ∧
      (∀ i, (run gb envs t0 steps).conns i = ServerTicks.run gb (envs i) (t0 i) (mine i lived)) ∧
      (after ≠ [] → ∃ i, (ServerTicks.run gb (envs i) (t0 i) (mine i lived)).base.crashed = true) ∧
      ((run gb envs t0 steps).down = true ↔ ∃ i, ((run gb envs t0 steps).conns i).base.crashed = true) := by
  induction steps using snoc_induction with
  | nil => exact ⟨[], [], rfl, fun i => rfl, by simp, by simp [run]⟩
  | snoc l x ih =>
    obtain ⟨lv, af, h1, h2, h3, h4⟩ := ih
    rw [run_snoc]
    unfold step
    cases hd : (run gb envs t0 l).down with
    | true =>
      simp only [if_true]
      refine ⟨lv, af ++ [x], by rw [h1]; simp, h2, fun _ => ?_, h4⟩
      obtain ⟨i, hi⟩ := h4.1 hd
      exact ⟨i, by rw [← h2]; exact hi⟩
    | false =>
      have haf : af = [] := by
        apply Classical.byContradiction
        intro hne
        obtain ⟨i, hi⟩ := h3 hne
        rw [← h2] at hi
        rw [h4.2 ⟨i, hi⟩] at hd
        cases hd
      subst haf
      rw [List.append_nil] at h1
      subst h1
      have hc : ∀ i, ((run gb envs t0 l).conns i).base.crashed = false := by
        intro i
        cases hi : ((run gb envs t0 l).conns i).base.crashed with
        | false => rfl
        | true => rw [h4.2 ⟨i, hi⟩] at hd; cases hd
      refine ⟨l ++ [x], [], by simp, ?_, by simp, ?_⟩
      · intro i
        simp only [Bool.false_eq_true, if_false]
        rw [mine_snoc]
        by_cases hi : i = x.1
        · subst hi
          rw [if_pos rfl, if_pos rfl, ServerTicks.run_snoc, ← h2]
        · rw [if_neg hi, if_neg (Ne.symm hi), List.append_nil, h2]
      · simp only [Bool.false_eq_true, if_false]
        constructor
        · intro h; exact ⟨x.1, by simpa using h⟩
        · rintro ⟨i, hi⟩
          by_cases hx : i = x.1
          · subst hx; simpa using hi
          · rw [if_neg hx, hc i] at hi; cases hi

/-! ## Counting over all connections -/

/-- A submit with an id on a connection. -/
def gets (envs : Nat → Env) (x : Bytes) (y : Nat × ServerTicks.Step) : Bool :=
  ServerTicks.onPacketSteps (fun c _ _ d => c = submitCmd (envs y.1).proto ∧ takes d ∧ ServerTraffic.idIn (envs y.1).proto d = x) y.2

theorem mine_filter (envs : Nat → Env) (x : Bytes) (i : Nat) (steps : List (Nat × ServerTicks.Step)) :
    ((mine i steps).filter (ServerTicks.onPacketSteps fun c _ _ d =>
      c = submitCmd (envs i).proto ∧ takes d ∧ ServerTraffic.idIn (envs i).proto d = x)).length =
    (steps.filter fun y => decide (y.1 = i) && gets envs x y).length := by
  induction steps with
  | nil => rfl
  | cons y l ih =>
    by_cases h : y.1 = i
    · have e1 : mine i (y :: l) = y.2 :: mine i l := by simp [mine, h]
      rw [e1, List.filter_cons, List.filter_cons]
      subst h
      simp only [decide_true, Bool.true_and, gets] at ih ⊢
      split <;> simp only [List.length_cons, ih]
    · have e1 : mine i (y :: l) = mine i l := by simp [mine, h]
      rw [e1, List.filter_cons, ih]
      simp [h]

theorem split_filter {α : Type} (p q r : α → Bool) (h : ∀ a, p a = true → q a = true → False) (hp : ∀ a, p a = true → r a = true)
    (hq : ∀ a, q a = true → r a = true) (l : List α) : (l.filter p).length + (l.filter q).length ≤ (l.filter r).length := by
  induction l with
  | nil => simp
  | cons a l ih =>
    have := h a
    have h1 := hp a
    have h2 := hq a
    rw [List.filter_cons, List.filter_cons, List.filter_cons]
    cases hpa : p a <;> cases hqa : q a <;> cases hra : r a <;> simp_all <;> omega

/-- Over two connections together an id is given at most as often as accepted submits of the process had it. -/
theorem given_two (gb : Bytes → Option Bytes) (envs : Nat → Env) (h16 : ∀ i x, ((envs i).md5 x).length = 16) (t0 : Nat → Int)
    (steps : List (Nat × ServerTicks.Step)) (x : Bytes) :
    (∀ i, (given (envs i).proto (frames ((run gb envs t0 steps).conns i))).count x ≤ (steps.filter (gets envs x)).length) ∧
    ∀ i j, i ≠ j → (given (envs i).proto (frames ((run gb envs t0 steps).conns i))).count x +
      (given (envs j).proto (frames ((run gb envs t0 steps).conns j))).count x ≤ (steps.filter (gets envs x)).length := by
  obtain ⟨lv, af, h1, h2, _⟩ := connections_isolated_partial gb envs t0 steps
  have key : ∀ i, (given (envs i).proto (frames ((run gb envs t0 steps).conns i))).count x ≤
      (steps.filter fun y => decide (y.1 = i) && gets envs x y).length := by
    intro i
    rw [h2]
    refine Nat.le_trans (ServerTicks.given_le gb (envs i) (h16 i) (t0 i) _ x) ?_
    rw [mine_filter, h1]
    exact ((List.sublist_append_left lv af).filter _).length_le
  refine ⟨fun i => Nat.le_trans (key i) ?_, fun i j hij => Nat.le_trans (Nat.add_le_add (key i) (key j)) ?_⟩
  · have := split_filter (fun y => decide (y.1 = i) && gets envs x y) (fun _ => false) (gets envs x) (by simp) (by simp) (by simp) steps
    omega
  · refine split_filter _ _ _ ?_ (by simp) (by simp) steps
    intro a ha hb
    simp only [Bool.and_eq_true, decide_eq_true_eq] at ha hb
    exact hij (ha.1.symm.trans hb.1)

theorem length_filterMap_count {α β : Type} [BEq β] [LawfulBEq β] (f : α → Option β) (x : β) (l : List α) :
    (l.filterMap f).count x = (l.filter fun a => f a == some x).length := by
  induction l with
  | nil => rfl
  | cons a l ih =>
    rw [List.filterMap_cons, List.filter_cons]
    cases hf : f a with
    | none => simp [ih]
    | some b =>
      rw [List.count_cons, ih]
      by_cases hb : b = x <;> simp [hb]

/-- What the generators guarantee for the ids of the process. -/
theorem gets_le (envs : Nat → Env) (steps : List (Nat × ServerTicks.Step)) (hc : (cmppIds envs steps).Nodup)
    (hs : (smgpIds envs steps).Nodup) (h10 : ∀ b ∈ smgpIds envs steps, b.length = 10) (x : Bytes) (hx : x ≠ []) :
    (steps.filter (gets envs x)).length ≤ 1 := by
  by_cases h8 : x.length = 8
  · obtain ⟨v, rfl⟩ : ∃ v : UInt64, x = be64 v := ⟨rd64 x, (be64_rd64 h8).symm⟩
    refine Nat.le_trans ?_ (List.nodup_iff_count.1 hc v)
    rw [cmppIds, length_filterMap_count]
    rw [← List.countP_eq_length_filter, ← List.countP_eq_length_filter]
    apply List.countP_mono_left
    intro y _ hy
    obtain ⟨i, y⟩ := y
    cases y with
    | tick d => cases hy
    | task k d => cases hy
    | base z now =>
      cases z with
      | packet cmd seq body d =>
        simp only [gets, ServerTicks.onPacketSteps, ServerTraffic.onPackets, decide_eq_true_eq] at hy
        obtain ⟨q1, q2, q3⟩ := hy
        cases hp : (envs i).proto with
        | cmpp =>
          rw [hp] at q1 q3
          have : d.id = v := be64_inj q3
          have q1 : cmd = 4 := q1
          simp [hp, q1, q2, this]
        | smgp =>
          have := ServerTraffic.length_idIn (envs i).proto d
          rw [q3, hp] at this
          simp [idLength] at this
        | sgip =>
          have := ServerTraffic.length_idIn (envs i).proto d
          rw [q3, hp] at this
          simp [idLength] at this
      | run k => cases hy
      | drop k => cases hy
      | loop => cases hy
      | close => cases hy
  · refine Nat.le_trans ?_ (List.nodup_iff_count.1 hs x)
    rw [smgpIds, length_filterMap_count]
    rw [← List.countP_eq_length_filter, ← List.countP_eq_length_filter]
    apply List.countP_mono_left
    intro y hmem hy
    obtain ⟨i, y⟩ := y
    cases y with
    | tick d => cases hy
    | task k d => cases hy
    | base z now =>
      cases z with
      | packet cmd seq body d =>
        simp only [gets, ServerTicks.onPacketSteps, ServerTraffic.onPackets, decide_eq_true_eq] at hy
        obtain ⟨q1, q2, q3⟩ := hy
        have hl := ServerTraffic.length_idIn (envs i).proto d
        rw [q3] at hl
        cases hp : (envs i).proto with
        | cmpp => rw [hp] at hl; exact absurd hl h8
        | sgip => rw [hp] at hl; exact absurd (List.length_eq_zero_iff.1 hl) hx
        | smgp =>
          rw [hp] at q1 q3
          have q1 : cmd = 2 := q1
          have hm : d.bcd ∈ smgpIds envs steps := List.mem_filterMap.2 ⟨_, hmem, by simp [hp, q1, q2]⟩
          have hb := h10 _ hm
          have : d.bcd = x := by
            rw [← q3]
            simp [ServerTraffic.idIn, hb, List.take_of_length_le]
          simp [hp, q1, q2, this]
      | run k => cases hy
      | drop k => cases hy
      | loop => cases hy
      | close => cases hy

/-- Ids have the length of their protocol. -/
theorem given_length (gb : Bytes → Option Bytes) (envs : Nat → Env) (h16 : ∀ i x, ((envs i).md5 x).length = 16) (t0 : Nat → Int)
    (steps : List (Nat × ServerTicks.Step)) (i : Nat) (x : Bytes)
    (hx : x ∈ given (envs i).proto (frames ((run gb envs t0 steps).conns i))) : x.length = idLength (envs i).proto ∧ x ≠ [] := by
  obtain ⟨lv, af, h1, h2, _⟩ := connections_isolated_partial gb envs t0 steps
  have hn : (envs i).proto ≠ .sgip := by
    intro h
    rw [h] at hx
    have : ∀ fs, given .sgip fs = [] := by
      intro fs
      have : fs.filter (accepting .sgip) = [] := List.filter_eq_nil_iff.2 (by intro f _; simp [accepting])
      rw [given, this]; rfl
    rw [this] at hx
    cases hx
  have hpos := List.count_pos_iff.2 hx
  rw [h2] at hpos
  have := Nat.lt_of_lt_of_le hpos (ServerTicks.given_le gb (envs i) (h16 i) (t0 i) _ x)
  obtain ⟨y, hy⟩ := List.exists_mem_of_length_pos this
  have hy := (List.mem_filter.1 hy).2
  have hl : x.length = idLength (envs i).proto := by
    cases y with
    | tick d => cases hy
    | task k d => cases hy
    | base z now =>
      cases z with
      | packet cmd seq body d =>
        simp only [ServerTicks.onPacketSteps, ServerTraffic.onPackets, decide_eq_true_eq] at hy
        rw [← hy.2.2, ServerTraffic.length_idIn]
      | run k => cases hy
      | drop k => cases hy
      | loop => cases hy
      | close => cases hy
  refine ⟨hl, ?_⟩
  rintro rfl
  cases hp : (envs i).proto <;> simp [hp, idLength] at hl hn

/-! ## C127 -/

open IdLock (Op snowBody bcdBody) in
/-- Where the ids of accepted submits come from: every one has a call of its own of the process's generator (codec/cmpp/submit.go:255,
codec/smgp/submit.go:206), made by whatever goroutine at whatever time; the generators are fresh, and their clocks as in C07 and C04. -/
structure Drawn (envs : Nat → Env) (steps : List (Nat × ServerTicks.Step)) (d w : BitVec 64) (ops : List (Op Int)) (tf : BcdSeq) (node : Bytes)
    (bops : List (Op Bytes)) : Prop where
  dc : d.toNat < 8
  worker : w.toNat < 128
  forward : (IdLock.run snowBody (newSnowflake d w) ops).seen.Pairwise (· ≤ ·)
  inRange : ∀ c ∈ (IdLock.run snowBody (newSnowflake d w) ops).seen, SfInRange c
  cmpp : ∀ v, (cmppIds envs steps).count v ≤ (Spec.IdLock.returned (IdLock.run snowBody (newSnowflake d w) ops).log).count v.toBitVec
  hasNode : tf.HasNode node
  fresh : tf.timestamp = []
  minutes : ∀ m ∈ (IdLock.run bcdBody tf bops).seen, IsDigits m ∧ m.length = 8
  never : NeverReturns (IdLock.run bcdBody tf bops).seen
  few : ∀ m ∈ (IdLock.run bcdBody tf bops).seen, (IdLock.run bcdBody tf bops).seen.count m ≤ 1000000
  smgp : ∀ b, (smgpIds envs steps).count b ≤ (Spec.IdLock.returned (IdLock.run bcdBody tf bops).log).count b

theorem mem_taken {σ κ R L : Type} {B : IdLock.Body σ κ R L} {m : σ} {ops : List (IdLock.Op κ)} {r : R}
    (h : r ∈ Spec.IdLock.returned (IdLock.run B m ops).log) : r ∈ Spec.IdLock.taken (IdLock.run B m ops).log := by
  obtain ⟨ev, hev, he⟩ := List.mem_filterMap.1 h
  cases ev with
  | call i => cases he
  | take i r' => cases he
  | ret i r' =>
    cases he
    obtain ⟨a, b, hab⟩ := List.append_of_mem hev
    obtain ⟨w, _, hw⟩ := IdLock.ret_took hab
    refine List.mem_filterMap.2 ⟨.take i r, ?_, rfl⟩
    rw [hab]
    exact List.mem_append_left _ (IdLock.mem_of (i := i) (by rw [hw]; simp))

theorem length_bcd_run (tf : BcdSeq) (ms : List Bytes) : ∀ b ∈ tf.run ms, b.length = 10 := by
  induction ms generalizing tf with
  | nil => intro b hb; cases hb
  | cons m ms ih =>
    intro b hb
    rw [BcdSeq.run] at hb
    rcases List.mem_cons.1 hb with rfl | hb
    · simp [BcdSeq.nextVal]
    · exact ih _ b hb

theorem drawn_nodup {envs : Nat → Env} {steps : List (Nat × ServerTicks.Step)} {d w : BitVec 64} {ops : List (IdLock.Op Int)} {tf : BcdSeq}
    {node : Bytes} {bops : List (IdLock.Op Bytes)} (h : Drawn envs steps d w ops tf node bops) :
    (cmppIds envs steps).Nodup ∧ (smgpIds envs steps).Nodup ∧ ∀ b ∈ smgpIds envs steps, b.length = 10 := by
  refine ⟨?_, ?_, ?_⟩
  · rw [List.nodup_iff_count]
    intro v
    have := (IdLock.snowflake_concurrent d w h.dc h.worker ops h.forward h.inRange).2.2.1
    exact Nat.le_trans (h.cmpp v) (List.nodup_iff_count.1 this _)
  · rw [List.nodup_iff_count]
    intro v
    have := (IdLock.bcd_concurrent tf node h.hasNode h.fresh bops).2 h.minutes h.never h.few
    exact Nat.le_trans (h.smgp v) (List.nodup_iff_count.1 this _)
  · intro b hb
    have hr := List.count_pos_iff.1 (Nat.lt_of_lt_of_le (List.count_pos_iff.2 hb) (h.smgp b))
    obtain ⟨used, rest, _, ht⟩ := (IdLock.bcd_concurrent tf node h.hasNode h.fresh bops).1
    have : b ∈ Spec.IdLock.taken (IdLock.run IdLock.bcdBody tf bops).log := mem_taken hr
    rw [ht] at this
    exact length_bcd_run tf used b this

/-- **C127, ids.** Whatever the packets, connections, goroutines and schedules: over all connections of the process no message id is given to
a client twice, neither on one connection nor on two. -/
theorem message_ids_unique (gb : Bytes → Option Bytes) (envs : Nat → Env) (h16 : ∀ i x, ((envs i).md5 x).length = 16) (t0 : Nat → Int)
    (steps : List (Nat × ServerTicks.Step)) (d w : BitVec 64) (ops : List (IdLock.Op Int)) (tf : BcdSeq) (node : Bytes)
    (bops : List (IdLock.Op Bytes)) (hd : Drawn envs steps d w ops tf node bops) :
    let ids := fun i => given (envs i).proto (frames ((run gb envs t0 steps).conns i))
    (∀ i, (ids i).Nodup) ∧ ∀ i j, i ≠ j → ∀ x ∈ ids i, x ∉ ids j := by
  intro ids
  obtain ⟨n1, n2, n3⟩ := drawn_nodup hd
  refine ⟨fun i => ?_, fun i j hij x hx hx' => ?_⟩
  · rw [List.nodup_iff_count]
    intro x
    by_cases hm : x ∈ ids i
    · have hne := (given_length gb envs h16 t0 steps i x hm).2
      exact Nat.le_trans ((given_two gb envs h16 t0 steps x).1 i) (gets_le envs steps n1 n2 n3 x hne)
    · rw [List.count_eq_zero_of_not_mem hm]; omega
  · have hne := (given_length gb envs h16 t0 steps i x hx).2
    have h1 := (given_two gb envs h16 t0 steps x).2 i j hij
    have h2 := gets_le envs steps n1 n2 n3 x hne
    have h3 := List.count_pos_iff.2 hx
    have h4 := List.count_pos_iff.2 hx'
    simp only [ids] at h3 h4
    omega

/-- Two clients: the first one's submit is accepted while the second one logs in, submits and gets its response and report. -/
def exEnvs : Nat → Env := fun _ => ServerTraffic.demoEnv
def exStart : List ServerTicks.Step :=
  [.base (.packet 1 1 ServerTraffic.demoLogin ServerTraffic.demoDraw) 0, .base (.run 0) 1, .base (.run 0) 2, .base .loop 3, .base (.run 0) 4]
def exSubmit (id : UInt64) : ServerTicks.Step :=
  .base (.packet 4 2 (exampleSubmitBody [97]) { account := some {}, id := id, rptId := 78, rptSeq := 9 }) 5
def exRest : List ServerTicks.Step := [.base (.run 0) 6, .base (.run 0) 7, .base (.run 0) 8, .base .loop 9, .base .loop 10, .base (.run 0) 11]
def exSteps : List (Nat × ServerTicks.Step) :=
  exStart.map (0, ·) ++ [(0, exSubmit 0x1482000)] ++ exStart.map (1, ·) ++ [(1, exSubmit 0x1482001)] ++ exRest.map (1, ·) ++ exRest.map (0, ·)

example : Drawn exEnvs exSteps 1 2 IdLock.threeCalls (newBcdSequence (ascii "123")) (ascii "000123") [] := by
  have hids : cmppIds exEnvs exSteps = [0x1482000, 0x1482001] := by decide
  have hret : Spec.IdLock.returned (IdLock.run IdLock.snowBody (newSnowflake 1 2) IdLock.threeCalls).log =
      [0x1482000#64, 0x1482001#64, 0x2482000#64] := by decide
  have hseen : (IdLock.run IdLock.snowBody (newSnowflake 1 2) IdLock.threeCalls).seen = [1577808000005, 1577808000005, 1577808000009] := by decide
  have hsm : smgpIds exEnvs exSteps = [] := by decide
  have hb : (IdLock.run IdLock.bcdBody (newBcdSequence (ascii "123")) []).seen = [] := rfl
  refine ⟨by decide, by decide, ?_, ?_, ?_, ?_, rfl, ?_, ?_, ?_, ?_⟩
  · rw [hseen]; decide
  · rw [hseen]
    intro c hc
    simp only [List.mem_cons, List.not_mem_nil, or_false] at hc
    rcases hc with rfl | rfl | rfl <;> exact ⟨by decide, by decide⟩
  · rw [hids, hret]
    intro v
    by_cases h1 : v = 0x1482000
    · subst h1; decide
    · by_cases h2 : v = 0x1482001
      · subst h2; decide
      · have : (0x1482000 : UInt64) ≠ v := Ne.symm h1
        have : (0x1482001 : UInt64) ≠ v := Ne.symm h2
        rw [List.count_eq_zero_of_not_mem (by simp [h1, h2])]; omega
  · refine ⟨?_, by decide, ?_⟩
    · intro c hc
      have : c ∈ ([0x30, 0x30, 0x30, 0x31, 0x32, 0x33] : Bytes) := by simpa [ascii] using hc
      simp at this; rcases this with h | h | h | h <;> subst h <;> decide
    · have : (runes (ascii "123")) = [0x31, 0x32, 0x33] := by
        have h := runes_utf8 "123".toList
        have e : utf8 "123".toList = ascii "123" := by decide
        rw [e] at h; rw [h]; decide
      simp only [newBcdSequence, this]; decide
  · rw [hb]; simp
  · rw [hb]; intro i j k hk; exact absurd hk (by simp)
  · rw [hb]; simp
  · rw [hsm]; simp

set_option maxRecDepth 20000 in
/-- Each client gets its login response, its submit response with its id, and its report. -/
example : given .cmpp (frames ((run some exEnvs (fun _ => 0) exSteps).conns 0)) = [be64 0x1482000] ∧
    given .cmpp (frames ((run some exEnvs (fun _ => 0) exSteps).conns 1)) = [be64 0x1482001] ∧
    (frames ((run some exEnvs (fun _ => 0) exSteps).conns 0)).map command = [be32 0x80000001, be32 0x80000004, be32 5] ∧
    ((frames ((run some exEnvs (fun _ => 0) exSteps).conns 1)).drop 2).map (reportId false .cmpp) = [be64 0x1482001] := by
  decide +kernel

/-- The frame is one of the simulated texts from handsets (on_tick.go:111-165), for an entry of the configuration. -/
def SimulatedText (gb : Bytes → Option Bytes) (e : Env) (steps : List ServerTicks.Step) (f : Bytes) : Prop :=
  ∃ d i t cli content number text, ServerTicks.Step.tick d ∈ steps ∧ ServerTicks.Step.task i t ∈ steps ∧ d.enable = true ∧ d.account = some cli ∧
    content ∈ d.contents ∧ Spec.ServerTicks.entry content number text ∧
      (e.proto = .cmpp ∧ (Cmpp.newDelivery cli (ascii "18600001111") text number cli.serviceId t.seq t.id).encode t.g = some f ∨
       e.proto = .smgp ∧ (Smgp.newDeliver gb cli (ascii "13300001111") number text t.seq t.bcd t.clock).encode = some f)

/-- **C127, reports.** A delivery written on a connection is a simulated text or a report about a message accepted on this connection before:
its id is the one given in an accepting response already written on this connection, and no response on any other connection has it. -/
theorem report_for_own_message (gb : Bytes → Option Bytes) (envs : Nat → Env) (h16 : ∀ i x, ((envs i).md5 x).length = 16) (t0 : Nat → Int)
    (steps : List (Nat × ServerTicks.Step)) (d w : BitVec 64) (ops : List (IdLock.Op Int)) (tf : BcdSeq) (node : Bytes)
    (bops : List (IdLock.Op Bytes)) (hd : Drawn envs steps d w ops tf node bops) (i : Nat) (pre post : List Bytes) (f : Bytes)
    (hw : frames ((run gb envs t0 steps).conns i) = pre ++ f :: post) (hc : command f = be32 (deliverCmd (envs i).proto)) :
    SimulatedText gb (envs i) (mine i steps) f ∨
    ∃ v3, reportId v3 (envs i).proto f ∈ given (envs i).proto pre ∧
      ∀ j, j ≠ i → reportId v3 (envs i).proto f ∉ given (envs j).proto (frames ((run gb envs t0 steps).conns j)) := by
  obtain ⟨lv, af, h1, h2, _⟩ := connections_isolated_partial gb envs t0 steps
  have hsub : ∀ y ∈ mine i lv, y ∈ mine i steps := by
    intro y hy
    rw [h1]
    simp only [mine, List.filterMap_append, List.mem_append] at hy ⊢
    exact .inl hy
  have hw' := hw
  rw [h2] at hw'
  rcases ServerTicks.delivery_origin gb (envs i) (h16 i) (t0 i) (mine i lv) pre post f hw' hc with
    ⟨a, seq, body, dr, now, b, q1, q2, q3, q4, q5, q6, q7⟩ | ⟨a, dr, b, k, t, c, cli, content, number, text, q1, q2, q3, q4, q5, q6, q7, q8⟩
  · right
    obtain ⟨n1, n2, n3⟩ := drawn_nodup hd
    have hp : (envs i).proto ≠ .sgip := by
      intro hp
      have : f ∈ frames (ServerTicks.run gb (envs i) (t0 i) (mine i lv)) := by rw [hw']; simp
      rcases ServerTicks.frame_cases this with h | ⟨x, hx⟩
      · rw [(ServerTicks.sim_run gb (envs i) (t0 i) (mine i lv)).2] at h
        obtain ⟨x, hx, hxf⟩ := ServerTraffic.frame_iff.1 h
        obtain ⟨r, hr, hg, hE⟩ := ServerTraffic.wire_entry (h16 i) (ServerTraffic.inv_run_all (envs i) _) hx
        have hrpt := (ServerTraffic.entry_command hg hE).2 (by rw [hxf]; exact hc)
        exact (ServerTraffic.entry_report hE hrpt).2.2.2.1 hp
      · obtain ⟨lu, t, o, h⟩ := ServerTicks.own_on_wire gb (envs i) (t0 i) _ hx
        have hdly := (ServerTicks.own_command h).2.2.1.2 hc
        exact ((ServerTicks.sent_command h).2.1 hdly).1 hp
    have hmem : (i, ServerTicks.Step.base (.packet (submitCmd (envs i).proto) seq body dr) now) ∈ steps := by
      have : ServerTicks.Step.base (.packet (submitCmd (envs i).proto) seq body dr) now ∈ mine i steps := hsub _ (by rw [q1]; simp)
      obtain ⟨⟨y1, y2⟩, hy, he⟩ := List.mem_filterMap.1 this
      by_cases hyi : y1 = i
      · rw [if_pos hyi] at he
        simp only [Option.some.injEq] at he
        subst hyi
        rw [he] at hy
        exact hy
      · rw [if_neg hyi] at he; cases he
    have h10 : (envs i).proto = .smgp → dr.bcd.length = 10 := by
      intro hsm
      refine n3 _ (List.mem_filterMap.2 ⟨_, hmem, ?_⟩)
      have ht := (ServerTraffic.takes_iff dr).2 q5
      simp [hsm, ht, submitCmd]
    obtain ⟨k1, k2⟩ := ServerTraffic.submitResponse_id (Cmpp.v3 (ServerTicks.run gb (envs i) (t0 i) a).base.ver) (envs i).proto hp seq body dr .accepted
    have hid : messageId (envs i).proto dr.id dr.bcd = ServerTraffic.idIn (envs i).proto dr := by
      cases hpp : (envs i).proto with
      | cmpp => rfl
      | smgp => simp [messageId, ServerTraffic.idIn, h10 hpp, List.take_of_length_le]
      | sgip => exact absurd hpp hp
    have hin : ServerTraffic.idIn (envs i).proto dr ∈ given (envs i).proto pre :=
      List.mem_map.2 ⟨_, List.mem_filter.2 ⟨q6, k1.2 rfl⟩, k2 rfl⟩
    refine ⟨_, by rw [q7 h10, hid]; exact hin, fun j hj => ?_⟩
    rw [q7 h10, hid]
    refine (message_ids_unique gb envs h16 t0 steps d w ops tf node bops hd).2 i j (Ne.symm hj) _ ?_
    dsimp only
    rw [hw]
    simp only [given, List.filter_append, List.map_append, List.mem_append] at hin ⊢
    exact .inl hin
  · exact .inl ⟨dr, k, t, cli, content, number, text, hsub _ (by rw [q1]; simp), hsub _ (by rw [q1]; simp), q3, q5, q6, q7, q8⟩

/-! ## C128 -/

theorem down_stays (gb : Bytes → Option Bytes) (envs : Nat → Env) (more : List (Nat × ServerTicks.Step)) : ∀ s : State, s.down = true →
    more.foldl (step gb envs) s = s := by
  induction more with
  | nil => intro s _; rfl
  | cons x l ih =>
    intro s hs
    have : step gb envs s x = s := by rw [step, if_pos hs]
    rw [List.foldl_cons, this, ih s hs]

/-- **C128 fails.** Whoever can connect ends the service of all: while the process runs, a login packet with a short body on any open connection -
also one never logged in - is the last thing that happens. Whatever comes after it, on no other connection anything changes any more, and
nothing is written. -/
theorem one_packet_ends_all_fails (gb : Bytes → Option Bytes) (envs : Nat → Env) (t0 : Nat → Int) (steps more : List (Nat × ServerTicks.Step))
    (i : Nat) (seq : UInt32) (body : Bytes) (dr : Draw) (now : Int) (hup : (run gb envs t0 steps).down = false)
    (hopen : ((run gb envs t0 steps).conns i).base.isOpen = true) (hshort : body.length < Spec.loginSize (envs i).proto) :
    let s := run gb envs t0 steps
    let s' := run gb envs t0 (steps ++ (i, .base (.packet (Spec.loginCommand (envs i).proto) seq body dr) now) :: more)
    s'.down = true ∧ (∀ j, j ≠ i → s'.conns j = s.conns j) ∧ ∀ j, frames (s'.conns j) = frames (s.conns j) := by
  intro s s'
  obtain ⟨lv, af, h1, h2, h3, h4⟩ := connections_isolated_partial gb envs t0 steps
  have hcr : (s.conns i).base.crashed = false := by
    cases hi : (s.conns i).base.crashed with
    | false => rfl
    | true => rw [h4.2 ⟨i, hi⟩] at hup; cases hup
  have hserve : ∀ stat, serve (envs i).gbDec (envs i).proto stat (s.conns i).base.ver (Spec.loginCommand (envs i).proto) seq body = .crash := by
    intro stat
    rw [event_loop_crash_partial]
    refine ⟨.login, by cases (envs i).proto <;> decide, .inl rfl, ?_⟩
    revert hshort
    cases (envs i).proto <;> simp only [Spec.BodyComplete, Spec.loginSize] <;> omega
  have hstep : (ServerTicks.step gb (envs i) (s.conns i) (.base (.packet (Spec.loginCommand (envs i).proto) seq body dr) now)).base.crashed = true ∧
      frames (ServerTicks.step gb (envs i) (s.conns i) (.base (.packet (Spec.loginCommand (envs i).proto) seq body dr) now)) = frames (s.conns i) := by
    unfold ServerTicks.step
    rw [if_neg (by rw [hcr, hopen]; simp)]
    refine ⟨?_, rfl⟩
    show (ServerTraffic.step _ _ _).crashed = true
    rw [ServerTraffic.step, if_neg (by rw [hcr, hopen]; simp)]
    simp only [ServerTraffic.onPacket, hserve]
  have hs' : s' = step gb envs s (i, .base (.packet (Spec.loginCommand (envs i).proto) seq body dr) now) := by
    show (steps ++ _ :: more).foldl _ _ = _
    rw [List.foldl_append, List.foldl_cons]
    refine down_stays gb envs more _ ?_
    show (step gb envs s _).down = true
    rw [step, hup]
    exact hstep.1
  have hex : step gb envs s (i, .base (.packet (Spec.loginCommand (envs i).proto) seq body dr) now) =
      { conns := fun j => if j = i then ServerTicks.step gb (envs i) (s.conns i) (.base (.packet (Spec.loginCommand (envs i).proto) seq body dr) now)
                          else s.conns j, down := true } := by
    rw [step, hup]
    simp only [Bool.false_eq_true, if_false, hstep.1]
  rw [hs', hex]
  refine ⟨rfl, fun j hj => if_neg hj, fun j => ?_⟩
  by_cases hj : j = i
  · subst hj; simp only [if_true]; exact hstep.2
  · simp only [if_neg hj]

/-- The second client's short login packet comes before the first one's answer is written: it never will be. -/
example : (run some exEnvs (fun _ => 0) (exSteps.take 11)).down = false ∧
    ((run some exEnvs (fun _ => 0) (exSteps.take 11)).conns 1).base.isOpen = true ∧
    ((run some exEnvs (fun _ => 0) (exSteps.take 11 ++ (1, .base (.packet 1 2 [] {}) 6) :: exSteps.drop 11)).conns 0).wire.length = 1 ∧
    ((run some exEnvs (fun _ => 0) exSteps).conns 0).wire.length = 3 := by
  decide +kernel

end Gosms.Farm
