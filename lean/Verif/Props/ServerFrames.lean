import Verif.Props.ServerOwn

/-! # Everything the server writes on a connection: answers and its own frames (C76, C77, C79, C80, C90) -/

namespace Gosms.ServerTicks
open ServerTraffic (Env After Draw answer verdict Accounts onPackets)
open Handlers Spec.ServerTraffic
open Spec.ServerTicks (heartbeat termination entry)

def Item.frame : Item → Bytes
  | .reply x => x.2.1
  | .own f _ => f

/-- The frames written on the connection, in order. -/
def frames (s : State) : List Bytes := s.wire.map Item.frame

/-- A packet arrives. -/
def onPacketSteps (q : UInt32 → UInt32 → Bytes → Draw → Bool) : Step → Bool
  | .base x _ => onPackets q x
  | _ => false

/-- The accounts that can be looked up satisfy `P`. -/
def AccountsAll (P : AuthConf → Prop) (steps : List Step) : Prop :=
  ∀ cmd seq body d now, Step.base (.packet cmd seq body d) now ∈ steps → ∀ n ac, d.find n = some ac → P ac

/-! ## Commands of own frames -/

theorem sent_command {gb : Bytes → Option Bytes} {p : Proto} {lu : Int} {d : TaskDraw} {o : Own} {f : Bytes} {x : OwnAfter}
    (h : Sent gb p lu d o f x) :
    (x = .beat → ∃ c, activeCmd p = some c ∧ command f = be32 c) ∧ (x = .dly → p ≠ .sgip ∧ command f = be32 (deliverCmd p)) ∧
    (x = .close → command f = be32 (terminateCmd p)) := by
  cases h with
  | active f h1 h2 =>
    refine ⟨fun _ => ?_, by simp, by simp⟩
    cases p with
    | cmpp => exact ⟨8, rfl, by simp only [heartbeat, Option.some.injEq] at h1; subst h1; simp [command, Spec.header12]⟩
    | smgp => exact ⟨4, rfl, by simp only [heartbeat, Option.some.injEq] at h1; subst h1; simp [command, Spec.header12]⟩
    | sgip => cases h1
  | cmpp cli number text f hp h1 =>
    subst hp
    exact ⟨by simp, fun _ => ⟨by simp, by rw [command, Cmpp.delivery_cmd h1]; rfl⟩, by simp⟩
  | smgp cli number text f hp h1 =>
    subst hp
    exact ⟨by simp, fun _ => ⟨by simp, by rw [command, Smgp.delivery_cmd h1]; rfl⟩, by simp⟩
  | terminate =>
    refine ⟨by simp, by simp, fun _ => ?_⟩
    cases p <;> simp [termination, command, Spec.header12, Spec.header20, terminateCmd]

theorem small_ne {c c' : UInt32} (h : c.toNat ≤ 8) : be32 c ≠ be32 (Spec.responseOf c') := by
  intro hh
  have := congrArg UInt32.toNat (be32_inj hh)
  rw [Spec.responseOf, UInt32.toNat_or] at this
  have h2 : 0x80000000 ≤ c'.toNat ||| (0x80000000 : UInt32).toNat := Nat.right_le_or
  omega

/-- An own frame is no response, and its command tells its kind. -/
theorem own_command {gb : Bytes → Option Bytes} {p : Proto} {lu : Int} {d : TaskDraw} {o : Own} {f : Bytes} {x : OwnAfter}
    (h : Sent gb p lu d o f x) : (∀ c, command f ≠ be32 (Spec.responseOf c)) ∧
    (x = .beat ↔ ∃ c, activeCmd p = some c ∧ command f = be32 c) ∧ (x = .dly ↔ command f = be32 (deliverCmd p)) ∧
    (x = .close ↔ command f = be32 (terminateCmd p)) := by
  obtain ⟨h1, h2, h3⟩ := sent_command h
  have k1 : ∀ p c, activeCmd p = some c → c.toNat ≤ 8 ∧ c ≠ deliverCmd p ∧ c ≠ terminateCmd p := by
    intro p c hc; cases p <;> simp [activeCmd] at hc <;> subst hc <;> decide
  have k2 : ∀ p, (deliverCmd p).toNat ≤ 8 ∧ (terminateCmd p).toNat ≤ 8 ∧ deliverCmd p ≠ terminateCmd p := by
    intro p; cases p <;> decide
  have n1 : ∀ {a b : UInt32}, a ≠ b → be32 a ≠ be32 b := fun hab hh => hab (be32_inj hh)
  cases x with
  | beat =>
    obtain ⟨c, hc, hf⟩ := h1 rfl
    obtain ⟨k, k', k''⟩ := k1 p c hc
    refine ⟨fun c' => by rw [hf]; exact small_ne k, ⟨fun _ => ⟨c, hc, hf⟩, fun _ => rfl⟩, ⟨by simp, fun hh => ?_⟩, ⟨by simp, fun hh => ?_⟩⟩
    · rw [hf] at hh; exact absurd hh (n1 k')
    · rw [hf] at hh; exact absurd hh (n1 k'')
  | dly =>
    have hf := (h2 rfl).2
    refine ⟨fun c' => by rw [hf]; exact small_ne (k2 p).1, ⟨by simp, ?_⟩, ⟨fun _ => hf, fun _ => rfl⟩, ⟨by simp, fun hh => ?_⟩⟩
    · rintro ⟨c, hc, hh⟩
      rw [hf] at hh; exact absurd hh.symm (n1 (k1 p c hc).2.1)
    · rw [hf] at hh; exact absurd hh (n1 (k2 p).2.2)
  | close =>
    have hf := h3 rfl
    refine ⟨fun c' => by rw [hf]; exact small_ne (k2 p).2.1, ⟨by simp, ?_⟩, ⟨by simp, fun hh => ?_⟩, ⟨fun _ => hf, fun _ => rfl⟩⟩
    · rintro ⟨c, hc, hh⟩
      rw [hf] at hh; exact absurd hh.symm (n1 (k1 p c hc).2.2)
    · rw [hf] at hh; exact absurd hh.symm (n1 (k2 p).2.2)

/-! ## Where in the run a frame was written -/

theorem run_append (gb : Bytes → Option Bytes) (e : Env) (t0 : Int) (a b : List Step) :
    run gb e t0 (a ++ b) = b.foldl (step gb e) (run gb e t0 a) := by simp [run]

/-- What a step writes: nothing, or the head of the queue. -/
theorem step_wire (gb : Bytes → Option Bytes) (e : Env) (s : State) (x : Step) : (step gb e s x).wire = s.wire ∨
    ∃ now it q, x = .base .loop now ∧ s.base.crashed = false ∧ s.base.isOpen = true ∧ s.queue = it :: q ∧
      (step gb e s x).wire = s.wire ++ [it] := by
  unfold step
  by_cases hd : s.base.crashed ∨ s.base.isOpen = false
  · rw [if_pos hd]; exact .inl rfl
  rw [if_neg hd]
  have h1 : s.base.crashed = false := by simpa using fun h => hd (.inl h)
  have h2 : s.base.isOpen = true := by simpa using fun h => hd (.inr h)
  cases x with
  | base z now =>
    cases z with
    | loop =>
      simp only [onLoop]
      cases hq : s.queue with
      | nil => exact .inl rfl
      | cons it q =>
        refine .inr ⟨now, it, q, rfl, h1, h2, rfl, ?_⟩
        cases it with
        | reply x => rfl
        | own f a => cases a <;> rfl
    | run i => exact .inl (onRun_same s i now).2.2.1
    | packet c q b d => exact .inl rfl
    | drop i => exact .inl rfl
    | close => exact .inl rfl
  | tick d => exact .inl (onTick_same s d).2.2.1
  | task i d => exact .inl (onTask_same gb e s i d).2.1

theorem wire_prefix (gb : Bytes → Option Bytes) (e : Env) (b : List Step) : ∀ s : State, s.wire <+: (b.foldl (step gb e) s).wire := by
  induction b with
  | nil => intro s; exact List.prefix_refl _
  | cons x b ih =>
    intro s
    refine List.IsPrefix.trans ?_ (ih _)
    rcases step_wire gb e s x with h | ⟨_, _, _, _, _, _, _, h⟩
    · rw [h]; exact List.prefix_refl _
    · rw [h]; exact List.prefix_append _ _

/-- A written frame was at the head of the queue when the event loop wrote it; what precedes it was written then. -/
theorem written_at (gb : Bytes → Option Bytes) (e : Env) (t0 : Int) (steps : List Step) : ∀ (pre post : List Item) (it : Item),
    (run gb e t0 steps).wire = pre ++ it :: post →
    ∃ a now b q, steps = a ++ .base .loop now :: b ∧ (run gb e t0 a).wire = pre ∧ (run gb e t0 a).queue = it :: q ∧
      (run gb e t0 a).base.crashed = false ∧ (run gb e t0 a).base.isOpen = true := by
  induction steps using snoc_induction with
  | nil => intro pre post it h; simp [run] at h
  | snoc l y ih =>
    intro pre post it h
    rw [run_snoc] at h
    rcases step_wire gb e (run gb e t0 l) y with hw | ⟨now, it', q, h1, h2, h3, h4, hw⟩
    · rw [hw] at h
      obtain ⟨a, now, b, q, e1, e2⟩ := ih pre post it h
      exact ⟨a, now, b ++ [y], q, by rw [e1]; simp, e2⟩
    · rw [hw] at h
      rcases List.eq_nil_or_concat post with hp | ⟨post', z, hp⟩
      · subst hp
        obtain ⟨h5, h6⟩ := List.append_inj' h rfl
        simp only [List.cons.injEq, and_true] at h6
        subst h6
        exact ⟨l, now, [], q, by rw [h1], h5, h4, h2, h3⟩
      · subst hp
        have e2 : pre ++ it :: (post'.concat z) = (pre ++ it :: post') ++ [z] := by simp
        rw [e2] at h
        obtain ⟨a, now', b, q', e1, e3⟩ := ih pre post' it (List.append_inj' h rfl).1
        exact ⟨a, now', b ++ [y], q', by rw [e1]; simp, e3⟩

/-- An own frame on the wire, with everything written before its tick written before it. -/
theorem own_written (gb : Bytes → Option Bytes) (e : Env) (t0 : Int) (steps : List Step) {pre post : List Item} {f : Bytes} {x : OwnAfter}
    (h : (run gb e t0 steps).wire = pre ++ .own f x :: post) :
    ∃ a d b i t c o, steps = a ++ .tick d :: b ++ .task i t :: c ∧ Started (run gb e t0 a) d o ∧
      Sent gb e.proto (run gb e t0 (a ++ .tick d :: b)).lastUse t o f x ∧ (run gb e t0 a).wire <+: pre ∧
      (run gb e t0 (a ++ .tick d :: b)).wire <+: pre := by
  obtain ⟨l, now, r, q, h1, h2, h3, _⟩ := written_at gb e t0 steps _ _ _ h
  obtain ⟨a', i, t, c, o, h4, ⟨a, d, b, h5, h6⟩, h7⟩ := (own_inv gb e t0 l).2 f x (by rw [h3]; simp)
  refine ⟨a, d, b, i, t, c ++ .base .loop now :: r, o, by rw [h1, h4, h5]; simp, h6, by rw [← h5]; exact h7, ?_, ?_⟩
  · rw [← h2, h4, h5, List.append_assoc, run_append]; exact wire_prefix gb e _ _
  · rw [← h2, h4, h5, run_append gb e t0 (a ++ .tick d :: b)]; exact wire_prefix gb e _ _

/-! ## Own frames do not look like responses -/

theorem filter_frames (gb : Bytes → Option Bytes) (e : Env) (t0 : Int) (steps : List Step) (P : Bytes → Bool)
    (hP : ∀ f x, Item.own f x ∈ (run gb e t0 steps).wire → P f = false) :
    (frames (run gb e t0 steps)).filter P = (ServerTraffic.frames (run gb e t0 steps).base).filter P := by
  have hw := (sim_run gb e t0 steps).1.wire
  unfold frames ServerTraffic.frames
  rw [hw]
  generalize (run gb e t0 steps).wire = w at *
  clear hw
  induction w with
  | nil => rfl
  | cons it w ih =>
    have ih := ih fun f x hx => hP f x (List.mem_cons_of_mem _ hx)
    cases it with
    | reply x =>
      have e1 : replies (Item.reply x :: w) = x :: replies w := rfl
      rw [e1, List.map_cons, List.map_cons, List.filter_cons, List.filter_cons, ih]
      rfl
    | own f x =>
      rw [replies_own, List.map_cons, List.filter_cons, ih]
      have : P (Item.own f x).frame = false := hP f x List.mem_cons_self
      rw [this]
      simp

theorem own_on_wire (gb : Bytes → Option Bytes) (e : Env) (t0 : Int) (steps : List Step) {f : Bytes} {x : OwnAfter}
    (h : Item.own f x ∈ (run gb e t0 steps).wire) : ∃ lu t o, Sent gb e.proto lu t o f x := by
  obtain ⟨a, i, t, b, o, _, _, h⟩ := (own_inv gb e t0 steps).2 f x (List.mem_append_left _ h)
  exact ⟨_, t, o, h⟩

theorem frame_cases {gb : Bytes → Option Bytes} {e : Env} {t0 : Int} {steps : List Step} {f : Bytes}
    (hf : f ∈ frames (run gb e t0 steps)) : f ∈ ServerTraffic.frames (run gb e t0 steps).base ∨
      ∃ x, Item.own f x ∈ (run gb e t0 steps).wire := by
  obtain ⟨it, hit, rfl⟩ := List.mem_map.1 hf
  cases it with
  | own f x => exact .inr ⟨x, hit⟩
  | reply x =>
    refine .inl (ServerTraffic.frame_iff.2 ⟨x, ?_, rfl⟩)
    rw [(sim_run gb e t0 steps).1.wire]
    exact List.mem_filterMap.2 ⟨_, hit, rfl⟩

theorem base_frames {gb : Bytes → Option Bytes} {e : Env} {t0 : Int} {steps : List Step} {f : Bytes}
    (hf : f ∈ ServerTraffic.frames (run gb e t0 steps).base) : f ∈ frames (run gb e t0 steps) := by
  obtain ⟨x, hx, rfl⟩ := ServerTraffic.frame_iff.1 hf
  rw [(sim_run gb e t0 steps).1.wire] at hx
  obtain ⟨it, hit, he⟩ := List.mem_filterMap.1 hx
  cases it with
  | own f x => cases he
  | reply y => cases he; exact List.mem_map.2 ⟨_, hit, rfl⟩

/-! ## C76: answers among everything the server writes -/

/-- C76, with the server's own frames: at most one response per request. -/
theorem response_at_most_once (gb : Bytes → Option Bytes) (e : Env) (h16 : ∀ x, (e.md5 x).length = 16) (t0 : Int) (steps : List Step)
    (cmd : UInt32) (hcmd : cmd < 0x80000000) (n : Bytes) :
    ((frames (run gb e t0 steps)).filter fun f => command f = be32 (Spec.responseOf cmd) ∧ seqOf e.proto f = n).length ≤
      (steps.filter (onPacketSteps fun c seq body _ => c = cmd ∧ packetSeq e.proto seq body = n)).length := by
  rw [filter_frames]
  · rw [(sim_run gb e t0 steps).2]
    refine Nat.le_trans (ServerTraffic.response_at_most_once e h16 _ cmd hcmd n) (Nat.le_of_eq ?_)
    exact project_packets gb e _ steps _
  · intro f x hx
    obtain ⟨lu, t, o, h⟩ := own_on_wire gb e t0 steps hx
    simp [(own_command h).1 cmd]

/-- C76, with the server's own frames: whatever is written is the exact answer to an earlier packet, a status report, or one of the
server's own heartbeats, simulated texts and terminations. -/
theorem frame_answers (gb : Bytes → Option Bytes) (e : Env) (h16 : ∀ x, (e.md5 x).length = 16) (t0 : Int) (steps : List Step) (f : Bytes)
    (hf : f ∈ frames (run gb e t0 steps)) (hc : command f ≠ be32 (deliverCmd e.proto)) (ha : ∀ c, activeCmd e.proto = some c → command f ≠ be32 c)
    (ht : command f ≠ be32 (terminateCmd e.proto)) :
    ∃ a cmd seq body d now b, steps = a ++ .base (.packet cmd seq body d) now :: b ∧
      answer e (run gb e t0 a).base.ver cmd seq body d = some f ∧ (cmd = loginCmd e.proto ∨ (run gb e t0 a).base.stat = .login) := by
  rcases frame_cases hf with h | ⟨x, hx⟩
  · rw [(sim_run gb e t0 steps).2] at h
    obtain ⟨a', cmd, seq, body, d, b', h1, h2, h3⟩ := ServerTraffic.frame_answers e h16 _ f h hc
    obtain ⟨a, now, b, h4, h5⟩ := project_packet gb e steps _ a' b' cmd seq body d h1
    have h6 : (run gb e t0 a).base = ServerTraffic.run e a' := by rw [(sim_run gb e t0 a).2, answering, h5]
    exact ⟨a, cmd, seq, body, d, now, b, h4, by rw [h6]; exact h2, by rw [h6]; exact h3⟩
  · exfalso
    obtain ⟨lu, t, o, h⟩ := own_on_wire gb e t0 steps hx
    obtain ⟨_, h1, h2, h3⟩ := own_command h
    cases x with
    | beat => obtain ⟨c, h4, h5⟩ := h1.1 rfl; exact ha c h4 h5
    | dly => exact hc (h2.1 rfl)
    | close => exact ht (h3.1 rfl)

/-- The server's steps: everything but packets arriving, ticks and the closing of the connection. -/
def Internal : Step → Prop
  | .base x _ => ServerTraffic.Internal x
  | .task .. => True
  | .tick _ => False

/-- Nothing is left to do. -/
def Settled (gb : Bytes → Option Bytes) (e : Env) (s : State) : Prop := ∀ x, Internal x → step gb e s x = s

theorem settled_base {gb : Bytes → Option Bytes} {e : Env} {s : State} (hsim : Sim s) (h : Settled gb e s) :
    ServerTraffic.Settled e s.base := by
  intro x hx
  by_cases hl : x = .loop
  · subst hl
    have := h (.base .loop 0) trivial
    unfold step at this
    unfold ServerTraffic.step
    by_cases hd : s.base.crashed ∨ s.base.isOpen = false
    · rw [if_pos hd]
    rw [if_neg hd] at this
    rw [if_neg hd]
    dsimp only at this ⊢
    cases hq : s.queue with
    | nil =>
      have hb : s.base.queue = [] := by rw [hsim.queue, hq]; rfl
      simp [ServerTraffic.onLoop, hb]
    | cons it q =>
      exfalso
      have hql := congrArg (fun s => s.queue.length) this
      simp only [onLoop, hq] at hql
      cases it with
      | reply y => simp at hql
      | own f a => cases a <;> simp at hql
  · have h1 := h (.base x 0) (by simpa [Internal] using hx)
    have h2 := (sim_step (gb := gb) (e := e) hsim (.base x 0)).2
    have h3 : baseStep s (.base x 0) = some x := by cases x <;> first | rfl | exact absurd rfl hl
    rw [h1, h3] at h2
    exact h2.symm

theorem project_split (gb : Bytes → Option Bytes) (e : Env) (t0 : Int) (a b : List Step) (cmd seq : UInt32) (body : Bytes) (d : Draw) (now : Int) :
    ∃ b', answering gb e t0 (a ++ .base (.packet cmd seq body d) now :: b) = answering gb e t0 a ++ .packet cmd seq body d :: b' := by
  unfold answering
  rw [project_append, project]
  exact ⟨_, rfl⟩

theorem accounts_base {gb : Bytes → Option Bytes} {e : Env} {t0 : Int} {P : AuthConf → Prop} {steps : List Step} (h : AccountsAll P steps) :
    Accounts P (answering gb e t0 steps) := by
  intro cmd seq body d hm n ac hf
  obtain ⟨a', b', he⟩ := List.append_of_mem hm
  obtain ⟨a, now, b, h1, _⟩ := project_packet gb e steps _ a' b' cmd seq body d he
  exact h cmd seq body d now (by rw [h1]; simp) n ac hf

/-- C76, with the server's own frames: at rest every answerable packet has its answer. Partial for the reasons of
`ServerTraffic.packet_answered_partial`. -/
theorem packet_answered_partial (gb : Bytes → Option Bytes) (e : Env) (h16 : ∀ x, (e.md5 x).length = 16) (t0 : Int) (a b : List Step)
    (cmd seq : UInt32) (body : Bytes) (d : Draw) (now : Int) (f : Bytes) (hf : answer e (run gb e t0 a).base.ver cmd seq body d = some f)
    (hacc : cmd = submitCmd e.proto → d.allow = true → d.account ≠ none ∧ d.minMs < d.maxMs)
    (hwin : AccountsAll (fun ac => 1 ≤ ac.mtWindowSize) (a ++ .base (.packet cmd seq body d) now :: b))
    (hone : ((a ++ .base (.packet cmd seq body d) now :: b).filter (onPacketSteps fun c _ _ _ => c = loginCmd e.proto)).length ≤ 1)
    (hc : (run gb e t0 (a ++ .base (.packet cmd seq body d) now :: b)).base.crashed = false)
    (ho : (run gb e t0 (a ++ .base (.packet cmd seq body d) now :: b)).base.isOpen = true)
    (hs : Settled gb e (run gb e t0 (a ++ .base (.packet cmd seq body d) now :: b))) :
    f ∈ frames (run gb e t0 (a ++ .base (.packet cmd seq body d) now :: b)) := by
  obtain ⟨b', hb'⟩ := project_split gb e t0 a b cmd seq body d now
  obtain ⟨s1, s2⟩ := sim_run gb e t0 (a ++ .base (.packet cmd seq body d) now :: b)
  have ha := (sim_run gb e t0 a).2
  rw [ha] at hf
  have hset := settled_base s1 hs
  have hone' := project_packets gb e (fun c _ _ _ => c = loginCmd e.proto) (a ++ .base (.packet cmd seq body d) now :: b) { lastUse := t0 }
  have hacs : Accounts _ (answering gb e t0 (a ++ .base (.packet cmd seq body d) now :: b)) := accounts_base hwin
  refine base_frames ?_
  unfold answering at *
  rw [s2] at hc ho hset ⊢
  rw [hb'] at hc ho hset hacs hone' ⊢
  exact ServerTraffic.packet_answered_partial e h16 _ b' cmd seq body d f hf hacc hacs (by rw [hone']; exact hone) hc ho hset

/-- C76, with the server's own frames: exactly one answer to a packet with its own sequence number. -/
theorem packet_answered_once_partial (gb : Bytes → Option Bytes) (e : Env) (h16 : ∀ x, (e.md5 x).length = 16) (t0 : Int) (a b : List Step)
    (cmd seq : UInt32) (body : Bytes) (d : Draw) (now : Int) (f : Bytes) (hf : answer e (run gb e t0 a).base.ver cmd seq body d = some f)
    (hacc : cmd = submitCmd e.proto → d.allow = true → d.account ≠ none ∧ d.minMs < d.maxMs)
    (hwin : AccountsAll (fun ac => 1 ≤ ac.mtWindowSize) (a ++ .base (.packet cmd seq body d) now :: b))
    (hone : ((a ++ .base (.packet cmd seq body d) now :: b).filter (onPacketSteps fun c _ _ _ => c = loginCmd e.proto)).length ≤ 1)
    (hc : (run gb e t0 (a ++ .base (.packet cmd seq body d) now :: b)).base.crashed = false)
    (ho : (run gb e t0 (a ++ .base (.packet cmd seq body d) now :: b)).base.isOpen = true)
    (hs : Settled gb e (run gb e t0 (a ++ .base (.packet cmd seq body d) now :: b)))
    (h8 : e.proto = .sgip → 8 ≤ body.length)
    (huniq : ((a ++ .base (.packet cmd seq body d) now :: b).filter (onPacketSteps fun c s b _ => c = cmd ∧ packetSeq e.proto s b =
      packetSeq e.proto seq body)).length = 1) :
    ((frames (run gb e t0 (a ++ .base (.packet cmd seq body d) now :: b))).filter fun g =>
      command g = be32 (Spec.responseOf cmd) ∧ seqOf e.proto g = packetSeq e.proto seq body) = [f] := by
  have hm := packet_answered_partial gb e h16 t0 a b cmd seq body d now f hf hacc hwin hone hc ho hs
  obtain ⟨q1, q2, q3⟩ := ServerTraffic.answer_command hf
  have hle := response_at_most_once gb e h16 t0 (a ++ .base (.packet cmd seq body d) now :: b) cmd q2 (packetSeq e.proto seq body)
  rw [huniq] at hle
  have hmem : f ∈ ((frames (run gb e t0 (a ++ .base (.packet cmd seq body d) now :: b))).filter fun g =>
      command g = be32 (Spec.responseOf cmd) ∧ seqOf e.proto g = packetSeq e.proto seq body) :=
    List.mem_filter.2 ⟨hm, by simpa using ⟨q1, q3 h8⟩⟩
  generalize ((frames (run gb e t0 (a ++ .base (.packet cmd seq body d) now :: b))).filter fun g =>
      command g = be32 (Spec.responseOf cmd) ∧ seqOf e.proto g = packetSeq e.proto seq body) = l at *
  match l, hle, hmem with
  | [], _, hm => cases hm
  | [y], _, hm => rw [List.mem_singleton] at hm; rw [hm]
  | _ :: _ :: _, hle, _ => simp at hle

/-! ## C79: service only after a login -/

theorem login_before_service (gb : Bytes → Option Bytes) (e : Env) (h16 : ∀ x, (e.md5 x).length = 16) (t0 : Int) (steps : List Step)
    (h : (run gb e t0 steps).base.stat = .login) : ∃ ac seq body d now, Step.base (.packet (loginCmd e.proto) seq body d) now ∈ steps ∧
      loginVerdict e.md5 e.proto body d.find d.sessions = .ok ac ∧
      loginResponse e.md5 e.proto seq body (.ok ac) ∈ frames (run gb e t0 steps) := by
  have hs := (sim_run gb e t0 steps).2
  have h' := h
  rw [hs] at h'
  obtain ⟨ac, seq, body, d, h1, h2, h3⟩ := ServerTraffic.login_before_service e h16 _ h'
  obtain ⟨a', b', he⟩ := List.append_of_mem h1
  obtain ⟨a, now, b, h4, _⟩ := project_packet gb e steps _ a' b' _ seq body d he
  exact ⟨ac, seq, body, d, now, by rw [h4]; simp, h2, base_frames (by rw [hs]; exact h3)⟩

theorem split_reply {w pre post : List Item} {x : Nat × Bytes × After} (h : w = pre ++ .reply x :: post) :
    replies w = replies pre ++ x :: replies post := by
  subst h; rw [replies_append]; rfl

theorem replies_frames {l : List Item} {f : Bytes} (h : f ∈ (replies l).map (·.2.1)) : f ∈ l.map Item.frame := by
  obtain ⟨x, hx, rfl⟩ := List.mem_map.1 h
  obtain ⟨it, hit, he⟩ := List.mem_filterMap.1 hx
  cases it with
  | own f x => cases he
  | reply y => cases he; exact List.mem_map.2 ⟨_, hit, rfl⟩

/-- C79, with the server's own frames: everything the server writes on a connection, except login responses and terminations, follows the
response to an accepted login. -/
theorem service_after_login (gb : Bytes → Option Bytes) (e : Env) (h16 : ∀ x, (e.md5 x).length = 16) (t0 : Int) (steps : List Step)
    (pre post : List Bytes) (f : Bytes) (hw : frames (run gb e t0 steps) = pre ++ f :: post)
    (hc : command f ≠ be32 (Spec.responseOf (loginCmd e.proto))) (ht : command f ≠ be32 (terminateCmd e.proto)) :
    ∃ ac seq body d now, Step.base (.packet (loginCmd e.proto) seq body d) now ∈ steps ∧
      loginVerdict e.md5 e.proto body d.find d.sessions = .ok ac ∧ loginResponse e.md5 e.proto seq body (.ok ac) ∈ pre := by
  obtain ⟨wp, wr, hwire, hwp, hwr⟩ := List.map_eq_append_iff.1 hw
  obtain ⟨it, wr', rfl, hit, _⟩ := List.map_eq_cons_iff.1 hwr
  cases it with
  | reply x =>
    have hit : x.2.1 = f := hit
    have hs := sim_run gb e t0 steps
    have h1 := split_reply hwire
    rw [← hs.1.wire, hs.2] at h1
    have h2 : ServerTraffic.frames (ServerTraffic.run e (answering gb e t0 steps)) =
        (replies wp).map (·.2.1) ++ f :: (replies wr').map (·.2.1) := by
      rw [ServerTraffic.frames, h1]; simp [hit]
    obtain ⟨ac, seq, body, d, h3, h4, h5⟩ := ServerTraffic.service_after_login e h16 _ _ _ f h2 hc
    obtain ⟨a', b', he⟩ := List.append_of_mem h3
    obtain ⟨a, now, b, h6, _⟩ := project_packet gb e steps _ a' b' _ seq body d he
    exact ⟨ac, seq, body, d, now, by rw [h6]; simp, h4, by rw [← hwp]; exact replies_frames h5⟩
  | own g x =>
    have hit : g = f := hit
    subst hit
    obtain ⟨a, d, b, i, t, c, o, h1, h2, h3, h4, _⟩ := own_written gb e t0 steps hwire
    obtain ⟨_, _, _, hcl⟩ := own_command h3
    have hlog : (run gb e t0 a).base.stat = .login := by
      cases h2 with
      | terminate => cases h3; exact absurd (hcl.1 rfl) ht
      | active _ _ h => exact h
      | deliver _ _ _ _ h => exact h
    obtain ⟨ac, seq, body, d', now, h5, h6, h7⟩ := login_before_service gb e h16 t0 a hlog
    refine ⟨ac, seq, body, d', now, by rw [h1]; simp [h5], h6, ?_⟩
    rw [← hwp]
    exact (h4.map _).subset h7

/-- C79, with the server's own frames: login responses tell the truth. -/
theorem login_response_honest (gb : Bytes → Option Bytes) (e : Env) (h16 : ∀ x, (e.md5 x).length = 16) (t0 : Int) (steps : List Step) (f : Bytes)
    (hf : f ∈ frames (run gb e t0 steps)) (hc : command f = be32 (Spec.responseOf (loginCmd e.proto))) :
    ∃ seq body d now, Step.base (.packet (loginCmd e.proto) seq body d) now ∈ steps ∧
      f = loginResponse e.md5 e.proto seq body (loginVerdict e.md5 e.proto body d.find d.sessions) ∧
      (refusal e.proto f = false ↔ ∃ ac, loginVerdict e.md5 e.proto body d.find d.sessions = .ok ac) ∧
      (refusal e.proto f = true → (run gb e t0 steps).base.closing = true) := by
  rcases frame_cases hf with h | ⟨x, hx⟩
  · rw [(sim_run gb e t0 steps).2] at h ⊢
    obtain ⟨seq, body, d, h1, h2, h3, h4⟩ := ServerTraffic.login_response_honest e h16 _ f h hc
    obtain ⟨a', b', he⟩ := List.append_of_mem h1
    obtain ⟨a, now, b, h6, _⟩ := project_packet gb e steps _ a' b' _ seq body d he
    exact ⟨seq, body, d, now, by rw [h6]; simp, h2, h3, h4⟩
  · obtain ⟨lu, t, o, h⟩ := own_on_wire gb e t0 steps hx
    exact absurd hc ((own_command h).1 _)

/-! ## C77: reports -/

/-- C77, with the server's own frames: every delivery written is a report about an accepted submit whose response is already written, with the
message id of that response, or a simulated text: one of the configured texts, for the account found for the session. -/
theorem delivery_origin (gb : Bytes → Option Bytes) (e : Env) (h16 : ∀ x, (e.md5 x).length = 16) (t0 : Int) (steps : List Step)
    (pre post : List Bytes) (f : Bytes) (hw : frames (run gb e t0 steps) = pre ++ f :: post) (hc : command f = be32 (deliverCmd e.proto)) :
    (∃ a seq body d now b, steps = a ++ .base (.packet (submitCmd e.proto) seq body d) now :: b ∧ (run gb e t0 a).base.stat = .login ∧
      d.account ≠ none ∧ d.minMs < d.maxMs ∧ verdict d = .accepted ∧
      submitResponse (Cmpp.v3 (run gb e t0 a).base.ver) e.proto seq body .accepted d.id d.bcd ∈ pre ∧
      ((e.proto = .smgp → d.bcd.length = 10) → reportId (Cmpp.v3 (run gb e t0 a).base.ver) e.proto f = messageId e.proto d.id d.bcd)) ∨
    ∃ a d b i t c cli content number text, steps = a ++ .tick d :: b ++ .task i t :: c ∧ (run gb e t0 a).base.stat = .login ∧
      d.enable = true ∧ d.dice = false ∧ d.account = some cli ∧ content ∈ d.contents ∧ entry content number text ∧
      (e.proto = .cmpp ∧ (Cmpp.newDelivery cli (ascii "18600001111") text number cli.serviceId t.seq t.id).encode t.g = some f ∨
       e.proto = .smgp ∧ (Smgp.newDeliver gb cli (ascii "13300001111") number text t.seq t.bcd t.clock).encode = some f) := by
  obtain ⟨wp, wr, hwire, hwp, hwr⟩ := List.map_eq_append_iff.1 hw
  obtain ⟨it, wr', rfl, hit, _⟩ := List.map_eq_cons_iff.1 hwr
  cases it with
  | reply x =>
    left
    have hit : x.2.1 = f := hit
    have hs := sim_run gb e t0 steps
    have h1 := split_reply hwire
    rw [← hs.1.wire, hs.2] at h1
    have h2 : ServerTraffic.frames (ServerTraffic.run e (answering gb e t0 steps)) =
        (replies wp).map (·.2.1) ++ f :: (replies wr').map (·.2.1) := by
      rw [ServerTraffic.frames, h1]; simp [hit]
    obtain ⟨a', seq, body, d, b', h3, h4, h5, h6, h7, h8, h9⟩ := ServerTraffic.report_after_response e h16 _ _ _ f h2 hc
    obtain ⟨a, now, b, h10, h11⟩ := project_packet gb e steps _ a' b' _ seq body d h3
    have ha : (run gb e t0 a).base = ServerTraffic.run e a' := by rw [(sim_run gb e t0 a).2, answering, h11]
    exact ⟨a, seq, body, d, now, b, h10, by rw [ha]; exact h4, h5, h6, h7, by rw [ha, ← hwp]; exact replies_frames h8, by rw [ha]; exact h9⟩
  | own g x =>
    right
    have hit : g = f := hit
    subst hit
    obtain ⟨a, d, b, i, t, c, o, h1, h2, h3, _⟩ := own_written gb e t0 steps hwire
    have hd := (own_command h3).2.2.1.2 hc
    subst hd
    cases h3 with
    | cmpp cli number text _ hp hf =>
      cases h2 with
      | deliver _ content _ _ q1 q2 q3 q4 q5 q6 =>
        exact ⟨a, d, b, i, t, c, cli, content, number, text, h1, q1, q2, q3, q4, q5, q6, .inl ⟨hp, hf⟩⟩
    | smgp cli number text _ hp hf =>
      cases h2 with
      | deliver _ content _ _ q1 q2 q3 q4 q5 q6 =>
        exact ⟨a, d, b, i, t, c, cli, content, number, text, h1, q1, q2, q3, q4, q5, q6, .inr ⟨hp, hf⟩⟩

/-! ## C90: heartbeats and terminations -/

/-- C90: a heartbeat is only sent to a session that was logged in, more than a minute after its last use; SGIP sends none. -/
theorem heartbeat_origin (gb : Bytes → Option Bytes) (e : Env) (h16 : ∀ x, (e.md5 x).length = 16) (t0 : Int) (steps : List Step)
    (pre post : List Bytes) (f : Bytes) (hw : frames (run gb e t0 steps) = pre ++ f :: post)
    (hc : ∃ c, activeCmd e.proto = some c ∧ command f = be32 c) :
    ∃ a d b i t c, steps = a ++ .tick d :: b ++ .task i t :: c ∧ (run gb e t0 a).base.stat = .login ∧
      heartbeat e.proto t.seq = some f ∧ (run gb e t0 (a ++ .tick d :: b)).lastUse + 60 * 1000000000 < t.now := by
  obtain ⟨wp, wr, hwire, hwp, hwr⟩ := List.map_eq_append_iff.1 hw
  obtain ⟨it, wr', rfl, hit, _⟩ := List.map_eq_cons_iff.1 hwr
  cases it with
  | reply x =>
    exfalso
    have hit : x.2.1 = f := hit
    have hs := sim_run gb e t0 steps
    have hx : x ∈ (ServerTraffic.run e (answering gb e t0 steps)).wire := by
      rw [← hs.2, hs.1.wire, split_reply hwire]; simp
    obtain ⟨r, hr, hg, hE⟩ := ServerTraffic.wire_entry h16 (ServerTraffic.inv_run_all e _) hx
    obtain ⟨c, hc1, hc2⟩ := hc
    have k1 : ∀ p c, activeCmd p = some c → c.toNat ≤ 8 ∧ c ≠ deliverCmd p := by
      intro p c hc; cases p <;> simp [activeCmd] at hc <;> subst hc <;> decide
    obtain ⟨k2, k3⟩ := k1 _ c hc1
    by_cases hrpt : x.2.2 = .rpt
    · have := (ServerTraffic.entry_report hE hrpt).1
      rw [hit, hc2] at this
      exact k3 (be32_inj this)
    · have := (ServerTraffic.entry_answer hg hE hrpt).1
      rw [hit, hc2] at this
      exact small_ne k2 this
  | own g x =>
    have hit : g = f := hit
    subst hit
    obtain ⟨a, d, b, i, t, c, o, h1, h2, h3, _⟩ := own_written gb e t0 steps hwire
    have hd := (own_command h3).2.1.2 hc
    subst hd
    cases h3 with
    | active _ hf hl =>
      cases h2 with
      | active _ _ hlog => exact ⟨a, d, b, i, t, c, h1, hlog, hf, hl⟩

/-- C90: a termination is only sent if at a tick the session had not been used for `Server.ForceCloseConnTime`, or had more than two
heartbeats unanswered; its callback asks for the connection to be closed. -/
theorem termination_origin (gb : Bytes → Option Bytes) (e : Env) (h16 : ∀ x, (e.md5 x).length = 16) (t0 : Int) (steps : List Step)
    (pre post : List Bytes) (f : Bytes) (hw : frames (run gb e t0 steps) = pre ++ f :: post) (hc : command f = be32 (terminateCmd e.proto)) :
    ∃ a d b i t c, steps = a ++ .tick d :: b ++ .task i t :: c ∧
      ((run gb e t0 a).lastUse + d.force < d.now ∨ 2 < (run gb e t0 a).nAt) ∧ f = termination e.proto t.seq t.seq3 := by
  obtain ⟨wp, wr, hwire, hwp, hwr⟩ := List.map_eq_append_iff.1 hw
  obtain ⟨it, wr', rfl, hit, _⟩ := List.map_eq_cons_iff.1 hwr
  cases it with
  | reply x =>
    exfalso
    have hit : x.2.1 = f := hit
    have hs := sim_run gb e t0 steps
    have hx : x ∈ (ServerTraffic.run e (answering gb e t0 steps)).wire := by
      rw [← hs.2, hs.1.wire, split_reply hwire]; simp
    obtain ⟨r, hr, hg, hE⟩ := ServerTraffic.wire_entry h16 (ServerTraffic.inv_run_all e _) hx
    have k1 : ∀ p, (terminateCmd p).toNat ≤ 8 ∧ terminateCmd p ≠ deliverCmd p := by intro p; cases p <;> decide
    obtain ⟨k2, k3⟩ := k1 e.proto
    by_cases hrpt : x.2.2 = .rpt
    · have := (ServerTraffic.entry_report hE hrpt).1
      rw [hit, hc] at this
      exact k3 (be32_inj this)
    · have := (ServerTraffic.entry_answer hg hE hrpt).1
      rw [hit, hc] at this
      exact small_ne k2 this
  | own g x =>
    have hit : g = f := hit
    subst hit
    obtain ⟨a, d, b, i, t, c, o, h1, h2, h3, _⟩ := own_written gb e t0 steps hwire
    have hd := (own_command h3).2.2.2.2 hc
    subst hd
    cases h3 with
    | terminate =>
      cases h2 with
      | terminate h => exact ⟨a, d, b, i, t, c, h1, h, rfl⟩

/-! ## C80: counters -/

def isDly : Item → Bool
  | .own _ .dly => true
  | _ => false

theorem onBase_dly (e : Env) (s : State) (x : ServerTraffic.Step) : (onBase e s x).dly = s.dly ∧ (onBase e s x).wire = s.wire ∧
    (onBase e s x).closing = s.closing := ⟨rfl, rfl, rfl⟩

theorem dly_inv (gb : Bytes → Option Bytes) (e : Env) (t0 : Int) (steps : List Step) :
    (run gb e t0 steps).dly = UInt64.ofNat ((run gb e t0 steps).wire.filter isDly).length ∧
    ∀ f, Item.own f .close ∈ (run gb e t0 steps).wire → (run gb e t0 steps).closing = true := by
  induction steps using snoc_induction with
  | nil => simp [run]
  | snoc l y ih =>
    rw [run_snoc]
    generalize run gb e t0 l = s at *
    unfold step
    by_cases hd : s.base.crashed ∨ s.base.isOpen = false
    · rw [if_pos hd]; exact ih
    rw [if_neg hd]
    obtain ⟨i1, i2⟩ := ih
    cases y with
    | base z now =>
      cases z with
      | loop =>
        simp only [onLoop]
        cases hq : s.queue with
        | nil => exact ⟨i1, i2⟩
        | cons it q =>
          cases it with
          | reply x =>
            refine ⟨?_, fun f hf => ?_⟩
            · simp only [List.filter_append, i1]; simp [isDly]
            · simp only [List.mem_append, List.mem_singleton, reduceCtorEq, or_false] at hf
              exact i2 f hf
          | own f a =>
            cases a with
            | beat =>
              refine ⟨?_, fun f hf => ?_⟩
              · simp only [List.filter_append, i1]; simp [isDly]
              · simp only [List.mem_append, List.mem_singleton, Item.own.injEq, reduceCtorEq, and_false, or_false] at hf
                exact i2 f hf
            | dly =>
              refine ⟨?_, fun f hf => ?_⟩
              · simp only [List.filter_append, i1, List.length_append]
                have : ([Item.own f .dly].filter isDly).length = 1 := rfl
                rw [this, UInt64.ofNat_add]
                rfl
              · simp only [List.mem_append, List.mem_singleton, Item.own.injEq, reduceCtorEq, and_false, or_false] at hf
                exact i2 f hf
            | close =>
              refine ⟨?_, fun _ _ => rfl⟩
              simp only [List.filter_append, i1]; simp [isDly]
      | run i =>
        obtain ⟨_, _, h3, _, h5, h6⟩ := onRun_same s i now
        refine ⟨?_, fun f hf => ?_⟩
        · show (onRun s i now).dly = UInt64.ofNat ((onRun s i now).wire.filter isDly).length
          rw [h3, h5]; exact i1
        · show (onRun s i now).closing = true
          rw [h6]
          exact i2 f (by have : Item.own f .close ∈ (onRun s i now).wire := hf; rwa [h3] at this)
      | packet c q b d => exact ⟨i1, i2⟩
      | drop i => exact ⟨i1, i2⟩
      | close => exact ⟨i1, i2⟩
    | tick d =>
      obtain ⟨_, _, h3, _, _, h6, h7⟩ := onTick_same s d
      exact ⟨by show (onTick s d).dly = UInt64.ofNat ((onTick s d).wire.filter isDly).length; rw [h3, h6]; exact i1,
        fun f hf => by show (onTick s d).closing = true; rw [h7]; exact i2 f (by have : Item.own f .close ∈ (onTick s d).wire := hf; rwa [h3] at this)⟩
    | task i d =>
      obtain ⟨_, h3, _, _, _, h6, h7⟩ := onTask_same gb e s i d
      exact ⟨by show (onTask gb e s i d).dly = UInt64.ofNat ((onTask gb e s i d).wire.filter isDly).length; rw [h3, h6]; exact i1,
        fun f hf => by show (onTask gb e s i d).closing = true; rw [h7]; exact i2 f (by have : Item.own f .close ∈ (onTask gb e s i d).wire := hf; rwa [h3] at this)⟩

/-- C90: once a termination is written the server has asked for the connection to be closed. -/
theorem termination_written_closes (gb : Bytes → Option Bytes) (e : Env) (h16 : ∀ x, (e.md5 x).length = 16) (t0 : Int) (steps : List Step)
    (f : Bytes) (hf : f ∈ frames (run gb e t0 steps)) (hc : command f = be32 (terminateCmd e.proto)) : (run gb e t0 steps).closing = true := by
  obtain ⟨it, hit, rfl⟩ := List.mem_map.1 hf
  cases it with
  | own g x =>
    obtain ⟨lu, t, o, h⟩ := own_on_wire gb e t0 steps hit
    have := (own_command h).2.2.2.2 hc
    subst this
    exact (dly_inv gb e t0 steps).2 g hit
  | reply x =>
    exfalso
    have hs := sim_run gb e t0 steps
    have hx : x ∈ (ServerTraffic.run e (answering gb e t0 steps)).wire := by
      rw [← hs.2, hs.1.wire]; exact List.mem_filterMap.2 ⟨_, hit, rfl⟩
    obtain ⟨r, hr, hg, hE⟩ := ServerTraffic.wire_entry h16 (ServerTraffic.inv_run_all e _) hx
    have k1 : ∀ p, (terminateCmd p).toNat ≤ 8 ∧ terminateCmd p ≠ deliverCmd p := by intro p; cases p <;> decide
    obtain ⟨k2, k3⟩ := k1 e.proto
    have hc : command x.2.1 = be32 (terminateCmd e.proto) := hc
    by_cases hrpt : x.2.2 = .rpt
    · have := (ServerTraffic.entry_report hE hrpt).1
      rw [hc] at this
      exact k3 (be32_inj this)
    · have := (ServerTraffic.entry_answer hg hE hrpt).1
      rw [hc] at this
      exact small_ne k2 this

/-- C80, with the server's own frames: accepted submits, and reports and simulated texts together, are counted exactly. -/
theorem counters_exact (gb : Bytes → Option Bytes) (e : Env) (h16 : ∀ x, (e.md5 x).length = 16) (t0 : Int) (steps : List Step) :
    (run gb e t0 steps).base.mt = UInt64.ofNat ((frames (run gb e t0 steps)).filter fun f =>
      command f = be32 (Spec.responseOf (submitCmd e.proto)) ∧ acceptance e.proto f = true).length ∧
    (run gb e t0 steps).base.rpt + (run gb e t0 steps).dly =
      UInt64.ofNat ((frames (run gb e t0 steps)).filter fun f => command f = be32 (deliverCmd e.proto)).length := by
  have hs := sim_run gb e t0 steps
  constructor
  · rw [filter_frames]
    · rw [hs.2]; exact (ServerTraffic.counters_exact e h16 _).1
    · intro f x hx
      obtain ⟨lu, t, o, h⟩ := own_on_wire gb e t0 steps hx
      simp [(own_command h).1 (submitCmd e.proto)]
  · have h1 := (ServerTraffic.counters_exact e h16 (answering gb e t0 steps)).2
    rw [← hs.2] at h1
    rw [h1, (dly_inv gb e t0 steps).1, ← UInt64.ofNat_add]
    congr 1
    have hown : ∀ f x, Item.own f x ∈ (run gb e t0 steps).wire → (x = .dly ↔ command f = be32 (deliverCmd e.proto)) := by
      intro f x hx
      obtain ⟨lu, t, o, h⟩ := own_on_wire gb e t0 steps hx
      exact (own_command h).2.2.1
    have hw := hs.1.wire
    unfold frames ServerTraffic.frames
    rw [hw]
    generalize (run gb e t0 steps).wire = w at *
    clear hw h1 hs
    induction w with
    | nil => rfl
    | cons it w ih =>
      have ih := ih fun f x hx => hown f x (List.mem_cons_of_mem _ hx)
      cases it with
      | reply x =>
        have e1 : replies (Item.reply x :: w) = x :: replies w := rfl
        have e2 : (Item.reply x :: w).filter isDly = w.filter isDly := rfl
        rw [e1, e2, List.map_cons, List.map_cons, List.filter_cons, List.filter_cons]
        show _ = (if decide (command x.2.1 = be32 (deliverCmd e.proto)) = true then _ else _ : List Bytes).length
        split
        · rw [List.length_cons, List.length_cons, ← ih]; omega
        · exact ih
      | own f x =>
        have hx := hown f x List.mem_cons_self
        rw [replies_own, List.map_cons, List.filter_cons, List.filter_cons]
        show _ = (if decide (command f = be32 (deliverCmd e.proto)) = true then _ else _ : List Bytes).length
        by_cases hd : x = .dly
        · subst hd
          have : isDly (Item.own f .dly) = true := rfl
          rw [if_pos this, if_pos (by simpa using hx.1 rfl), List.length_cons, List.length_cons, ← ih]; omega
        · have : isDly (Item.own f x) = false := by cases x <;> first | rfl | exact absurd rfl hd
          rw [this, if_neg (by simp), if_neg (by simpa using fun h => hd (hx.2 h))]
          exact ih

end Gosms.ServerTicks
