import Verif.Model.ServerStop
import Verif.Props.Shutdown
import Verif.Props.ServerFrames
import Verif.Props.ServerAccepted

/-!
C124: a server that is told to end finishes what it has begun: it takes no new requests, answers those under way and says goodbye.
-/

namespace Gosms.ServerStop
open ServerTicks (frames Settled AccountsAll onPacketSteps)
open ServerTraffic (Env Draw answer)
open Spec.ServerTraffic

/-! ## Specification -/

/-- What is done to the process, without the connections. -/
def Spec.sys (steps : List Step) : List Shutdown.Step := steps.filterMap fun | .sys x => some x | .conn .. => none

/-- What happens on connection `c`. -/
def Spec.on (c : Nat) (steps : List Step) : List ServerTicks.Step :=
  steps.filterMap fun | .sys _ => none | .conn c' x => if c' = c then some x else none

variable (gb : Bytes → Option Bytes) (env : Nat → Env) (t0 : Nat → Int)

theorem run_snoc (steps : List Step) (x : Step) : run gb env t0 (steps ++ [x]) = step gb env (run gb env t0 steps) x := by
  simp [run, List.foldl_append]

theorem run_append (a b : List Step) : run gb env t0 (a ++ b) = b.foldl (step gb env) (run gb env t0 a) := by
  simp [run, List.foldl_append]

/-! ## The process and the connections do not touch each other -/

/-- **The process ends, or not, whatever is under way on its connections.** -/
theorem proc_alone (steps : List Step) : (run gb env t0 steps).proc = Shutdown.run hooks (fun _ => false) (Spec.sys steps) := by
  induction steps using snoc_induction with
  | nil => rfl
  | snoc steps x ih =>
    rw [run_snoc]
    cases x with
    | sys x =>
      have e : Spec.sys (steps ++ [.sys x]) = Spec.sys steps ++ [x] := by simp [Spec.sys]
      rw [e, Shutdown.run_snoc, ← ih]; rfl
    | conn c x =>
      have e : Spec.sys (steps ++ [.conn c x]) = Spec.sys steps := by simp [Spec.sys]
      rw [e, ← ih]; unfold step; dsimp only; split <;> rfl

theorem ended_stays {s : State} (h : s.proc.ended.isSome = true) (more : List Step) :
    more.foldl (step gb env) s = s := by
  induction more with
  | nil => rfl
  | cons x more ih =>
    have : step gb env s x = s := by
      cases x with
      | sys x => simp [step, Shutdown.step, h]
      | conn c x => simp [step, h]
    rw [List.foldl_cons, this]; exact ih

theorem ended_before {a b : List Step} (h : (run gb env t0 (a ++ b)).proc.ended = none) : (run gb env t0 a).proc.ended = none := by
  cases he : (run gb env t0 a).proc.ended with
  | none => rfl
  | some x =>
    rw [run_append, ended_stays gb env (by rw [he]; rfl)] at h
    rw [he] at h; cases h

/-- **A process that has been told to end, and has not ended yet, goes on as if it had not been told:** on every connection the state is that of the
connection alone, whatever signals and whatever steps of the shutdown are in between. So it takes new connections, logins and submits. -/
theorem conn_alone (steps : List Step) (h : (run gb env t0 steps).proc.ended = none) (c : Nat) :
    (run gb env t0 steps).conns c = ServerTicks.run gb (env c) (t0 c) (Spec.on c steps) := by
  induction steps using snoc_induction with
  | nil => rfl
  | snoc steps x ih =>
    have h0 := ended_before gb env t0 h
    specialize ih h0
    rw [run_snoc]
    cases x with
    | sys x =>
      have e : Spec.on c (steps ++ [.sys x]) = Spec.on c steps := by simp [Spec.on]
      rw [e]; exact ih
    | conn c' x =>
      unfold step
      dsimp only
      rw [if_neg (by rw [h0]; simp)]
      dsimp only
      by_cases hc : c = c'
      · subst hc
        have e : Spec.on c (steps ++ [.conn c x]) = Spec.on c steps ++ [x] := by simp [Spec.on]
        rw [e, if_pos rfl, ih]
        simp [ServerTicks.run, List.foldl_append]
      · have e : Spec.on c (steps ++ [.conn c' x]) = Spec.on c steps := by
          have : ¬ c' = c := fun h => hc h.symm
          simp [Spec.on, this]
        rw [e, if_neg hc]; exact ih

/-- The last moment of the process: the steps before it ended, and what came afterwards, which changed nothing. -/
theorem last_moment (steps : List Step) : ∃ a b, steps = a ++ b ∧
    (∀ c, (run gb env t0 steps).conns c = ServerTicks.run gb (env c) (t0 c) (Spec.on c a)) ∧
    (b ≠ [] → (run gb env t0 steps).proc.ended ≠ none) ∧ (b = [] → (run gb env t0 steps).proc.ended = none) := by
  induction steps using snoc_induction with
  | nil => exact ⟨[], [], rfl, fun c => rfl, fun h => absurd rfl h, fun _ => rfl⟩
  | snoc steps x ih =>
    obtain ⟨a, b, rfl, h1, h2, h3⟩ := ih
    cases he : (run gb env t0 ((a ++ b) ++ [x])).proc.ended with
    | none =>
      refine ⟨(a ++ b) ++ [x], [], by simp, fun c => conn_alone gb env t0 _ he c, fun h => absurd rfl h, fun _ => rfl⟩
    | some r =>
      refine ⟨a, b ++ [x], by simp, fun c => ?_, fun _ => by simp, fun h => absurd h (by simp)⟩
      rw [run_snoc, ← h1 c]
      cases x with
      | sys x => rfl
      | conn c' x =>
        cases he' : (run gb env t0 (a ++ b)).proc.ended with
        | none =>
          exfalso
          rw [run_snoc] at he
          unfold step at he
          dsimp only at he
          rw [if_neg (by rw [he']; simp)] at he
          dsimp only at he
          rw [he'] at he; cases he
        | some r' => unfold step; dsimp only; rw [if_pos (by rw [he']; rfl)]

/-! ## What holds whenever the process ends -/

/-- **C124 (partial): whenever and however the process ends, what was written on a connection is right:** no request has been answered twice. -/
theorem at_most_once_partial (h16 : ∀ c x, ((env c).md5 x).length = 16) (steps : List Step) (c : Nat) (cmd : UInt32) (hcmd : cmd < 0x80000000)
    (n : Bytes) :
    ((frames ((run gb env t0 steps).conns c)).filter fun f =>
        command f = be32 (Spec.responseOf cmd) ∧ seqOf (env c).proto f = n).length ≤
      ((Spec.on c steps).filter (onPacketSteps fun k seq body _ => k = cmd ∧ packetSeq (env c).proto seq body = n)).length := by
  obtain ⟨a, b, rfl, h1, _⟩ := last_moment gb env t0 steps
  rw [h1 c]
  refine Nat.le_trans (ServerTicks.response_at_most_once gb (env c) (h16 c) (t0 c) (Spec.on c a) cmd hcmd n) ?_
  have : Spec.on c (a ++ b) = Spec.on c a ++ Spec.on c b := by simp [Spec.on]
  rw [this, List.filter_append, List.length_append]
  omega

/-- **C124 (partial): nothing else is written** than exact answers to packets that came before, status reports and the server's own frames. -/
theorem frame_answers_partial (h16 : ∀ c x, ((env c).md5 x).length = 16) (steps : List Step) (c : Nat) (f : Bytes)
    (hf : f ∈ frames ((run gb env t0 steps).conns c)) (hc : command f ≠ be32 (deliverCmd (env c).proto))
    (ha : ∀ k, activeCmd (env c).proto = some k → command f ≠ be32 k) (ht : command f ≠ be32 (terminateCmd (env c).proto)) :
    ∃ a cmd seq body d now b, Spec.on c steps = a ++ .base (.packet cmd seq body d) now :: b ∧
      answer (env c) (ServerTicks.run gb (env c) (t0 c) a).base.ver cmd seq body d = some f := by
  obtain ⟨a, b, rfl, h1, _⟩ := last_moment gb env t0 steps
  rw [h1 c] at hf
  obtain ⟨a', cmd, seq, body, d, now, b', h2, h3, _⟩ := ServerTicks.frame_answers gb (env c) (h16 c) (t0 c) _ f hf hc ha ht
  refine ⟨a', cmd, seq, body, d, now, b' ++ Spec.on c b, ?_, h3⟩
  have : Spec.on c (a ++ b) = Spec.on c a ++ Spec.on c b := by simp [Spec.on]
  rw [this, h2]; simp

theorem wire_grows (c : Nat) (more : List Step) (s : State) : (s.conns c).wire <+: ((more.foldl (step gb env) s).conns c).wire := by
  induction more generalizing s with
  | nil => exact List.prefix_refl _
  | cons x more ih =>
    rw [List.foldl_cons]
    refine List.IsPrefix.trans ?_ (ih _)
    cases x with
    | sys x => exact List.prefix_refl _
    | conn c' x =>
      unfold step
      dsimp only
      split
      · exact List.prefix_refl _
      · dsimp only
        by_cases hc : c = c'
        · subst hc; rw [if_pos rfl]; exact ServerTicks.wire_prefix gb (env c) [x] _
        · rw [if_neg hc]; exact List.prefix_refl _

/-- **C124 (partial): a connection that is at rest when the signal arrives has all its answers,** under the conditions of C76 for packets being
answered. Missing: connections with requests under way (`ends_at_once_fails`). -/
theorem at_rest_partial (h16 : ∀ c x, ((env c).md5 x).length = 16) (steps more : List Step) (c : Nat) (hproc : (run gb env t0 steps).proc.ended = none)
    (a b : List ServerTicks.Step) (cmd seq : UInt32) (body : Bytes) (d : Draw) (now : Int) (f : Bytes)
    (hon : Spec.on c steps = a ++ .base (.packet cmd seq body d) now :: b)
    (hf : answer (env c) (ServerTicks.run gb (env c) (t0 c) a).base.ver cmd seq body d = some f)
    (hacc : cmd = submitCmd (env c).proto → d.allow = true → d.account ≠ none ∧ d.minMs < d.maxMs)
    (hwin : AccountsAll (fun ac => 1 ≤ ac.mtWindowSize) (Spec.on c steps))
    (hone : ((Spec.on c steps).filter (onPacketSteps fun k _ _ _ => k = loginCmd (env c).proto)).length ≤ 1)
    (hc : ((run gb env t0 steps).conns c).base.crashed = false) (ho : ((run gb env t0 steps).conns c).base.isOpen = true)
    (hs : Settled gb (env c) ((run gb env t0 steps).conns c)) :
    f ∈ frames ((run gb env t0 (steps ++ more)).conns c) := by
  have e := conn_alone gb env t0 steps hproc c
  have hm : ((run gb env t0 steps).conns c).wire <+: ((run gb env t0 (steps ++ more)).conns c).wire := by
    rw [run_append]; exact wire_grows gb env c more _
  refine (hm.map _).subset ?_
  show f ∈ frames ((run gb env t0 steps).conns c)
  rw [e] at hc ho hs ⊢
  rw [hon] at hc ho hs hwin hone ⊢
  exact ServerTicks.packet_answered_partial gb (env c) (h16 c) (t0 c) a b cmd seq body d now f hf hacc hwin hone hc ho hs

/-! ## What the code violates -/

/-- What follows a signal. -/
def Spec.theEnd : List Step := [.sys .signal, .sys .g, .sys .g, .sys .g, .sys .main]

/-- **C124 fails: the process does not wait for what is under way and says no goodbye.** Whatever has happened before, on however many connections
and with however many requests unanswered: in the five steps from the signal to the exit nothing happens on any connection, and nothing ever
afterwards. A frame not written before, be it the answer to a submit that was accepted or a termination, is not written at all. -/
theorem ends_at_once_fails (before : List Step) (hp : (run gb env t0 before).proc.ended = none)
    (hg : (run gb env t0 before).proc.g = .waiting) (hm : (run gb env t0 before).proc.main = .waiting) (more : List Step) :
    (run gb env t0 (before ++ Spec.theEnd ++ more)).proc.ended = some .exit ∧
    ∀ c, (run gb env t0 (before ++ Spec.theEnd ++ more)).conns c = (run gb env t0 before).conns c ∧
      ∀ f, f ∉ frames ((run gb env t0 before).conns c) → f ∉ frames ((run gb env t0 (before ++ Spec.theEnd ++ more)).conns c) := by
  have key : (run gb env t0 (before ++ Spec.theEnd)).proc.ended = some .exit ∧
      (run gb env t0 (before ++ Spec.theEnd)).conns = (run gb env t0 before).conns := by
    rw [run_append]
    generalize run gb env t0 before = s at *
    obtain ⟨⟨g, main, ran, ended⟩, conns⟩ := s
    dsimp only at hp hg hm
    subst hp hg hm
    exact ⟨rfl, rfl⟩
  have e : run gb env t0 (before ++ Spec.theEnd ++ more) = run gb env t0 (before ++ Spec.theEnd) := by
    rw [run_append gb env t0 (before ++ Spec.theEnd) more, ended_stays gb env (by rw [key.1]; rfl)]
  rw [e]
  refine ⟨key.1, fun c => ?_⟩
  rw [key.2]
  exact ⟨rfl, fun f h => h⟩

/-- **C124 fails: a process told to end takes new requests.** After the signal, as long as the process has not ended, a packet is handled as ever. -/
theorem told_takes_requests_fails (before after : List Step) (c : Nat) (x : ServerTicks.Step)
    (h : (run gb env t0 (before ++ .sys .signal :: after)).proc.ended = none) :
    (run gb env t0 (before ++ .sys .signal :: after ++ [.conn c x])).conns c =
      ServerTicks.step gb (env c) (ServerTicks.run gb (env c) (t0 c) (Spec.on c (before ++ after))) x := by
  rw [run_snoc]
  unfold step
  dsimp only
  rw [if_neg (by rw [h]; simp)]
  dsimp only
  rw [if_pos rfl, conn_alone gb env t0 _ h c]
  have : Spec.on c (before ++ .sys .signal :: after) = Spec.on c (before ++ after) := by simp [Spec.on]
  rw [this]

/-! ## A case -/

/-- A login and a submit, whose task has its slot; the answer has not been written. -/
def demoBefore : List Step :=
  [.sys .g, .sys .g, .sys .main] ++
    (ServerTraffic.demoSteps.take 5 ++ [ServerTraffic.Step.run 0]).map fun x => .conn 7 (.base x 0)

set_option maxRecDepth 20000 in
/-- Satisfiable: the submit has been taken and is not answered (`demoSteps` goes on and answers it, Props/ServerAnswers.lean). -/
example : (run some (fun _ => ServerTraffic.demoEnv) (fun _ => 0) demoBefore).proc.ended = none ∧
    (run some (fun _ => ServerTraffic.demoEnv) (fun _ => 0) demoBefore).proc.g = .waiting ∧
    (run some (fun _ => ServerTraffic.demoEnv) (fun _ => 0) demoBefore).proc.main = .waiting ∧
    ((run some (fun _ => ServerTraffic.demoEnv) (fun _ => 0) demoBefore).conns 7).base.reqs.length = 2 ∧
    ((run some (fun _ => ServerTraffic.demoEnv) (fun _ => 0) demoBefore).conns 7).base.tasks.length = 1 ∧
    submitResponse false .cmpp 2 (Handlers.exampleSubmitBody [97]) .accepted 77 [] ∉
      frames ((run some (fun _ => ServerTraffic.demoEnv) (fun _ => 0) demoBefore).conns 7) := by
  refine ⟨rfl, rfl, rfl, ?_⟩
  decide

/-- The whole session, with a signal in its midst. -/
def demoAll : List Step :=
  [.sys .g, .sys .g, .sys .main] ++ ServerTraffic.demoSteps.map (fun x => .conn 7 (.base x 0)) ++ [.sys .signal]

set_option maxRecDepth 20000 in
/-- Satisfiable: at rest when the signal comes; the submit is answered. -/
example (more : List Step) : submitResponse false .cmpp 2 (Handlers.exampleSubmitBody [97]) .accepted 77 [] ∈
    frames ((run some (fun _ => ServerTraffic.demoEnv) (fun _ => 0) (demoAll ++ more)).conns 7) := by
  have hon : Spec.on 7 demoAll = ServerTraffic.demoSteps.map fun x => .base x 0 := rfl
  have hr : ((run some (fun _ => ServerTraffic.demoEnv) (fun _ => 0) demoAll).conns 7).base.tasks.length = 0 ∧
      ((run some (fun _ => ServerTraffic.demoEnv) (fun _ => 0) demoAll).conns 7).own.length = 0 ∧
      ((run some (fun _ => ServerTraffic.demoEnv) (fun _ => 0) demoAll).conns 7).queue.length = 0 := by
    refine ⟨?_, ?_, ?_⟩ <;> decide +kernel
  refine at_rest_partial some (fun _ => ServerTraffic.demoEnv) (fun _ => 0) (by simp [ServerTraffic.demoEnv]) demoAll more 7
    (by rw [proc_alone]; rfl)
    ((ServerTraffic.demoSteps.take 4).map fun x => .base x 0) ((ServerTraffic.demoSteps.drop 5).map fun x => .base x 0) 4 2
    (Handlers.exampleSubmitBody [97]) { account := some {}, id := 77, rptId := 78, rptSeq := 9 } 0 _ rfl ?_ (by simp) ?_ (by decide)
    (by decide +kernel) (by decide +kernel) (ServerTicks.settled_of_empty hr.2.1 hr.2.2 hr.1)
  · have : (ServerTicks.run some ServerTraffic.demoEnv 0 ((ServerTraffic.demoSteps.take 4).map fun x => .base x 0)).base.ver = 0x20 := by decide
    rw [this]; rfl
  · intro cmd seq body d now hm n ac hf
    rw [hon, List.mem_map] at hm
    obtain ⟨x, hx, he⟩ := hm
    cases he
    exact ServerTraffic.demo_accounts cmd seq body d hx n ac hf

/-- Satisfiable: after the signal the process has not ended, and the packets of the session are handled. -/
example : (run some (fun _ => ServerTraffic.demoEnv) (fun _ => 0) ([.sys .g, .sys .g, .sys .main] ++ .sys .signal :: [.sys .g])).proc.ended = none := rfl

end Gosms.ServerStop
