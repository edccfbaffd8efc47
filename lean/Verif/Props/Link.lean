import Verif.Spec.Link
import Verif.Props.ServerAlone
import Verif.Props.ClientTraffic

/-!
# C146: this library's client keeps its sessions with this library's server

The client's receiver answers the server's heartbeats, so that C145 applies to the two of them joined by a network.
-/

namespace Gosms.Link
open Gosms.Spec (raw Sendable arrived Known responseOf)
open Gosms.Spec.ServerStream (KeptUp)
open Gosms.Spec.ServerLife (segments written heartbeats AnswersHeartbeat Answering BareAlone ComesAlone answersArrived tickNext)
open Gosms.Spec.ServerTraffic (loginCmd terminateCmd activeCmd)
open Gosms.Spec.Link (Quiet Ordered TicksWithin clock)
open Gosms.ServerTraffic (Env Draw)
open Gosms.ServerTicks (Settled)
open Gosms.Traffic (Packet receive)
open Gosms.ClientTraffic (onTraffic)

/-- What a step is to the server. -/
def contrib (s : State) : Step → List ServerLife.Step
  | .server (.data ..) => []
  | .server x => [x]
  | .arrive n d now => if s.flight.take n = [] then [] else [.data (s.flight.take n) d now]
  | _ => []

/-- What a history is to the server. -/
def trace (z : Bool) (gb : Bytes → Option Bytes) (e : Env) : State → List Step → List ServerLife.Step
  | _, [] => []
  | s, x :: xs => contrib s x ++ trace z gb e (step z gb e s x) xs

def start (t0 : Int) : State := { srv := { tk := { lastUse := t0 } } }

theorem trace_append (z : Bool) (gb : Bytes → Option Bytes) (e : Env) (a b : List Step) : ∀ s,
    trace z gb e s (a ++ b) = trace z gb e s a ++ trace z gb e (a.foldl (step z gb e) s) b := by
  induction a with
  | nil => intro s; rfl
  | cons x a ih => intro s; rw [List.cons_append, trace, trace, ih, List.append_assoc]; rfl

theorem run_snoc (z : Bool) (gb : Bytes → Option Bytes) (e : Env) (t0 : Int) (l : List Step) (x : Step) :
    run z gb e t0 (l ++ [x]) = step z gb e (run z gb e t0 l) x := by simp [run]

theorem trace_snoc (z : Bool) (gb : Bytes → Option Bytes) (e : Env) (t0 : Int) (l : List Step) (x : Step) :
    trace z gb e (start t0) (l ++ [x]) = trace z gb e (start t0) l ++ contrib (run z gb e t0 l) x := by
  rw [trace_append]
  simp only [trace, List.append_nil]
  rfl

theorem step_srv (z : Bool) (gb : Bytes → Option Bytes) (e : Env) (s : State) (x : Step) :
    (step z gb e s x).srv = (contrib s x).foldl (ServerLife.step z gb e) s.srv := by
  cases x with
  | server y => cases y <;> rfl
  | arrive n d now =>
    simp only [step, contrib]
    split <;> rfl
  | read ce =>
    simp only [step, contrib, List.foldl_nil]
    split
    · unfold reads
      split
      · rfl
      · dsimp only
        split <;> rfl
    · rfl
  | send cmd seq body =>
    simp only [step, contrib, List.foldl_nil]
    split <;> rfl

/-- The server's end of a history is a history of the server. -/
theorem run_srv (z : Bool) (gb : Bytes → Option Bytes) (e : Env) (t0 : Int) (l : List Step) :
    (run z gb e t0 l).srv = ServerLife.run z gb e t0 (trace z gb e (start t0) l) := by
  induction l using snoc_induction with
  | nil => rfl
  | snoc l x ih =>
    rw [run_snoc, trace_snoc, step_srv, ih]
    unfold ServerLife.run
    rw [List.foldl_append]

/-- A frame as a packet. -/
def pk (w : Bytes) : Packet := ⟨rd32 ((w.drop 4).take 4), rd32 ((w.drop 8).take 4), w.drop 12⟩

theorem pk_raw (q : Packet) : pk (raw q) = q := by
  unfold pk raw Gosms.Spec.header12
  have e4 : ((be32 (UInt32.ofNat (12 + q.body.length)) ++ (be32 q.cmd ++ be32 q.seq)) ++ q.body).drop 4 = be32 q.cmd ++ (be32 q.seq ++ q.body) := by
    rw [List.append_assoc, List.append_assoc, List.drop_left' (by simp)]
  have e8 : ((be32 (UInt32.ofNat (12 + q.body.length)) ++ (be32 q.cmd ++ be32 q.seq)) ++ q.body).drop 8 = be32 q.seq ++ q.body := by
    rw [show (8 : Nat) = 4 + 4 from rfl, ← List.drop_drop, e4, List.drop_left' (by simp)]
  have e12 : ((be32 (UInt32.ofNat (12 + q.body.length)) ++ (be32 q.cmd ++ be32 q.seq)) ++ q.body).drop 12 = q.body := by
    rw [show (12 : Nat) = 8 + 4 from rfl, ← List.drop_drop, e8, List.drop_left' (by simp)]
  rw [e4, e8, e12, List.take_left' (by simp), List.take_left' (by simp), rd32_be32, rd32_be32]

/-- What the client writes in answer to a packet. -/
theorem client_answer (p : Proto) (ce : ClientTraffic.Env) (hid : ce.nextId.length = 10) (s : Client.State) (cmd seq : UInt32) (body : Bytes)
    (o : ClientTraffic.Out) (h : onTraffic p ce s cmd seq body = some o) :
    (∀ w, o.written = some w → ∃ b, w = raw ⟨responseOf cmd, seq, b⟩ ∧ b.length ≤ 14 ∧ Known p (responseOf cmd) ∧ responseOf cmd ≠ loginCmd p ∧
      ((activeCmd p).map responseOf = some (responseOf cmd) ↔ activeCmd p = some cmd)) ∧
    (activeCmd p = some cmd → o.closed = false → ∃ w, o.written = some w) := by
  rw [ClientTraffic.onTraffic_eq ce s seq body p cmd hid] at h
  cases hk : Spec.ClientTraffic.kind p cmd with
  | none =>
    rw [hk] at h
    obtain rfl := (Option.some.inj h).symm
    refine ⟨fun w hw => (nomatch hw), fun ha => ?_⟩
    exfalso
    cases p <;> simp only [activeCmd, Option.some.injEq, reduceCtorEq] at ha <;> subst ha <;> cases hk
  | some k =>
    rw [hk] at h
    dsimp only at h
    unfold ClientTraffic.expectK at h
    split at h
    · obtain rfl := (Option.some.inj h).symm
      dsimp only
      constructor
      · intro w hw
        split at hw
        · unfold Spec.ClientTraffic.answerTo at hw
          unfold Spec.ClientTraffic.kind at hk
          split at hk <;> first
            | (cases hk; done)
            | (obtain rfl := Option.some.inj hk
               cases hw
               done)
            | (obtain rfl := Option.some.inj hk
               cases hw
               refine ⟨_, rfl, ?_, by decide, by decide, by decide⟩
               (try simp) <;> (try split) <;> (try omega))
        · cases hw
      · intro ha hcl
        have hka : k = .active := by
          cases p <;> simp only [activeCmd, Option.some.injEq, reduceCtorEq] at ha <;> subst ha <;> exact (Option.some.inj hk).symm
        subst hka
        have hu : ¬ Spec.ClientTraffic.Undecodable ce.gbDec p .active body := fun u => nomatch u.2.1
        have hs : ∃ w, Spec.ClientTraffic.answerTo (Cmpp.v3 ce.ver) ce.nextId p .active cmd seq body = some w := by
          cases p with
          | cmpp => exact ⟨_, rfl⟩
          | smgp => exact ⟨_, rfl⟩
          | sgip => cases ha
        obtain ⟨w, hw⟩ := hs
        simp only [hw, hu, Option.isSome_some, reduceCtorEq, false_or, true_and, decide_eq_false_iff_not, Bool.not_eq_false] at hcl
        exact ⟨w, by rw [if_pos ⟨hcl, hu⟩, hw]⟩
    · cases h

/-- The packets a step makes the client write. -/
def told (p : Proto) (s : State) : Step → List Packet
  | .read ce =>
    if s.up then
      match s.srv.tk.wire[s.read]? with
      | none => []
      | some it => ((onTraffic p ce s.cli (pk (frame it)).cmd (pk (frame it)).seq (pk (frame it)).body).bind (·.written)).toList.map pk
    else []
  | .send cmd seq body => if s.up then [⟨cmd, seq, body⟩] else []
  | _ => []

/-- The packets the client writes. -/
def story (z : Bool) (gb : Bytes → Option Bytes) (e : Env) : State → List Step → List Packet
  | _, [] => []
  | s, x :: xs => told e.proto s x ++ story z gb e (step z gb e s x) xs

theorem story_append (z : Bool) (gb : Bytes → Option Bytes) (e : Env) (a b : List Step) : ∀ s,
    story z gb e s (a ++ b) = story z gb e s a ++ story z gb e (a.foldl (step z gb e) s) b := by
  induction a with
  | nil => intro s; rfl
  | cons x a ih => intro s; rw [List.cons_append, story, story, ih, List.append_assoc]; rfl

theorem story_snoc (z : Bool) (gb : Bytes → Option Bytes) (e : Env) (t0 : Int) (l : List Step) (x : Step) :
    story z gb e (start t0) (l ++ [x]) = story z gb e (start t0) l ++ told e.proto (run z gb e t0 l) x := by
  rw [story_append]
  simp only [story, List.append_nil]
  rfl

/-- A heartbeat. -/
def beats (p : Proto) (it : ServerTicks.Item) : Bool := (activeCmd p).any fun c => Spec.ServerTraffic.command (frame it) = be32 c

theorem wire_grows (z : Bool) (gb : Bytes → Option Bytes) (e : Env) (s : ServerLife.State) (x : ServerLife.Step) :
    ∃ w, (ServerLife.step z gb e s x).tk.wire = s.tk.wire ++ w := by
  rcases ServerLife.tk_step z gb e s x with h | ⟨y, h, _⟩
  · exact ⟨[], by rw [h]; simp⟩
  · obtain ⟨w, hw⟩ := ServerTicks.wire_prefix gb e [y] s.tk
    exact ⟨w, by rw [h]; exact hw.symm⟩

theorem wire_grows_all (z : Bool) (gb : Bytes → Option Bytes) (e : Env) (l : List ServerLife.Step) : ∀ s : ServerLife.State,
    ∃ w, (l.foldl (ServerLife.step z gb e) s).tk.wire = s.tk.wire ++ w := by
  induction l with
  | nil => intro s; exact ⟨[], by simp⟩
  | cons x l ih =>
    intro s
    obtain ⟨w1, h1⟩ := wire_grows z gb e s x
    obtain ⟨w2, h2⟩ := ih (ServerLife.step z gb e s x)
    exact ⟨w1 ++ w2, by rw [List.foldl_cons, h2, h1, List.append_assoc]⟩

/-- Every frame has a command. -/
theorem frame_command (z : Bool) (gb : Bytes → Option Bytes) (e : Env) (h16 : ∀ x, (e.md5 x).length = 16) (t0 : Int) (steps : List ServerLife.Step)
    (it : ServerTicks.Item) (hit : it ∈ (ServerLife.run z gb e t0 steps).tk.wire) : ∃ c, Spec.ServerTraffic.command (frame it) = be32 c := by
  obtain ⟨ts, c, hts, _⟩ := ServerLife.life_inv z gb e t0 steps
  rw [hts] at hit
  cases it with
  | own f x =>
    obtain ⟨lu, t, o, h⟩ := ServerTicks.own_on_wire gb e t0 ts hit
    have := ServerTicks.sent_command h
    cases x with
    | beat => obtain ⟨c, _, hc⟩ := this.1 rfl; exact ⟨c, hc⟩
    | dly => exact ⟨_, (this.2.1 rfl).2⟩
    | close => exact ⟨_, this.2.2 rfl⟩
  | reply x =>
    have hs := ServerTicks.sim_run gb e t0 ts
    have hx : x ∈ (ServerTraffic.run e (ServerTicks.answering gb e t0 ts)).wire := by
      rw [← hs.2, hs.1.wire]; exact List.mem_filterMap.2 ⟨_, hit, rfl⟩
    obtain ⟨r, hr, hg, hE⟩ := ServerTraffic.wire_entry h16 (ServerTraffic.inv_run_all e _) hx
    by_cases hrpt : x.2.2 = .rpt
    · exact ⟨_, (ServerTraffic.entry_report hE hrpt).1⟩
    · exact ⟨_, (ServerTraffic.entry_answer hg hE hrpt).1⟩

/-- What the client has written and what has become of it. -/
structure Inv (p : Proto) (js : List Step) (s : State) (qs : List Packet) (ts : List ServerLife.Step) : Prop where
  sent : s.sent = qs.flatMap raw
  gone : s.gone ≤ s.sent.length
  segs : (segments ts).flatten = s.sent.take s.gone
  read : s.read ≤ s.srv.tk.wire.length
  some_ : (qs.filter fun q => AnswersHeartbeat p q).length ≤ ((s.srv.tk.wire.take s.read).filter (beats p)).length
  all : s.up = true → (qs.filter fun q => AnswersHeartbeat p q).length = ((s.srv.tk.wire.take s.read).filter (beats p)).length
  known : ∀ q ∈ qs, Known p q.cmd ∧ 12 + q.body.length ≤ 5120
  logins : (qs.filter fun q => q.cmd = loginCmd p).length ≤ (js.filter fun | .send cmd _ _ => decide (cmd = loginCmd p) | _ => false).length

theorem segments_append (a b : List ServerLife.Step) : segments (a ++ b) = segments a ++ segments b := List.filterMap_append

theorem inv_run (z : Bool) (gb : Bytes → Option Bytes) (e : Env) (h16 : ∀ x, (e.md5 x).length = 16) (t0 : Int) (js : List Step)
    (hsend : ∀ cmd seq body, Step.send cmd seq body ∈ js → Known e.proto cmd ∧ 12 + body.length ≤ 5120 ∧ ¬ AnswersHeartbeat e.proto ⟨cmd, seq, body⟩)
    (hid : ∀ ce, Step.read ce ∈ js → ce.nextId.length = 10) :
    Inv e.proto js (run z gb e t0 js) (story z gb e (start t0) js) (trace z gb e (start t0) js) := by
  induction js using snoc_induction with
  | nil => exact ⟨rfl, Nat.le_refl _, rfl, Nat.le_refl _, Nat.le_refl _, fun _ => rfl, fun q hq => (nomatch hq), Nat.le_refl _⟩
  | snoc l x ih =>
    have ih := ih (fun cmd seq body h => hsend cmd seq body (List.mem_append_left _ h)) (fun ce h => hid ce (List.mem_append_left _ h))
    have hwire := fun it h => frame_command z gb e h16 t0 (trace z gb e (start t0) l) it (by rw [← run_srv]; exact h)
    have hfl : ∀ (l : List Step) (x : Step), (l.filter fun | .send cmd _ _ => decide (cmd = loginCmd e.proto) | _ => false).length ≤
        ((l ++ [x]).filter fun | .send cmd _ _ => decide (cmd = loginCmd e.proto) | _ => false).length := by
      intro l x; rw [List.filter_append, List.length_append]; omega
    rw [run_snoc, story_snoc, trace_snoc]
    generalize run z gb e t0 l = s at ih hwire
    generalize story z gb e (start t0) l = qs at ih
    generalize trace z gb e (start t0) l = ts at ih
    obtain ⟨i1, i2, i3, i4, i5, i6, i7, i8⟩ := ih
    have i8' := fun x => Nat.le_trans i8 (hfl l x)
    -- a step of the server
    have hserver : ∀ x y, told e.proto s x = [] → (y = s ∨ ∃ ys, y = { s with srv := ys } ∧ ∃ w, ys.tk.wire = s.srv.tk.wire ++ w) → segments (contrib s x) = [] →
        Inv e.proto (l ++ [x]) y (qs ++ told e.proto s x) (ts ++ contrib s x) := by
      intro x y h1 h2 h3
      rw [h1, List.append_nil]
      have hsg : (segments (ts ++ contrib s x)).flatten = s.sent.take s.gone := by rw [segments_append, h3, List.append_nil, i3]
      rcases h2 with rfl | ⟨ys, rfl, w, hw⟩
      · exact ⟨i1, i2, hsg, i4, i5, i6, i7, i8' x⟩
      · have ht : ys.tk.wire.take s.read = s.srv.tk.wire.take s.read := by rw [hw, List.take_append_of_le_length i4]
        exact ⟨i1, i2, hsg, by dsimp only; rw [hw, List.length_append]; omega, by dsimp only; rw [ht]; exact i5, fun hu => by dsimp only; rw [ht]; exact i6 hu, i7, i8' x⟩
    cases x with
    | server y =>
      cases y with
      | data b d now => exact hserver _ _ rfl (.inl rfl) rfl
      | _ => exact hserver _ _ rfl (.inr ⟨_, rfl, wire_grows z gb e _ _⟩) rfl
    | arrive n d now =>
      by_cases hn : s.flight.take n = []
      · have h1 : step z gb e s (.arrive n d now) = s := by simp only [step, hn, if_true]
        rw [h1]
        exact hserver _ _ rfl (.inl rfl) (by simp only [contrib, hn, if_true]; rfl)
      · have h1 : step z gb e s (.arrive n d now) =
            { s with srv := ServerLife.step z gb e s.srv (.data (s.flight.take n) d now), gone := s.gone + (s.flight.take n).length } := by
          simp only [step, if_neg hn]
        have h2 : contrib s (.arrive n d now) = [.data (s.flight.take n) d now] := by simp only [contrib, if_neg hn]
        rw [h1, h2]
        obtain ⟨w, hw⟩ := wire_grows z gb e s.srv (.data (s.flight.take n) d now)
        have ht : (ServerLife.step z gb e s.srv (.data (s.flight.take n) d now)).tk.wire.take s.read = s.srv.tk.wire.take s.read := by
          rw [hw, List.take_append_of_le_length i4]
        show Inv _ _ _ (qs ++ []) _
        rw [List.append_nil]
        have hlen : (s.flight.take n).length ≤ s.sent.length - s.gone := by
          unfold State.flight; rw [List.length_take, List.length_drop]; omega
        refine ⟨i1, by dsimp only; omega, ?_, by dsimp only; rw [hw, List.length_append]; omega, by dsimp only; rw [ht]; exact i5,
          fun hu => by dsimp only; rw [ht]; exact i6 hu, i7, i8' _⟩
        rw [segments_append, List.flatten_append, i3]
        show _ ++ ([s.flight.take n] : List Bytes).flatten = s.sent.take (s.gone + (s.flight.take n).length)
        rw [List.flatten_singleton, List.take_add]
        congr 1
        unfold State.flight
        rw [List.length_take, List.take_eq_take_iff]
        omega
    | send cmd seq body =>
      obtain ⟨k1, k2, k3⟩ := hsend cmd seq body (by simp)
      by_cases hu : s.up = true
      · have h1 : step z gb e s (.send cmd seq body) = { s with sent := s.sent ++ raw ⟨cmd, seq, body⟩ } := by
          simp only [step, hu, if_true, raw, Spec.header12, List.append_assoc]
        have h2 : told e.proto s (.send cmd seq body) = [⟨cmd, seq, body⟩] := by simp only [told, hu, if_true]
        rw [h1, h2]
        have hf : ((qs ++ [(⟨cmd, seq, body⟩ : Packet)]).filter fun q => AnswersHeartbeat e.proto q) = qs.filter fun q => AnswersHeartbeat e.proto q := by
          rw [List.filter_append]
          simp [k3]
        show Inv _ _ _ _ (ts ++ [])
        rw [List.append_nil]
        refine ⟨by simp [i1], by simp; omega, ?_, i4, by rw [hf]; exact i5, fun hh => by rw [hf]; exact i6 hh, ?_, ?_⟩
        · dsimp only
          rw [List.take_append_of_le_length i2]
          exact i3
        · intro q hq
          rcases List.mem_append.1 hq with hq | hq
          · exact i7 q hq
          · obtain rfl := List.mem_singleton.1 hq
            exact ⟨k1, k2⟩
        · rw [List.filter_append, List.filter_append, List.length_append, List.length_append]
          have : ([(⟨cmd, seq, body⟩ : Packet)].filter fun q => decide (q.cmd = loginCmd e.proto)).length =
              (([Step.send cmd seq body] : List Step).filter fun | .send cmd _ _ => decide (cmd = loginCmd e.proto) | _ => false).length := by
            by_cases hc : cmd = loginCmd e.proto <;> simp [hc]
          omega
      · have h1 : step z gb e s (.send cmd seq body) = s := by simp [step, hu]
        rw [h1]
        exact hserver _ _ (by simp [told, hu]) (.inl rfl) rfl
    | read ce =>
      by_cases hu : s.up = true
      · have h1 : step z gb e s (.read ce) = reads e.proto ce s := by simp only [step, hu, if_true]
        rw [h1]
        cases hr : s.srv.tk.wire[s.read]? with
        | none =>
          have h2 : reads e.proto ce s = s := by simp only [reads, hr]
          rw [h2]
          exact hserver _ _ (by simp only [told, hu, hr, if_true]) (.inl rfl) rfl
        | some it =>
          have hlt : s.read < s.srv.tk.wire.length := (List.getElem?_eq_some_iff.1 hr).1
          have htk : s.srv.tk.wire.take (s.read + 1) = s.srv.tk.wire.take s.read ++ [it] := by
            rw [List.take_add_one, hr]; rfl
          obtain ⟨c, hc⟩ := hwire it (List.mem_of_getElem? hr)
          have hcmd : (pk (frame it)).cmd = c := by
            show rd32 (Spec.ServerTraffic.command (frame it)) = c
            rw [hc, rd32_be32]
          have hbeat : beats e.proto it = decide (activeCmd e.proto = some c) := by
            unfold beats
            rw [hc]
            cases activeCmd e.proto with
            | none => simp
            | some c' =>
              simp only [Option.any_some, Option.some.injEq]
              rw [decide_eq_decide]
              exact ⟨fun h => (be32_inj h).symm, fun h => by rw [h]⟩
          have ht0 : told e.proto s (.read ce) =
              ((onTraffic e.proto ce s.cli (pk (frame it)).cmd (pk (frame it)).seq (pk (frame it)).body).bind (·.written)).toList.map pk := by
            simp only [told, hu, hr, if_true]
          have hr0 : reads e.proto ce s = match onTraffic e.proto ce s.cli (pk (frame it)).cmd (pk (frame it)).seq (pk (frame it)).body with
              | none => { s with read := s.read + 1, up := false }
              | some o => { s with read := s.read + 1, up := !o.closed, sent := s.sent ++ o.written.getD [], cli := o.st } := by
            simp only [reads, hr]; rfl
          have hcon : contrib s (.read ce) = [] := rfl
          rw [ht0, hr0, hcon, List.append_nil]
          have hlog : (l.filter fun | .send cmd _ _ => decide (cmd = loginCmd e.proto) | _ => false).length =
              ((l ++ [Step.read ce]).filter fun | .send cmd _ _ => decide (cmd = loginCmd e.proto) | _ => false).length := by
            rw [List.filter_append]; simp
          have hmore : ((s.srv.tk.wire.take s.read).filter (beats e.proto)).length ≤ ((s.srv.tk.wire.take (s.read + 1)).filter (beats e.proto)).length := by
            rw [htk, List.filter_append, List.length_append]; omega
          cases ho : onTraffic e.proto ce s.cli (pk (frame it)).cmd (pk (frame it)).seq (pk (frame it)).body with
          | none =>
            show Inv _ _ _ (qs ++ []) _
            rw [List.append_nil]
            exact ⟨i1, i2, i3, by dsimp only; omega, Nat.le_trans i5 hmore, fun hh => (nomatch hh), i7, i8' _⟩
          | some o =>
            obtain ⟨c1, c2⟩ := client_answer e.proto ce (hid ce (by simp)) s.cli _ _ _ o ho
            rw [hcmd] at c1 c2
            cases hw : o.written with
            | none =>
              show Inv _ _ { s with read := s.read + 1, up := !o.closed, sent := s.sent ++ o.written.getD [], cli := o.st } (qs ++ (o.written.toList.map pk)) _
              rw [hw]
              simp only [Option.toList_none, List.map_nil, List.append_nil, Option.getD_none]
              refine ⟨i1, i2, i3, by dsimp only; omega, Nat.le_trans i5 hmore, fun hh => ?_, i7, i8' _⟩
              have hnb : beats e.proto it = false := by
                rw [hbeat, decide_eq_false_iff_not]
                intro ha
                obtain ⟨w, hw'⟩ := c2 ha (by simpa using hh)
                rw [hw] at hw'
                cases hw'
              dsimp only
              rw [htk, List.filter_append, i6 hu]
              simp [hnb]
            | some w =>
              obtain ⟨b, hb1, hb2, hb3, hb4, hb5⟩ := c1 w hw
              show Inv _ _ { s with read := s.read + 1, up := !o.closed, sent := s.sent ++ o.written.getD [], cli := o.st } (qs ++ (o.written.toList.map pk)) _
              rw [hw]
              simp only [Option.toList_some, List.map_cons, List.map_nil, Option.getD_some]
              rw [hb1, pk_raw]
              have hcount : ((qs ++ [(⟨responseOf c, (pk (frame it)).seq, b⟩ : Packet)]).filter fun q => AnswersHeartbeat e.proto q).length =
                  ((s.srv.tk.wire.take (s.read + 1)).filter (beats e.proto)).length := by
                rw [htk, List.filter_append, List.filter_append, List.length_append, List.length_append, i6 hu]
                congr 1
                by_cases ha : activeCmd e.proto = some c
                · have hA : AnswersHeartbeat e.proto (⟨responseOf c, (pk (frame it)).seq, b⟩ : Packet) := hb5.2 ha
                  have hB : beats e.proto it = true := by rw [hbeat, decide_eq_true_eq]; exact ha
                  simp [hA, hB]
                · have hA : ¬ AnswersHeartbeat e.proto (⟨responseOf c, (pk (frame it)).seq, b⟩ : Packet) := fun h => ha (hb5.1 h)
                  have hB : beats e.proto it = false := by rw [hbeat, decide_eq_false_iff_not]; exact ha
                  simp [hA, hB]
              refine ⟨by simp [i1], by simp; omega, ?_, by dsimp only; omega, Nat.le_of_eq hcount, fun _ => hcount, ?_, ?_⟩
              · dsimp only
                rw [List.take_append_of_le_length i2]
                exact i3
              · intro q hq
                rcases List.mem_append.1 hq with hq | hq
                · exact i7 q hq
                · obtain rfl := List.mem_singleton.1 hq
                  exact ⟨hb3, by dsimp only; omega⟩
              · rw [List.filter_append, List.length_append]
                simp only [hb4, decide_false, List.filter_cons, List.filter_nil, if_false, List.length_nil, Nat.add_zero, Bool.false_eq_true]
                exact i8' _
      · have h1 : step z gb e s (.read ce) = s := by simp [step, hu]
        rw [h1]
        exact hserver _ _ (by simp [told, hu]) (.inl rfl) rfl

theorem contrib_short (s : State) (x : Step) : contrib s x = [] ∨ ∃ y, contrib s x = [y] := by
  cases x with
  | server y => cases y <;> simp [contrib]
  | arrive n d now => simp only [contrib]; split <;> simp
  | _ => exact .inl rfl

/-- A step of the server's end is a step of the connection. -/
theorem trace_at (z : Bool) (gb : Bytes → Option Bytes) (e : Env) (t0 : Int) (js : List Step) : ∀ s1 y s2,
    trace z gb e (start t0) js = s1 ++ y :: s2 →
    ∃ a x b, js = a ++ x :: b ∧ trace z gb e (start t0) a = s1 ∧ contrib (run z gb e t0 a) x = [y] := by
  induction js using snoc_induction with
  | nil => intro s1 y s2 h; exact absurd h.symm (by simp [trace])
  | snoc l x ih =>
    intro s1 y s2 h
    rw [trace_snoc] at h
    rcases contrib_short (run z gb e t0 l) x with hc | ⟨y', hc⟩
    · rw [hc, List.append_nil] at h
      obtain ⟨a, x', b, h1, h2⟩ := ih s1 y s2 h
      exact ⟨a, x', b ++ [x], by rw [h1]; simp, h2⟩
    · rw [hc] at h
      rcases List.eq_nil_or_concat s2 with rfl | ⟨s2', w, rfl⟩
      · have := List.append_inj' h rfl
        exact ⟨l, x, [], rfl, this.1, by rw [hc, this.2]⟩
      · have h' : trace z gb e (start t0) l ++ [y'] = (s1 ++ y :: s2') ++ [w] := by rw [h]; simp
        obtain ⟨a, x', b, h1, h2⟩ := ih s1 y s2' (List.append_inj' h' rfl).1
        exact ⟨a, x', b ++ [x], by rw [h1]; simp, h2⟩

theorem trace_prefix (z : Bool) (gb : Bytes → Option Bytes) (e : Env) (t0 : Int) (js : List Step) (s1 s2 : List ServerLife.Step)
    (h : trace z gb e (start t0) js = s1 ++ s2) : ∃ a b, js = a ++ b ∧ trace z gb e (start t0) a = s1 := by
  cases s2 with
  | nil => exact ⟨js, [], by simp, by simpa using h⟩
  | cons y s2 =>
    obtain ⟨a, x, b, h1, h2, _⟩ := trace_at z gb e t0 js s1 y s2 h
    exact ⟨a, x :: b, h1, h2⟩

theorem contrib_tick {s : State} {x : Step} {d : ServerTicks.TickDraw} (h : contrib s x = [.tick d]) : x = .server (.tick d) := by
  cases x with
  | server y =>
    cases y with
    | data b d' now => cases h
    | _ => simp only [contrib, List.cons.injEq, and_true] at h; rw [h]
  | arrive n d' now => simp only [contrib] at h; split at h <;> simp at h
  | _ => cases h

theorem contrib_data {s : State} {x : Step} {bytes : Bytes} {d : Draw} {now : Int} (h : contrib s x = [.data bytes d now]) :
    ∃ n, x = .arrive n d now ∧ bytes = s.flight.take n := by
  cases x with
  | server y =>
    cases y with
    | data b d' now => cases h
    | _ => simp [contrib] at h
  | arrive n d' now' =>
    simp only [contrib] at h
    split at h
    · cases h
    · simp only [List.cons.injEq, ServerLife.Step.data.injEq, and_true] at h
      obtain ⟨rfl, rfl, rfl⟩ := h
      exact ⟨n, rfl, rfl⟩
  | _ => cases h

theorem trace_clock (z : Bool) (gb : Bytes → Option Bytes) (e : Env) (js : List Step) : ∀ s,
    ((trace z gb e s js).map Spec.ServerLife.clock).Sublist (js.filterMap clock) := by
  induction js with
  | nil => intro s; exact List.Sublist.refl _
  | cons x js ih =>
    intro s
    rw [trace, List.map_append, show x :: js = [x] ++ js from rfl, List.filterMap_append]
    refine List.Sublist.append ?_ (ih _)
    cases x with
    | server y => cases y <;> simp [contrib, clock]
    | arrive n d now => simp only [contrib]; split <;> simp [clock, Spec.ServerLife.clock]
    | _ => simp [contrib]

open Gosms.Spec (wholeIn)

theorem wholeIn_front (A B : List Packet) : ∀ n, n ≤ (A.flatMap raw).length → wholeIn (A ++ B) n ≤ A.length := by
  induction A with
  | nil =>
    intro n hn
    have : n = 0 := by simpa using hn
    subst this
    cases B with
    | nil => simp [wholeIn]
    | cons q B => simp [wholeIn, Traffic.length_raw]
  | cons q A ih =>
    intro n hn
    rw [List.cons_append, wholeIn]
    split
    · have := ih (n - (raw q).length) (by rw [List.flatMap_cons, List.length_append] at hn; omega)
      simp; omega
    · omega

theorem wholeIn_zero (A : List Packet) : wholeIn A 0 = 0 := by
  cases A with
  | nil => rfl
  | cons q A => simp [wholeIn, Traffic.length_raw]

theorem wholeIn_all (A B : List Packet) : wholeIn (A ++ B) (A.flatMap raw).length = A.length := by
  have := Traffic.wholeIn_skip A B 0
  rw [wholeIn_zero] at this
  simpa using this

theorem heartbeats_wire (p : Proto) (s : ServerLife.State) : heartbeats p s = (s.tk.wire.filter (beats p)).length := by
  have : written s = s.tk.wire.map frame := by
    unfold written
    congr 1
  unfold heartbeats
  rw [this, List.filter_map, List.length_map]
  rfl

theorem arrived_all (qs : List Packet) (segs : List Bytes) : arrived qs segs segs.length = wholeIn qs segs.flatten.length := by
  unfold arrived
  rw [List.take_length]

/-- The same, if the server's end is open at every tick. -/
theorem kept_while_open (z : Bool) (gb : Bytes → Option Bytes) (e : Env) (h16 : ∀ x, (e.md5 x).length = 16) (hp : e.proto ≠ .sgip) (t0 T : Int) (js : List Step)
    (hsend : ∀ cmd seq body, Step.send cmd seq body ∈ js → Known e.proto cmd ∧ 12 + body.length ≤ 5120 ∧ ¬ AnswersHeartbeat e.proto ⟨cmd, seq, body⟩)
    (hone : (js.filter fun | .send cmd _ _ => decide (cmd = loginCmd e.proto) | _ => false).length ≤ 1)
    (hid : ∀ ce, Step.read ce ∈ js → ce.nextId.length = 10)
    (hz : z = true → ∀ a n d now b, js = a ++ .arrive n d now :: b → BareAlone ((run z gb e t0 a).srv.buffer ++ (run z gb e t0 a).flight.take n))
    (hwin : ∀ n d now, Step.arrive n d now ∈ js → ∀ nm ac, d.find nm = some ac → 1 ≤ ac.mtWindowSize)
    (hopen : ∀ a d b, js = a ++ .server (.tick d) :: b → (run z gb e t0 a).srv.tk.base.crashed = false ∧ (run z gb e t0 a).srv.tk.base.isOpen = true)
    (hquiet : ∀ a d b, js = a ++ .server (.tick d) :: b → Quiet (run z gb e t0 a))
    (hord : Ordered t0 js) (hT : TicksWithin T t0 js)
    (hconf : ∀ d, Step.server (.tick d) ∈ js → d.pool1 = true ∧ 60 * 1000000000 + T ≤ d.force)
    (f : Bytes) (hf : f ∈ written (run z gb e t0 js).srv) (hcmd : Spec.ServerTraffic.command f = be32 (terminateCmd e.proto)) :
    ∃ a d b, js = a ++ .server (.tick d) :: b ∧ (run z gb e t0 a).srv.tk.base.stat ≠ .login ∧ (run z gb e t0 a).srv.tk.lastUse + d.force < d.now := by
  have hinv : ∀ a b, js = a ++ b → Inv e.proto a (run z gb e t0 a) (story z gb e (start t0) a) (trace z gb e (start t0) a) := fun a b hab =>
    inv_run z gb e h16 t0 a (fun cmd seq body h => hsend cmd seq body (by rw [hab]; exact List.mem_append_left _ h))
      (fun ce h => hid ce (by rw [hab]; exact List.mem_append_left _ h))
  have hI := hinv js [] (by simp)
  have hqs : ∀ a b, js = a ++ b → ∃ B, story z gb e (start t0) js = story z gb e (start t0) a ++ B := fun a b hab =>
    ⟨_, by rw [hab, story_append]⟩
  have hs : Sendable false e.proto (story z gb e (start t0) js) := fun q hq => ⟨(hI.known q hq).1, (hI.known q hq).2, .inl rfl⟩
  have hst : (segments (trace z gb e (start t0) js)).flatten ++ (run z gb e t0 js).flight = (story z gb e (start t0) js).flatMap raw := by
    rw [hI.segs, ← hI.sent]
    exact List.take_append_drop _ _
  have hlen : ∀ a b, js = a ++ b → (segments (trace z gb e (start t0) a)).flatten.length = (run z gb e t0 a).gone := fun a b hab => by
    rw [(hinv a b hab).segs, List.length_take, Nat.min_eq_left (hinv a b hab).gone]
  have hzz : z = true → ComesAlone gb e t0 (trace z gb e (start t0) js) := by
    intro hz1 s1 bytes d now s2 hab
    obtain ⟨a, x, b, h1, h2, h3⟩ := trace_at z gb e t0 js s1 _ s2 hab
    obtain ⟨n, rfl, rfl⟩ := contrib_data h3
    have := hz hz1 a n d now b h1
    rw [run_srv, h2] at this
    rw [hz1] at this ⊢
    exact this
  have hkept : ∀ s1 d s2, trace z gb e (start t0) js = s1 ++ .tick d :: s2 →
      KeptUp (story z gb e (start t0) js) (segments s1) ∧ Settled gb e (ServerLife.run z gb e t0 s1).tk := by
    intro s1 d s2 hab
    obtain ⟨a, x, b, h1, h2, h3⟩ := trace_at z gb e t0 js s1 _ s2 hab
    obtain rfl := contrib_tick h3
    have hQ := hquiet a d b h1
    have hO := hopen a d b h1
    have hsrv := run_srv z gb e t0 a
    rw [h2] at hsrv
    refine ⟨?_, by rw [← hsrv]; exact ServerTicks.settled_of_empty (by rw [hQ.idle.1]; rfl) (by rw [hQ.idle.2.1]; rfl) (by rw [hQ.idle.2.2]; rfl)⟩
    have hfalse := ServerLife.run_reading hzz s1 _ hab
    obtain ⟨ts, c, _, g2, _, _, g5⟩ := ServerLife.life_inv false gb e t0 s1
    have hsp : (segments s1).flatten ++ ((segments (.tick d :: s2)).flatten ++ (run z gb e t0 js).flight) = (story z gb e (start t0) js).flatMap raw := by
      rw [← hst, hab, segments_append, List.flatten_append, List.append_assoc]
    refine (Traffic.keeps_up_iff_partial false e.proto _ (fun _ _ => rfl) _ hs _ _ hsp c g2).1 ?_
    obtain ⟨n, held, k1, k2, k3, _⟩ := Traffic.handed_exactly false e.proto (fun _ _ => false) (fun _ _ => rfl) _ hs _ _ hsp
    obtain rfl := Option.some.inj (k1.symm.trans g2)
    have hheld : held = [] := by
      rw [← hfalse, ← hsrv] at g5
      rcases g5 with g | g | ⟨_, g⟩
      · rw [hO.1] at g; cases g
      · rw [hO.2] at g; cases g
      · rw [← hQ.taken, g]
    subst hheld
    show List.take n _ = _
    rw [arrived_all]
    have e1 : (segments s1).flatten = ((story z gb e (start t0) js).take n).flatMap raw := by
      have e2 : (story z gb e (start t0) js).flatMap raw = ((story z gb e (start t0) js).take n).flatMap raw ++ ((story z gb e (start t0) js).drop n).flatMap raw := by
        rw [← List.flatMap_append, List.take_append_drop]
      rw [List.nil_append] at k3
      rw [k3] at hsp
      exact List.append_cancel_right (hsp.trans e2)
    have e3 := wholeIn_all ((story z gb e (start t0) js).take n) ((story z gb e (start t0) js).drop n)
    rw [List.take_append_drop, ← e1, List.length_take, Nat.min_eq_left k2] at e3
    rw [e3]
  have hans : Answering z gb e t0 (story z gb e (start t0) js) (trace z gb e (start t0) js) := by
    intro i hi
    have hsplit := (List.take_append_drop i (trace z gb e (start t0) js)).symm
    constructor
    · obtain ⟨a, b, hab, ha⟩ := trace_prefix z gb e t0 js _ _ hsplit
      have hA := hinv a b hab
      obtain ⟨B, hB⟩ := hqs a b hab
      rw [← ha, ← run_srv, heartbeats_wire]
      unfold answersArrived
      rw [arrived_all, hlen a b hab, hB]
      have hle := wholeIn_front (story z gb e (start t0) a) B (run z gb e t0 a).gone (by rw [← hA.sent]; exact hA.gone)
      rw [List.take_append_of_le_length hle]
      refine Nat.le_trans (((List.take_sublist _ _).filter _).length_le) (Nat.le_trans hA.some_ ?_)
      exact ((List.take_sublist _ _).filter _).length_le
    · intro hn
      cases hd : (trace z gb e (start t0) js).drop i with
      | nil => rw [hd] at hn; cases hn
      | cons y s2 =>
        rw [hd] at hn hsplit
        cases y with
        | tick d =>
          obtain ⟨a, x, b, hab, ha, h3⟩ := trace_at z gb e t0 js _ _ s2 hsplit
          obtain rfl := contrib_tick h3
          have hA := hinv a _ hab
          have hQ := hquiet a d b hab
          obtain ⟨B, hB⟩ := hqs a _ hab
          rw [← ha, ← run_srv, heartbeats_wire]
          unfold answersArrived
          rw [arrived_all, hlen a _ hab, hB, hQ.arrived, hA.sent, wholeIn_all, List.take_left, hA.all hQ.up, hQ.read]
          unfold written
          rw [List.length_map, List.take_length]
          exact Nat.le_refl _
        | _ => cases hn
  rw [run_srv] at hf
  have hres : ∃ s1 d s2, trace z gb e (start t0) js = s1 ++ .tick d :: s2 ∧ (ServerLife.run z gb e t0 s1).tk.base.stat ≠ .login ∧
      (ServerLife.run z gb e t0 s1).tk.lastUse + d.force < d.now := by
    refine ServerLife.idle_client_kept_alone_partial z gb e h16 hp t0 T _ hs _ hzz _ hst ?_ (Nat.le_trans hI.logins hone) hans hkept ?_ ?_ ?_ f hf hcmd
    · intro bytes d now hm
      obtain ⟨s1, s2, hab⟩ := List.append_of_mem hm
      obtain ⟨a, x, b, h1, _, h3⟩ := trace_at z gb e t0 js s1 _ s2 hab
      obtain ⟨n, rfl, _⟩ := contrib_data h3
      exact hwin n d now (by rw [h1]; simp)
    · exact List.Pairwise.sublist ((trace_clock z gb e js (start t0)).cons_cons t0) hord
    · intro s1 d s2 hab
      obtain ⟨a, x, b, h1, h2, h3⟩ := trace_at z gb e t0 js s1 _ s2 hab
      obtain rfl := contrib_tick h3
      rcases hT a d b h1 with h | ⟨a1, d1, a2, ha, h⟩
      · exact .inl h
      · refine .inr ⟨trace z gb e (start t0) a1, d1, trace z gb e (step z gb e (run z gb e t0 a1) (.server (.tick d1))) a2, ?_, h⟩
        rw [← h2, ha, trace_append]
        rfl
    · intro d hd
      obtain ⟨s1, s2, hab⟩ := List.append_of_mem hd
      obtain ⟨a, x, b, h1, _, h3⟩ := trace_at z gb e t0 js s1 _ s2 hab
      obtain rfl := contrib_tick h3
      exact hconf d (by rw [h1]; simp)
  obtain ⟨s1, d, s2, h1, h2, h3⟩ := hres
  obtain ⟨a, x, b, hab, ha, hx⟩ := trace_at z gb e t0 js _ _ s2 h1
  obtain rfl := contrib_tick hx
  exact ⟨a, d, b, hab, by rw [run_srv, ha]; exact h2, by rw [run_srv, ha]; exact h3⟩

/-- **C146, the part that holds (CMPP, SMGP): a connection between this library's client and this library's server is not ended for being idle.** For every
history of the two, however the client's bytes are torn on their way, if at every tick of a server whose end is open all is quiet, ticks come at most `T`
apart, the pool has room and the configured time is at least a minute and `T`: then the server writes a termination only to a client that has not logged in and
whose connection has not been used for the configured time. That the client answers heartbeats is not assumed: it is what its receiver does. -/
theorem own_client_kept_partial (z : Bool) (gb : Bytes → Option Bytes) (e : Env) (h16 : ∀ x, (e.md5 x).length = 16) (hp : e.proto ≠ .sgip) (t0 T : Int) (js : List Step)
    (hsend : ∀ cmd seq body, Step.send cmd seq body ∈ js → Known e.proto cmd ∧ 12 + body.length ≤ 5120 ∧ ¬ AnswersHeartbeat e.proto ⟨cmd, seq, body⟩)
    (hone : (js.filter fun | .send cmd _ _ => decide (cmd = loginCmd e.proto) | _ => false).length ≤ 1)
    (hid : ∀ ce, Step.read ce ∈ js → ce.nextId.length = 10)
    (hz : z = true → ∀ a n d now b, js = a ++ .arrive n d now :: b → BareAlone ((run z gb e t0 a).srv.buffer ++ (run z gb e t0 a).flight.take n))
    (hwin : ∀ n d now, Step.arrive n d now ∈ js → ∀ nm ac, d.find nm = some ac → 1 ≤ ac.mtWindowSize)
    (hquiet : ∀ a d b, js = a ++ .server (.tick d) :: b → (run z gb e t0 a).srv.tk.base.crashed = false → (run z gb e t0 a).srv.tk.base.isOpen = true →
      Quiet (run z gb e t0 a))
    (hord : Ordered t0 js) (hT : TicksWithin T t0 js)
    (hconf : ∀ d, Step.server (.tick d) ∈ js → d.pool1 = true ∧ 60 * 1000000000 + T ≤ d.force)
    (f : Bytes) (hf : f ∈ written (run z gb e t0 js).srv) (hcmd : Spec.ServerTraffic.command f = be32 (terminateCmd e.proto)) :
    ∃ a d b, js = a ++ .server (.tick d) :: b ∧ (run z gb e t0 a).srv.tk.base.stat ≠ .login ∧ (run z gb e t0 a).srv.tk.lastUse + d.force < d.now := by
  induction js using snoc_induction with
  | nil => cases hf
  | snoc l x ih =>
    have hdown : ∀ a b, (run z gb e t0 a).srv.tk.base.crashed = true ∨ (run z gb e t0 a).srv.tk.base.isOpen = false →
        (run z gb e t0 (a ++ b)).srv.tk = (run z gb e t0 a).srv.tk := by
      intro a b h
      rw [run_srv] at h ⊢
      rw [run_srv, trace_append]
      exact ServerLife.down_run z gb e t0 _ _ h
    by_cases hd : (run z gb e t0 l).srv.tk.base.crashed = true ∨ (run z gb e t0 l).srv.tk.base.isOpen = false
    · refine (fun ⟨a, d, b, h1, h2⟩ => ⟨a, d, b ++ [x], by rw [h1]; simp, h2⟩ :
        (∃ a d b, l = a ++ .server (.tick d) :: b ∧ (run z gb e t0 a).srv.tk.base.stat ≠ .login ∧ (run z gb e t0 a).srv.tk.lastUse + d.force < d.now) → _) ?_
      refine ih (fun cmd seq body h => hsend cmd seq body (List.mem_append_left _ h)) (Nat.le_trans ?_ hone) (fun ce h => hid ce (List.mem_append_left _ h))
        (fun hz1 a n d now b h => hz hz1 a n d now (b ++ [x]) (by rw [h]; simp)) (fun n d now h => hwin n d now (List.mem_append_left _ h))
        (fun a d b h => hquiet a d (b ++ [x]) (by rw [h]; simp)) ?_ ?_ (fun d h => hconf d (List.mem_append_left _ h)) ?_
      · rw [List.filter_append, List.length_append]; omega
      · refine List.Pairwise.sublist (List.Sublist.cons_cons t0 ?_) hord
        rw [List.filterMap_append]
        exact List.sublist_append_left _ _
      · exact fun a d b h => hT a d (b ++ [x]) (by rw [h]; simp)
      · unfold written at hf ⊢
        rw [hdown l [x] hd] at hf
        exact hf
    · have hopen : ∀ a d b, l ++ [x] = a ++ .server (.tick d) :: b →
          (run z gb e t0 a).srv.tk.base.crashed = false ∧ (run z gb e t0 a).srv.tk.base.isOpen = true := by
        intro a d b h
        have ⟨c, hc⟩ : ∃ c, l = a ++ c := by
          rcases List.eq_nil_or_concat b with rfl | ⟨b', w, rfl⟩
          · exact ⟨[], by rw [List.append_nil]; exact (List.append_inj' h rfl).1⟩
          · exact ⟨.server (.tick d) :: b', (List.append_inj' (h.trans (by simp : _ = (a ++ .server (.tick d) :: b') ++ [w])) rfl).1⟩
        constructor
        · cases hcr : (run z gb e t0 a).srv.tk.base.crashed with
          | false => rfl
          | true => exact absurd (by rw [hc, hdown a c (.inl hcr)]; exact .inl hcr) hd
        · cases hcr : (run z gb e t0 a).srv.tk.base.isOpen with
          | true => rfl
          | false => exact absurd (by rw [hc, hdown a c (.inr hcr)]; exact .inr hcr) hd
      exact kept_while_open z gb e h16 hp t0 T _ hsend hone hid hz hwin hopen (fun a d b h => hquiet a d b h (hopen a d b h).1 (hopen a d b h).2)
        hord hT hconf f hf hcmd

/-- **C146 fails for SGIP**: whatever client and server exchange after `a`, if no text (or login) is accepted, the session is ended at the first tick more than
`Server.ForceCloseConnTime` after the last use. -/
theorem own_sgip_client_kept_fails (z : Bool) (gb : Bytes → Option Bytes) (e : Env) (h16 : ∀ x, (e.md5 x).length = 16) (hp : e.proto = .sgip) (t0 : Int)
    (a b c : List Step) (d : ServerTicks.TickDraw)
    (hno : ∀ f ∈ (written (run z gb e t0 (a ++ b)).srv).drop (written (run z gb e t0 a).srv).length, Spec.ServerTicks.activity .sgip f = false)
    (htime : (run z gb e t0 a).srv.tk.lastUse + d.force < d.now) (hpool : d.pool1 = true)
    (hc : (run z gb e t0 (a ++ b ++ .server (.tick d) :: c)).srv.tk.base.crashed = false)
    (ho : (run z gb e t0 (a ++ b ++ .server (.tick d) :: c)).srv.tk.base.isOpen = true)
    (hr : (run z gb e t0 (a ++ b ++ .server (.tick d) :: c)).srv.tk.own = [] ∧ (run z gb e t0 (a ++ b ++ .server (.tick d) :: c)).srv.tk.queue = [] ∧
      (run z gb e t0 (a ++ b ++ .server (.tick d) :: c)).srv.tk.base.tasks = []) :
    ∃ f ∈ written (run z gb e t0 (a ++ b ++ .server (.tick d) :: c)).srv, Spec.ServerTraffic.command f = be32 (terminateCmd .sgip) := by
  obtain ⟨tb, hb⟩ : ∃ tb, trace z gb e (start t0) (a ++ b) = trace z gb e (start t0) a ++ tb := ⟨_, trace_append z gb e a b _⟩
  obtain ⟨tc, hw⟩ : ∃ tc, trace z gb e (start t0) (a ++ b ++ .server (.tick d) :: c) = trace z gb e (start t0) a ++ tb ++ .tick d :: tc :=
    ⟨trace z gb e (step z gb e (run z gb e t0 (a ++ b)) (.server (.tick d))) c, by rw [trace_append, hb]; rfl⟩
  rw [run_srv, hw] at hc ho hr ⊢
  rw [run_srv, run_srv, hb] at hno
  rw [run_srv] at htime
  exact ServerLife.sgip_idle_kept_fails z gb e h16 hp t0 _ tb tc d hno htime hpool hc ho
    (ServerTicks.settled_of_empty (by rw [hr.1]; rfl) (by rw [hr.2.1]; rfl) (by rw [hr.2.2]; rfl))

set_option maxRecDepth 20000 in
/-- An SGIP client that logs in and has nothing to send. -/
example : let a : List Step := [.send ServerLife.bindQ.cmd ServerLife.bindQ.seq ServerLife.bindQ.body, .arrive 1000 SubmitExchange.demoDraw 0,
      .server (.run 0 1), .server (.run 0 1), .server (.loop 1)]
    let b : List Step := [.read {}]
    let d : ServerTicks.TickDraw := { now := 301 * 1000000000, force := 300 * 1000000000 }
    let c : List Step := [.server (.task 0 { now := 301 * 1000000000, seq := 7 }), .server (.loop (301 * 1000000000))]
    let s := run true some SubmitExchange.demoEnv 0 (a ++ b ++ .server (.tick d) :: c)
    (run true some SubmitExchange.demoEnv 0 a).srv.tk.base.stat = .login ∧
    (run true some SubmitExchange.demoEnv 0 (a ++ b)).read = 1 ∧ (run true some SubmitExchange.demoEnv 0 (a ++ b)).up = true ∧
    (written (run true some SubmitExchange.demoEnv 0 (a ++ b)).srv).drop (written (run true some SubmitExchange.demoEnv 0 a).srv).length = [] ∧
    (run true some SubmitExchange.demoEnv 0 a).srv.tk.lastUse + d.force < d.now ∧
    s.srv.tk.base.crashed = false ∧ s.srv.tk.base.isOpen = true ∧ s.srv.tk.own = [] ∧ s.srv.tk.queue.length = 0 ∧ s.srv.tk.base.tasks.length = 0 ∧
    ((written s.srv).map Spec.ServerTraffic.command) = [be32 0x80000001, be32 (terminateCmd .sgip)] := by decide +kernel

/-! ## A client that logs in and then does nothing -/

def sec (n : Nat) : Int := n * 1000000000
def demoCe : ClientTraffic.Env := { gbDec := some, nextId := List.replicate 10 5 }

/-- A login; then, for five minutes, only heartbeats, the answer to the second of which arrives in two pieces. The server ends sessions not used for 160 seconds. -/
def idle : List Step :=
  [.send ServerLife.loginQ.cmd ServerLife.loginQ.seq ServerLife.loginQ.body, .arrive 1000 ServerTraffic.demoDraw 0, .server (.run 0 1), .server (.run 0 1),
   .server (.loop 1), .read demoCe] ++
  [.server (.tick { now := sec 100, force := sec 160 }), .server (.task 0 { now := sec 100, seq := 21 }), .server (.loop (sec 100)), .read demoCe,
   .arrive 1000 ServerTraffic.demoDraw (sec 101), .server (.run 0 (sec 101)), .server (.run 0 (sec 101))] ++
  [.server (.tick { now := sec 200, force := sec 160 }), .server (.task 0 { now := sec 200, seq := 22 }), .server (.loop (sec 200)), .read demoCe,
   .arrive 5 ServerTraffic.demoDraw (sec 201), .arrive 1000 ServerTraffic.demoDraw (sec 201), .server (.run 0 (sec 201)), .server (.run 0 (sec 201))] ++
  [.server (.tick { now := sec 300, force := sec 160 }), .server (.task 0 { now := sec 300, seq := 23 }), .server (.loop (sec 300))]

/-- What holds at every step of a history, checked. -/
def atSteps (c : List Step → Step → Bool) (steps : List Step) : Bool :=
  (List.range steps.length).all fun i => match steps.drop i with
    | x :: _ => c (steps.take i) x
    | _ => true

theorem atSteps_spec {c : List Step → Step → Bool} {steps : List Step} (h : atSteps c steps = true) {a b : List Step} {x : Step}
    (hs : steps = a ++ x :: b) : c a x = true := by
  unfold atSteps at h
  rw [List.all_eq_true] at h
  have := h a.length (by rw [hs, List.mem_range]; simp)
  rw [hs, List.drop_left, List.take_left] at this
  exact this

/-- What the theorem asks of a step of `idle`. -/
def asked (a : List Step) (x : Step) : Bool :=
  let s := run true some ServerTraffic.demoEnv 0 a
  match x with
  | .server (.tick d) => s.up && s.read == (written s.srv).length && s.gone == s.sent.length && s.srv.buffer.isEmpty && s.srv.tk.own.isEmpty &&
      s.srv.tk.queue.isEmpty && s.srv.tk.base.tasks.isEmpty && decide (s.srv.tk.base.stat = .login) && (d.pool1 && decide (sec 160 ≤ d.force)) &&
      (decide (d.now ≤ 0 + sec 100) || a.any fun | .server (.tick d1) => decide (d.now ≤ d1.now + sec 100) | _ => false)
  | .arrive n _ _ => decide (BareAlone (s.srv.buffer ++ s.flight.take n))
  | .send cmd seq body => decide (Known .cmpp cmd ∧ 12 + body.length ≤ 5120 ∧ ¬ AnswersHeartbeat .cmpp ⟨cmd, seq, body⟩)
  | .read ce => ce.nextId.length == 10
  | _ => true

instance (t0 : Int) (steps : List Step) : Decidable (Ordered t0 steps) := by unfold Ordered; infer_instance

set_option maxRecDepth 20000 in
theorem idle_demo : atSteps asked idle = true ∧
    ((written (run true some ServerTraffic.demoEnv 0 idle).srv).map fun f => (Spec.ServerTraffic.command f, Spec.ServerTraffic.seqOf .cmpp f)) =
      [(be32 0x80000001, be32 1), (be32 8, be32 21), (be32 8, be32 22), (be32 8, be32 23)] := by
  refine ⟨?_, ?_⟩ <;> decide +kernel

/-- The theorem applied to that history: no termination is written. -/
example : ∀ f ∈ written (run true some ServerTraffic.demoEnv 0 idle).srv, Spec.ServerTraffic.command f ≠ be32 (terminateCmd .cmpp) := by
  obtain ⟨h1, _⟩ := idle_demo
  intro f hf hcmd
  have hk : ∀ a x b, idle = a ++ x :: b → asked a x = true := fun a x b hs => atSteps_spec h1 hs
  have hm : ∀ x, x ∈ idle → ∃ a b, idle = a ++ x :: b := fun x hx => List.append_of_mem hx
  have ht := fun a d b hs => hk a (.server (.tick d)) b hs
  simp only [asked, Bool.and_eq_true, decide_eq_true_eq, beq_iff_eq, List.isEmpty_iff] at ht
  refine (fun ⟨a, d, b, hs, hn, _⟩ => hn (ht a d b hs).1.1.2 :
    (∃ a d b, idle = a ++ .server (.tick d) :: b ∧ (run true some ServerTraffic.demoEnv 0 a).srv.tk.base.stat ≠ .login ∧
      (run true some ServerTraffic.demoEnv 0 a).srv.tk.lastUse + d.force < d.now) → False) ?_
  refine own_client_kept_partial true some ServerTraffic.demoEnv (by simp [ServerTraffic.demoEnv]) (by decide) 0 (sec 100) idle ?_ (by decide +kernel) ?_
    (fun _ a n d now b hs => of_decide_eq_true (hk a (.arrive n d now) b hs)) ?_ ?_ (by decide +kernel) ?_ ?_ f hf hcmd
  · intro cmd seq body h
    obtain ⟨a, b, hs⟩ := hm _ h
    exact of_decide_eq_true (hk a (.send cmd seq body) b hs)
  · intro ce h
    obtain ⟨a, b, hs⟩ := hm _ h
    exact of_decide_eq_true (hk a (.read ce) b hs)
  · intro n d now h nm ac hfind
    simp only [idle, List.cons_append, List.nil_append, List.mem_cons, List.not_mem_nil, or_false, reduceCtorEq, false_or, Step.arrive.injEq] at h
    rcases h with ⟨_, rfl, _⟩ | ⟨_, rfl, _⟩ | ⟨_, rfl, _⟩ | ⟨_, rfl, _⟩ <;> (cases hfind; decide)
  · intro a d b hs _ _
    obtain ⟨⟨⟨⟨⟨⟨⟨⟨⟨k1, k2⟩, k3⟩, k4⟩, k5⟩, k6⟩, k7⟩, _⟩, _⟩, _⟩ := ht a d b hs
    exact ⟨k1, k2, k3, k4, k5, k6, k7⟩
  · intro a d b hs
    have := (ht a d b hs).2
    rw [Bool.or_eq_true, List.any_eq_true] at this
    rcases this with h | ⟨x, hx, h⟩
    · exact .inl (of_decide_eq_true h)
    · right
      obtain ⟨a1, a2, rfl⟩ := List.mem_iff_append.1 hx
      cases x with
      | server y =>
        cases y with
        | tick d1 => exact ⟨a1, d1, a2, rfl, of_decide_eq_true h⟩
        | _ => cases h
      | _ => cases h
  · intro d hd
    obtain ⟨a, b, hs⟩ := hm _ hd
    have := (ht a d b hs).1.2
    refine ⟨this.1, ?_⟩
    have h2 := this.2
    unfold sec at h2 ⊢
    omega

end Gosms.Link
