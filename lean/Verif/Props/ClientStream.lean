import Verif.Spec.ClientStream
import Verif.Props.ClientReceive
import Verif.Props.ClientTraffic
import Verif.Props.ClientResults

/-!
# C142: from the bytes a carrier sends to what the client does

Framing (Props/ClientReceive.lean) and handling (Props/ClientTraffic.lean) together.
-/

namespace Gosms.ClientStream
open Gosms.Spec.ClientTraffic Gosms.Spec.ClientStream
open Gosms.ClientReceive (Packet turn receive)
open Gosms.ClientReceive.Spec (Fits wire Whole)
open Gosms.ClientTraffic (Env onTraffic)
open Gosms.Client (sequence2Uint64)

variable (p : Proto) (env : Nat → Env) (between : Nat → List Client.Step)

/-- Handling a plain packet. -/
theorem plain_handled {e : Env} {q : Packet} (h : Plain p e q) (s : Client.State) :
    onTraffic p e s q.cmd q.seq q.body = some ⟨reply p e q, false, (news p e q).toList.foldl Client.step s⟩ := by
  obtain ⟨hid, hok, hk⟩ := h
  rw [ClientTraffic.onTraffic_eq e s q.seq q.body p q.cmd hid]
  unfold reply news
  cases hc : kind p q.cmd with
  | none => rfl
  | some k =>
    obtain ⟨h1, h2, h3, h4, h5⟩ := hk k hc
    simp only [ClientTraffic.expectK, Option.bind_some]
    rw [if_pos ⟨h1, h2⟩]
    congr 1
    rw [ClientTraffic.Out.mk.injEq]
    refine ⟨by rw [if_pos ⟨hok, h5⟩], by simp [h3, h4, h5, hok], ?_⟩
    cases effect (Gosms.Cmpp.v3 e.ver) p k q.seq q.body e.now <;> rfl

/-- Plain packets, whatever comes after them: they are handled in order, and the receiver goes on with the rest. -/
theorem receiver_plain (got : List Packet) : ∀ (k : Nat) (s : Client.State) (fuel : Nat) (chunks : List Bytes) (e : ClientReceive.End),
    AllPlain p env k got → receive fuel chunks = (got, some e) →
    receiver p env between fuel k s chunks =
      ⟨replies p env k got, (story p env between k got).foldl Client.step s, got, some (.read e)⟩ := by
  induction got with
  | nil =>
    intro k s fuel chunks e _ hr
    cases fuel with
    | zero => simp [receive] at hr
    | succ n =>
      unfold receive at hr
      unfold receiver
      cases ht : turn chunks with
      | inl e' => rw [ht] at hr; simp only [Prod.mk.injEq, Option.some.injEq, true_and] at hr; subst hr; rfl
      | inr x => rw [ht] at hr; simp at hr
  | cons q qs ih =>
    intro k s fuel chunks e hp hr
    cases fuel with
    | zero => simp [receive] at hr
    | succ n =>
      unfold receive at hr
      unfold receiver
      cases ht : turn chunks with
      | inl e' => rw [ht] at hr; simp at hr
      | inr x =>
        obtain ⟨q', rest⟩ := x
        rw [ht] at hr
        simp only [Prod.mk.injEq, List.cons.injEq] at hr
        obtain ⟨⟨rfl, h2⟩, h3⟩ := hr
        have hrest : receive n rest = (qs, some e) := Prod.ext h2 h3
        dsimp only
        rw [plain_handled p hp.1]
        dsimp only
        rw [if_neg (by simp), ih (k + 1) _ n rest e hp.2 hrest]
        simp [replies, story, List.foldl_append]

/-- **C142, the part that holds: a carrier's packets are all acted on, in order, wherever the reads cut between headers and bodies.** The client writes
exactly the answers to the packets that ask for one, and the results go through exactly the packets' news and what other goroutines do in between
(so C55 to C57 and C69 speak about them); then the receiver waits for more (or, at the end of the stream, closes the session). -/
theorem client_stream_partial (ps : List Packet) (hf : ∀ q ∈ ps, Fits q) (s : Client.State) (hp : AllPlain p env 0 ps) (chunks : List Bytes)
    (hc : ∀ c ∈ chunks, c ≠ []) (hst : chunks.flatten = (ps.map wire).flatten) (hw : Whole ps chunks) (fuel : Nat) (hfuel : ps.length < fuel) :
    receiver p env between fuel 0 s chunks =
      ⟨replies p env 0 ps, (story p env between 0 ps).foldl Client.step s, ps, some (.read .head)⟩ :=
  receiver_plain p env between ps 0 s fuel chunks .head hp ((ClientReceive.receive_exactly ps hf chunks hc hst fuel hfuel).1.1 hw)

theorem allPlain_left {env : Nat → Env} {p : Proto} (a b : List Packet) : ∀ k, AllPlain p env k (a ++ b) → AllPlain p env k a := by
  induction a with
  | nil => intro _ _; trivial
  | cons q t ih => intro k h; exact ⟨h.1, ih (k + 1) h.2⟩

/-- **C142 fails: a read that tears a header or a body apart loses that packet and all after it.** For every stream and every such cutting: only some first
packets are acted on, none of the later ones is answered or recorded, and the session is closed. -/
theorem torn_stream_fails (ps : List Packet) (hf : ∀ q ∈ ps, Fits q) (s : Client.State) (hp : AllPlain p env 0 ps) (chunks : List Bytes)
    (hc : ∀ c ∈ chunks, c ≠ []) (hst : chunks.flatten = (ps.map wire).flatten) (hw : ¬ Whole ps chunks) (fuel : Nat) (hfuel : ps.length < fuel) :
    ∃ got missed e, ps = got ++ missed ∧ missed ≠ [] ∧ (e = .head ∨ e = .body) ∧
      receiver p env between fuel 0 s chunks =
        ⟨replies p env 0 got, (story p env between 0 got).foldl Client.step s, got, some (.read e)⟩ := by
  obtain ⟨got, missed, e, h1, h2, h3, h4⟩ := (ClientReceive.receive_exactly ps hf chunks hc hst fuel hfuel).2 hw
  refine ⟨got, missed, e, h1, h2, h4, ?_⟩
  subst h1
  exact receiver_plain p env between got 0 s fuel chunks e (allPlain_left got missed 0 hp) h3

/-- How the receiver goes on after plain packets, whatever follows. -/
theorem receiver_then (got : List Packet) : ∀ (k : Nat) (s : Client.State) (fuel : Nat) (chunks : List Bytes) (q : Packet) (tail : List Packet),
    AllPlain p env k got → (receive fuel chunks).1 = got ++ q :: tail → got.length < fuel →
    ∀ o, onTraffic p (env (k + got.length)) ((between (k + got.length)).foldl Client.step ((story p env between k got).foldl Client.step s))
        q.cmd q.seq q.body = o → (o = none ∨ ∃ o', o = some o' ∧ o'.closed = true) →
    receiver p env between fuel k s chunks = match o with
      | none => ⟨replies p env k got, (between (k + got.length)).foldl Client.step ((story p env between k got).foldl Client.step s), got ++ [q],
          some .panic⟩
      | some o => ⟨replies p env k got ++ o.written.toList, o.st, got ++ [q], some .closed⟩ := by
  induction got with
  | nil =>
    intro k s fuel chunks q tail _ hr hf o ho hcl
    cases fuel with
    | zero => simp at hf
    | succ n =>
      unfold receive at hr
      unfold receiver
      cases ht : turn chunks with
      | inl e' => rw [ht] at hr; simp at hr
      | inr x =>
        obtain ⟨q', rest'⟩ := x
        rw [ht] at hr
        simp only [List.nil_append, List.cons.injEq] at hr
        obtain ⟨rfl, _⟩ := hr
        dsimp only
        simp only [story, List.foldl_nil, List.length_nil, Nat.add_zero] at ho
        rw [ho]
        rcases hcl with rfl | ⟨o', rfl, hc⟩
        · rfl
        · dsimp only
          rw [if_pos hc]
          rfl
  | cons g gs ih =>
    intro k s fuel chunks q tail hp hr hf o ho hcl
    cases fuel with
    | zero => simp at hf
    | succ n =>
      unfold receive at hr
      unfold receiver
      cases ht : turn chunks with
      | inl e' => rw [ht] at hr; simp at hr
      | inr x =>
        obtain ⟨q', rest'⟩ := x
        rw [ht] at hr
        simp only [List.cons_append, List.cons.injEq] at hr
        obtain ⟨rfl, hr⟩ := hr
        dsimp only
        rw [plain_handled p hp.1]
        dsimp only
        rw [if_neg (by simp)]
        have hk : k + (q' :: gs).length = k + 1 + gs.length := by simp; omega
        rw [hk] at ho ⊢
        have := ih (k + 1) ((news p (env k) q').toList.foldl Client.step ((between k).foldl Client.step s)) n rest' q tail hp.2 hr (by simpa using hf) o (by rw [← ho]; simp [story, List.foldl_append]) hcl
        rw [this]
        rcases hcl with rfl | ⟨o', rfl, hc⟩
        · simp [replies, story, List.foldl_append]
        · simp [replies]

/-- **C142: a termination ends the session, after its answer, whatever follows it in the stream.** -/
theorem stream_terminated (got later : List Packet) (q : Packet) (hf : ∀ x ∈ got ++ q :: later, Fits x) (s : Client.State)
    (hp : AllPlain p env 0 got) (hid : (env got.length).nextId.length = 10) (hok : (env got.length).ok = true)
    (hk : kind p q.cmd = some .terminate) (hb : BodyComplete (Cmpp.v3 (env got.length).ver) q.body p .terminate) (chunks : List Bytes)
    (hc : ∀ c ∈ chunks, c ≠ []) (hst : chunks.flatten = ((got ++ q :: later).map wire).flatten) (hw : Whole (got ++ q :: later) chunks)
    (fuel : Nat) (hfuel : (got ++ q :: later).length < fuel) :
    receiver p env between fuel 0 s chunks =
      ⟨replies p env 0 got ++ (answerTo (Cmpp.v3 (env got.length).ver) (env got.length).nextId p .terminate q.cmd q.seq q.body).toList,
        (between got.length).foldl Client.step ((story p env between 0 got).foldl Client.step s), got ++ [q], some .closed⟩ := by
  have hr := (ClientReceive.receive_exactly _ hf chunks hc hst fuel hfuel).1.1 hw
  have hrest : (receive fuel chunks).1 = got ++ q :: later := by rw [hr]
  have hopen := ClientTraffic.onTraffic_eq (env got.length) ((between got.length).foldl Client.step ((story p env between 0 got).foldl Client.step s))
    q.seq q.body p q.cmd hid
  rw [hk] at hopen
  simp only [ClientTraffic.expectK] at hopen
  rw [if_pos ⟨hb, fun h => nomatch h⟩] at hopen
  have hu : ¬ Undecodable (env got.length).gbDec p .terminate q.body := fun u => by cases u.2.1
  have hkey := receiver_then p env between got 0 s fuel chunks q later hp hrest (by simp at hfuel; omega) _ (by rw [Nat.zero_add]; exact hopen)
    (.inr ⟨_, rfl, by simp⟩)
  rw [hkey]
  dsimp only
  rw [if_pos ⟨hok, hu⟩]
  have he : effect (Cmpp.v3 (env got.length).ver) p .terminate q.seq q.body (env got.length).now = none := by cases p <;> rfl
  rw [he]

/-- **C142 fails: a packet with too short a body, or a login response that says no, ends the process**, wherever it is in the stream: nothing after it is acted
on, and the results go with the process. -/
theorem stream_panics_fails (got later : List Packet) (q : Packet) (hf : ∀ x ∈ got ++ q :: later, Fits x) (s : Client.State)
    (hp : AllPlain p env 0 got) (hid : (env got.length).nextId.length = 10) (kd : Kind) (hk : kind p q.cmd = some kd)
    (hbad : ¬ BodyComplete (Cmpp.v3 (env got.length).ver) q.body p kd ∨ kd = .loginResp ∧ ¬ LoginOk (Cmpp.v3 (env got.length).ver) q.body p)
    (chunks : List Bytes) (hc : ∀ c ∈ chunks, c ≠ []) (hst : chunks.flatten = ((got ++ q :: later).map wire).flatten)
    (hw : Whole (got ++ q :: later) chunks) (fuel : Nat) (hfuel : (got ++ q :: later).length < fuel) :
    (receiver p env between fuel 0 s chunks).fin = some .panic ∧ (receiver p env between fuel 0 s chunks).written = replies p env 0 got ∧
      (receiver p env between fuel 0 s chunks).handled = got ++ [q] := by
  have hr := (ClientReceive.receive_exactly _ hf chunks hc hst fuel hfuel).1.1 hw
  have hkey := receiver_then p env between got 0 s fuel chunks q later hp (by rw [hr]) (by simp at hfuel; omega) none (by
    rw [Nat.zero_add, ClientTraffic.carrier_packet_panics_exactly_partial _ _ q.seq q.body p q.cmd hid]
    exact ⟨kd, hk, hbad⟩) (.inl rfl)
  rw [hkey]
  exact ⟨rfl, rfl, rfl⟩

/-- Whatever bytes arrive: the results go through steps of the other goroutines and news of packets. -/
theorem receiver_steps (hid : ∀ k, (env k).nextId.length = 10) : ∀ (fuel k : Nat) (s : Client.State) (chunks : List Bytes),
    ∃ steps : List Client.Step, (receiver p env between fuel k s chunks).st = steps.foldl Client.step s ∧
      ∀ x ∈ steps, (∃ j, x ∈ between j) ∨ ∃ j q, news p (env j) q = some x := by
  intro fuel
  induction fuel with
  | zero => intro k s chunks; exact ⟨[], rfl, by simp⟩
  | succ n ih =>
    intro k s chunks
    unfold receiver
    cases ht : turn chunks with
    | inl e => exact ⟨[], rfl, by simp⟩
    | inr x =>
      obtain ⟨q, rest⟩ := x
      dsimp only
      cases ho : onTraffic p (env k) ((between k).foldl Client.step s) q.cmd q.seq q.body with
      | none => exact ⟨between k, rfl, fun x hx => .inl ⟨k, hx⟩⟩
      | some o =>
        have hst : o.st = (news p (env k) q).toList.foldl Client.step ((between k).foldl Client.step s) := by
          rw [ClientTraffic.onTraffic_eq (env k) _ q.seq q.body p q.cmd (hid k)] at ho
          unfold news
          cases hc : kind p q.cmd with
          | none => rw [hc] at ho; simp only [Option.some.injEq] at ho; rw [← ho]; rfl
          | some kd =>
            rw [hc] at ho
            simp only [ClientTraffic.expectK] at ho
            split at ho
            · simp only [Option.some.injEq] at ho
              rw [← ho]
              simp only [Option.bind_some]
              cases effect (Gosms.Cmpp.v3 (env k).ver) p kd q.seq q.body (env k).now <;> rfl
            · cases ho
        have hnow : ∀ x ∈ between k ++ (news p (env k) q).toList, (∃ j, x ∈ between j) ∨ ∃ j q, news p (env j) q = some x := by
          intro x hx
          rcases List.mem_append.1 hx with hx | hx
          · exact .inl ⟨k, hx⟩
          · exact .inr ⟨k, q, by simpa using hx⟩
        dsimp only
        split
        · exact ⟨between k ++ (news p (env k) q).toList, by rw [List.foldl_append]; exact hst, hnow⟩
        · obtain ⟨steps, h1, h2⟩ := ih (k + 1) o.st rest
          refine ⟨between k ++ (news p (env k) q).toList ++ steps, ?_, ?_⟩
          · rw [List.foldl_append, List.foldl_append, ← hst]; exact h1
          · intro x hx
            rcases List.mem_append.1 hx with hx | hx
            · exact hnow x hx
            · exact h2 x hx

/-- **C142 fails: whatever bytes a CMPP or SMGP carrier sends, no result ever changes**: every result the client holds says 0 (success), with no message id
and no report. -/
theorem stream_never_recorded_fails (hp : p ≠ .sgip) (hid : ∀ k, (env k).nextId.length = 10) (pre : List Client.Step)
    (hpre : ∀ x ∈ pre, ¬ Client.Spec.sgipResp x) (hb : ∀ k, ∀ x ∈ between k, ¬ Client.Spec.sgipResp x) (fuel : Nat) (chunks : List Bytes) :
    ∀ r ∈ (receiver p env between fuel 0 (Client.run pre) chunks).st.heap,
      r.result = 0 ∧ r.msgId = [] ∧ r.report = [] ∧ r.responseTime = 0 ∧ r.reportTime = 0 := by
  obtain ⟨steps, h1, h2⟩ := receiver_steps p env between hid fuel 0 (Client.run pre) chunks
  rw [h1, ← Client.run_append]
  refine (Client.results_never_updated _ fun x hx => ?_).2
  rcases List.mem_append.1 hx with hx | hx
  · exact hpre x hx
  · rcases h2 x hx with ⟨j, hj⟩ | ⟨j, q, hq⟩
    · exact hb j x hj
    · unfold news at hq
      cases hk : kind p q.cmd with
      | none => rw [hk] at hq; cases hq
      | some kd =>
        rw [hk] at hq
        intro hs
        cases p with
        | sgip => exact hp rfl
        | cmpp =>
          cases kd <;> simp only [Option.bind_some, effect, Option.some.injEq, reduceCtorEq] at hq
          · rw [← hq] at hs; exact hs
          · generalize q.body.getD (if Cmpp.v3 (env j).ver = true then 75 else 63) 0 = y at hq
            by_cases hy : y = 1
            · rw [if_pos hy, Option.some.injEq] at hq; rw [← hq] at hs; exact hs
            · rw [if_neg hy] at hq; cases hq
        | smgp =>
          cases kd <;> simp only [Option.bind_some, effect, Option.some.injEq, reduceCtorEq] at hq
          · rw [← hq] at hs; exact hs
          · generalize q.body.getD 10 0 = y at hq
            by_cases hy : y = 1
            · rw [if_pos hy, Option.some.injEq] at hq; rw [← hq] at hs; exact hs
            · rw [if_neg hy] at hq; cases hq

theorem story_append (a : List Packet) : ∀ (k : Nat) (b : List Packet),
    story p env between k (a ++ b) = story p env between k a ++ story p env between (k + a.length) b := by
  induction a with
  | nil => intro k b; simp [story]
  | cons q t ih => intro k b; simp [story, ih, Nat.add_assoc, Nat.add_comm 1]

theorem allPlain_append (a b : List Packet) : ∀ k, AllPlain p env k (a ++ b) ↔ AllPlain p env k a ∧ AllPlain p env (k + a.length) b := by
  induction a with
  | nil => intro k; simp [AllPlain]
  | cons q t ih => intro k; simp [AllPlain, ih, and_assoc, Nat.add_assoc, Nat.add_comm 1]

/-- **C142, the part that holds for SGIP: an answer that is in the carrier's stream is recorded**, for every stream whose headers and bodies are not torn apart, in
the result of the packet it answers, whatever other packets come before it and whatever other goroutines do meanwhile - if the number was not used
again and the result was not too old when results were cleaned. -/
theorem stream_answer_recorded_partial (pre post : List Client.Step) (call : Nat) (phone : Bytes) (qs1 qs2 : List UInt64) (ok : Bool) (t : Int)
    (s0 s1 s2 : UInt32) (status : UInt8) (more : Bytes) (h : sequence2Uint64 s1 s2 ∉ qs2) (got : List Packet)
    (hf : ∀ x ∈ got ++ [(⟨0x80000003, s0, be32 s1 ++ be32 s2 ++ status :: more⟩ : Packet)], Fits x)
    (hp : AllPlain .sgip env 0 got) (hid : (env got.length).nextId.length = 10) (hok : (env got.length).ok = true)
    (h1 : ∀ x ∈ post ++ story .sgip env between 0 got ++ between got.length, ¬ Client.Spec.sends (sequence2Uint64 s1 s2) x)
    (h2 : ∀ x ∈ post ++ story .sgip env between 0 got ++ between got.length, ¬ Client.Spec.dropsSeq t x)
    (chunks : List Bytes) (hc : ∀ c ∈ chunks, c ≠ [])
    (hst : chunks.flatten = ((got ++ [(⟨0x80000003, s0, be32 s1 ++ be32 s2 ++ status :: more⟩ : Packet)]).map wire).flatten)
    (hw : Whole (got ++ [(⟨0x80000003, s0, be32 s1 ++ be32 s2 ++ status :: more⟩ : Packet)]) chunks) (fuel : Nat) (hfuel : got.length + 1 < fuel) :
    let sent := pre ++ .send call phone (qs1 ++ sequence2Uint64 s1 s2 :: qs2) ok t :: post
    ∃ r, (receiver .sgip env between fuel 0 (Client.run sent) chunks).st.heap[(Client.run pre).heap.length + qs1.length]? = some r ∧
      r.phone = phone ∧ r.sequenceId = sequence2Uint64 s1 s2 ∧ r.sendTime = t ∧ r.result = status.toUInt32 ∧
      r.msgId = Client.sequence2String s0 s1 s2 ∧ r.responseTime = (env got.length).now := by
  intro sent
  generalize hq : (⟨0x80000003, s0, be32 s1 ++ be32 s2 ++ status :: more⟩ : Packet) = q at *
  have hkind : kind .sgip q.cmd = some .submitResp := by rw [← hq]; rfl
  have hplain : Plain .sgip (env got.length) q := by
    refine ⟨hid, hok, fun k hk => ?_⟩
    rw [hkind] at hk
    obtain rfl := Option.some.inj hk
    refine ⟨?_, (fun hh => nomatch hh), by decide, by decide, fun u => by cases u.1⟩
    rw [← hq]
    simp [BodyComplete, length_be32]
    omega
  have hall : AllPlain .sgip env 0 (got ++ [q]) := (allPlain_append _ _ got [q] 0).2 ⟨hp, by
    rw [Nat.zero_add]; exact ⟨hplain, trivial⟩⟩
  rw [client_stream_partial .sgip env between (got ++ [q]) hf (Client.run sent) hall chunks hc hst hw fuel (by simpa using hfuel)]
  have hnews : news .sgip (env got.length) q = some (.resp (.sgip s0 s1 s2 status) (env got.length).now) := by
    unfold news
    rw [hkind, ← hq]
    have l1 : (be32 s1).length = 4 := length_be32 _
    have l2 : (be32 s2).length = 4 := length_be32 _
    simp only [Option.bind_some, effect, List.append_assoc]
    rw [List.take_left' l1, List.drop_left' l1, List.take_left' l2, rd32_be32, rd32_be32]
    have : (be32 s1 ++ (be32 s2 ++ status :: more)).getD 8 0 = status := by
      rw [List.getD_eq_getElem?_getD, List.getElem?_append_right (by omega), List.getElem?_append_right (by omega), l1, l2]
      rfl
    rw [this]
  have hstory : story .sgip env between 0 (got ++ [q]) =
      story .sgip env between 0 got ++ between got.length ++ [.resp (.sgip s0 s1 s2 status) (env got.length).now] := by
    rw [story_append, Nat.zero_add]
    simp [story, hnews]
  dsimp only
  rw [hstory, ← Client.run_append]
  obtain ⟨r, k1, k2, k3, k4, k5⟩ := Client.response_recorded_sgip_partial pre
    (post ++ story .sgip env between 0 got ++ between got.length) call phone qs1 qs2 ok t (env got.length).now s0 s1 s2 status h h1 h2
  have e1 : sent ++ (story .sgip env between 0 got ++ between got.length ++ [Client.Step.resp (.sgip s0 s1 s2 status) (env got.length).now]) =
      pre ++ .send call phone (qs1 ++ sequence2Uint64 s1 s2 :: qs2) ok t :: (post ++ story .sgip env between 0 got ++ between got.length) ++
        [.resp (.sgip s0 s1 s2 status) (env got.length).now] := by
    simp [sent]
  rw [e1, k5]
  refine ⟨{ r with result := status.toUInt32, msgId := Client.sequence2String s0 s1 s2, responseTime := (env got.length).now }, ?_, k2, k3, k4,
    rfl, rfl, rfl⟩
  rw [List.getElem?_set, if_pos rfl, if_pos (List.getElem?_eq_some_iff.1 k1).1]

/-! ### Examples -/

/-- A CMPP heartbeat, a delivery and a heartbeat, read in one go, or header by header. -/
def demoPackets : List Packet := [⟨8, 1, []⟩, ⟨5, 2, List.replicate 100 0⟩, ⟨8, 3, []⟩]

theorem demo_plain : AllPlain .cmpp (fun _ => {}) 0 demoPackets := by
  refine ⟨⟨by decide, rfl, fun k hk => ?_⟩, ⟨by decide, rfl, fun k hk => ?_⟩, ⟨by decide, rfl, fun k hk => ?_⟩, trivial⟩
  · obtain rfl : Kind.active = k := Option.some.inj hk
    exact ⟨trivial, (fun h => nomatch h), by decide, by decide, fun u => by cases u.1⟩
  · obtain rfl : Kind.deliver = k := Option.some.inj hk
    refine ⟨?_, (fun h => nomatch h), by decide, by decide, fun u => by cases u.1⟩
    show CmppDeliverBody (Cmpp.v3 0) (List.replicate 100 0)
    have : Cmpp.v3 0 = false := by decide
    rw [this]
    unfold CmppDeliverBody
    decide
  · obtain rfl : Kind.active = k := Option.some.inj hk
    exact ⟨trivial, (fun h => nomatch h), by decide, by decide, fun u => by cases u.1⟩

theorem demo_fits : ∀ q ∈ demoPackets, Fits q := by
  intro q hq
  simp only [demoPackets, List.mem_cons, List.not_mem_nil, or_false] at hq
  rcases hq with rfl | rfl | rfl <;> (unfold Fits; simp)

theorem demo_whole : Whole demoPackets [(demoPackets.map wire).flatten] :=
  ⟨[demoPackets.flatMap ClientReceive.Spec.pieces], by simp [demoPackets, ClientReceive.Spec.pieces], by simp, by
    simp [demoPackets, ClientReceive.Spec.pieces, wire]⟩

/-- All three are answered. -/
example : (receiver .cmpp (fun _ => {}) (fun _ => []) 4 0 {} [(demoPackets.map wire).flatten]).written.length = 3 ∧
    (receiver .cmpp (fun _ => {}) (fun _ => []) 4 0 {} [(demoPackets.map wire).flatten]).handled = demoPackets := by
  rw [client_stream_partial .cmpp (fun _ => {}) (fun _ => []) demoPackets demo_fits {} demo_plain _ (by
    intro c hc; obtain rfl := List.mem_singleton.1 hc; simp [demoPackets, wire, Spec.header12, be32]) (by simp) demo_whole 4 (by decide)]
  exact ⟨by decide, rfl⟩

/-- A heartbeat whose header comes in two reads is lost, and the session is closed: the reads are not `Whole`. -/
def beat : Packet := ⟨8, 1, []⟩

theorem beat_plain : AllPlain .cmpp (fun _ => {}) 0 [beat] := demo_plain.1 |> fun h => ⟨h, trivial⟩

theorem beat_fits : ∀ q ∈ [beat], Fits q := by
  intro q hq; obtain rfl := List.mem_singleton.1 hq; unfold Fits beat; simp

example : ¬ Whole [beat] [(wire beat).take 5, (wire beat).drop 5] := by
  intro hw
  have := client_stream_partial .cmpp (fun _ => {}) (fun _ => []) [beat] beat_fits {} beat_plain _ (by
    intro c hc
    simp only [List.mem_cons, List.not_mem_nil, or_false] at hc
    rcases hc with rfl | rfl <;> decide) (by simp) hw 2 (by decide)
  have := congrArg Out.handled this
  revert this
  decide

/-- A termination between two heartbeats: the heartbeat before it and the termination are answered, the heartbeat after it is not. -/
example : (receiver .cmpp (fun _ => {}) (fun _ => []) 9 0 {} [wire beat ++ wire ⟨2, 2, []⟩ ++ wire beat]).handled = [beat, ⟨2, 2, []⟩] ∧
    (receiver .cmpp (fun _ => {}) (fun _ => []) 9 0 {} [wire beat ++ wire ⟨2, 2, []⟩ ++ wire beat]).written.length = 2 ∧
    (receiver .cmpp (fun _ => {}) (fun _ => []) 9 0 {} [wire beat ++ wire ⟨2, 2, []⟩ ++ wire beat]).fin = some .closed := by decide

/-- An answer to a submit without a body. -/
example : (receiver .cmpp (fun _ => {}) (fun _ => []) 9 0 {} [wire beat ++ wire ⟨0x80000004, 2, []⟩ ++ wire beat]).fin = some .panic := by decide

/-- An SGIP answer, after a packet the client does not know. -/
example : (receiver .sgip (fun _ => { now := 7 }) (fun _ => []) 9 0 (Client.run [.send 1 [49] [sequence2Uint64 5 6] true 3])
    [wire ⟨0x99, 1, []⟩ ++ wire ⟨0x80000003, 4, be32 5 ++ be32 6 ++ [2]⟩]).st.heap.map (fun r => (r.result, r.responseTime)) = [(2, 7)] := by
  decide

end Gosms.ClientStream
