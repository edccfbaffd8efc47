import Verif.Props.ServerLogins
import Verif.Props.SubmitExchange

/-!
# C94, C95, C106: the exchanges between client and server, with the server's own frames in between

The exchanges of Props/LoginExchange.lean and Props/SubmitExchange.lean on the whole connection of Model/ServerTicks.lean, where the server
also sends heartbeats, simulated texts and terminations at its own times.
-/

namespace Gosms.ServerTicks
open ServerTraffic (Env After Draw answer verdict Accounts onPackets)
open Handlers Spec.ServerTraffic
open LoginExchange (arrives Sendable Admits AdmitsSent)
open Gosms.ClientLogin (newSession request)

/-- A frame with the command of a response is one of the answering part. -/
theorem response_base {gb : Bytes → Option Bytes} {e : Env} {t0 : Int} {steps : List Step} {f : Bytes} {c : UInt32}
    (hf : f ∈ frames (run gb e t0 steps)) (hc : command f = be32 (Spec.responseOf c)) :
    f ∈ ServerTraffic.frames (run gb e t0 steps).base := by
  rcases frame_cases hf with h | ⟨x, hx⟩
  · exact h
  · obtain ⟨lu, t, o, h⟩ := own_on_wire gb e t0 steps hx
    exact absurd hc ((own_command h).1 c)

/-- The packets of the answering part arrive in the run. -/
theorem arrives_base {gb : Bytes → Option Bytes} {e : Env} {t0 : Int} {steps : List Step} {cmd seq : UInt32} {body : Bytes} {d : Draw}
    (h : ServerTraffic.Step.packet cmd seq body d ∈ answering gb e t0 steps) : ∃ now, Step.base (.packet cmd seq body d) now ∈ steps := by
  obtain ⟨a', b', he⟩ := List.append_of_mem h
  obtain ⟨a, now, b, h1, _⟩ := project_packet gb e steps _ a' b' cmd seq body d he
  exact ⟨now, by rw [h1]; simp⟩

/-- C94, with the server's own frames: see `LoginExchange.login_exchange_partial`. -/
theorem login_exchange_partial (gb : Bytes → Option Bytes) (e : Env) (h16 : ∀ x, (e.md5 x).length = 16) (t0 : Int) (mine : AuthConf)
    (hs : Sendable e.proto mine) (seq : Sgip.Seq3) (clock : Clock) (hclock : clock.Valid) (frame : Bytes)
    (hreq : request e.md5 e.proto mine seq clock = some frame) (d : Draw) (steps : List Step)
    (honly : ∀ s b d' now, Step.base (.packet (loginCmd e.proto) s b d') now ∈ steps →
      ServerTraffic.Step.packet (loginCmd e.proto) s b d' = arrives frame d)
    (f : Bytes) (hf : f ∈ frames (run gb e t0 steps)) (hc : command f = be32 (Spec.responseOf (loginCmd e.proto))) :
    (newSession e.proto mine.version false ⟨f, false⟩ = some .login ↔ ∃ theirs, Admits e.md5 e.proto mine clock d.find d.sessions theirs) ∧
    (newSession e.proto mine.version false ⟨f, false⟩ = none ↔ ¬ ∃ theirs, Admits e.md5 e.proto mine clock d.find d.sessions theirs) ∧
    (newSession e.proto mine.version false ⟨f, false⟩ = none → asked (run gb e t0 steps) = true) ∧
    ((run gb e t0 steps).base.crashed = false →
      ((run gb e t0 steps).base.stat = .login ↔ newSession e.proto mine.version false ⟨f, false⟩ = some .login)) := by
  have hb := response_base hf hc
  have hr := (sim_run gb e t0 steps).2
  rw [hr] at hb
  obtain ⟨h1, h2, h3, h4⟩ := LoginExchange.login_exchange_partial e h16 mine hs seq clock hclock frame hreq d (answering gb e t0 steps)
    (fun s b d' hm => by obtain ⟨now, h⟩ := arrives_base hm; exact honly s b d' now h) f hb hc
  rw [← hr] at h3 h4
  exact ⟨h1, h2, fun hn => by simp [asked, h3 hn], h4⟩

/-- C94 for accounts of any size, with the server's own frames. -/
theorem login_exchange_any (gb : Bytes → Option Bytes) (e : Env) (h16 : ∀ x, (e.md5 x).length = 16) (t0 : Int) (mine : AuthConf)
    (seq : Sgip.Seq3) (clock : Clock) (hclock : clock.Valid) (frame : Bytes)
    (hreq : request e.md5 e.proto mine seq clock = some frame) (d : Draw) (steps : List Step)
    (honly : ∀ s b d' now, Step.base (.packet (loginCmd e.proto) s b d') now ∈ steps →
      ServerTraffic.Step.packet (loginCmd e.proto) s b d' = arrives frame d)
    (f : Bytes) (hf : f ∈ frames (run gb e t0 steps)) (hc : command f = be32 (Spec.responseOf (loginCmd e.proto))) :
    (newSession e.proto mine.version false ⟨f, false⟩ = some .login ↔ ∃ theirs, AdmitsSent e.md5 e.proto mine clock d.find d.sessions theirs) ∧
    (newSession e.proto mine.version false ⟨f, false⟩ = none ↔ ¬ ∃ theirs, AdmitsSent e.md5 e.proto mine clock d.find d.sessions theirs) ∧
    (newSession e.proto mine.version false ⟨f, false⟩ = none → asked (run gb e t0 steps) = true) := by
  have hb := response_base hf hc
  have hr := (sim_run gb e t0 steps).2
  rw [hr] at hb
  obtain ⟨h1, h2, h3⟩ := LoginExchange.login_exchange_any e h16 mine seq clock hclock frame hreq d (answering gb e t0 steps)
    (fun s b d' hm => by obtain ⟨now, h⟩ := arrives_base hm; exact honly s b d' now h) f hb hc
  rw [← hr] at h3
  exact ⟨h1, h2, fun hn => by simp [asked, h3 hn]⟩

/-- C94, with the server's own frames: the login is answered by a server at rest on an open connection, whatever the windows. -/
theorem login_answered_partial (gb : Bytes → Option Bytes) (e : Env) (h16 : ∀ x, (e.md5 x).length = 16) (t0 : Int) (mine : AuthConf)
    (hs : Sendable e.proto mine) (seq : Sgip.Seq3) (clock : Clock) (hclock : clock.Valid) (frame : Bytes)
    (hreq : request e.md5 e.proto mine seq clock = some frame) (d : Draw) (now : Int) (a b : List Step)
    (hone : ((a ++ .base (arrives frame d) now :: b).filter (onPacketSteps fun c _ _ _ => c = loginCmd e.proto)).length ≤ 1)
    (hc : (run gb e t0 (a ++ .base (arrives frame d) now :: b)).base.crashed = false)
    (ho : (run gb e t0 (a ++ .base (arrives frame d) now :: b)).base.isOpen = true)
    (hset : Settled gb e (run gb e t0 (a ++ .base (arrives frame d) now :: b))) :
    ∃ f ∈ frames (run gb e t0 (a ++ .base (arrives frame d) now :: b)),
      command f = be32 (Spec.responseOf (loginCmd e.proto)) ∧
      (newSession e.proto mine.version false ⟨f, false⟩ = some .login ↔ ∃ theirs, Admits e.md5 e.proto mine clock d.find d.sessions theirs) ∧
      ((run gb e t0 (a ++ .base (arrives frame d) now :: b)).base.stat = .login ↔
        ∃ theirs, Admits e.md5 e.proto mine clock d.find d.sessions theirs) := by
  obtain ⟨b', hb'⟩ := project_split gb e t0 a b (rd32 ((frame.drop 4).take 4)) (rd32 ((frame.drop 8).take 4)) (frame.drop 12) d now
  obtain ⟨s1, s2⟩ := sim_run gb e t0 (a ++ .base (arrives frame d) now :: b)
  have hset' := settled_base s1 hset
  have hone' := project_packets gb e (fun c _ _ _ => c = loginCmd e.proto) (a ++ .base (arrives frame d) now :: b) { lastUse := t0 }
  have hsp : answering gb e t0 (a ++ .base (arrives frame d) now :: b) = answering gb e t0 a ++ arrives frame d :: b' := hb'
  have hone2 : ((answering gb e t0 a ++ arrives frame d :: b').filter (onPackets fun c _ _ _ => c = loginCmd e.proto)).length ≤ 1 := by
    rw [← hsp]; unfold answering; rw [hone']; exact hone
  rw [s2, hsp] at hc ho hset' ⊢
  obtain ⟨f, q1, q2, q3, q4⟩ := LoginExchange.login_answered_partial e h16 mine hs seq clock hclock frame hreq d (answering gb e t0 a) b'
    hone2 hc ho hset'
  refine ⟨f, base_frames ?_, q2, q3, q4⟩
  rw [s2, hsp]; exact q1

/-- C95 fails, for every login, whatever else happens on the connection: the body of an accepted login, sent again by anyone at any later
time, is answered as accepted while the account is as it was and has room. No condition on windows or on other logins. -/
theorem login_replay_fails (gb : Bytes → Option Bytes) (e : Env) (h16 : ∀ x, (e.md5 x).length = 16) (t0 : Int) (body : Bytes) (d : Draw)
    (ac : AuthConf) (hok : loginVerdict e.md5 e.proto body d.find d.sessions = .ok ac)
    (d' : Draw) (hfind : d'.find (loginName e.proto body) = d.find (loginName e.proto body)) (hroom : d'.sessions < ac.maxConns)
    (seq : UInt32) (now : Int) (a b : List Step)
    (hc : (run gb e t0 (a ++ .base (.packet (loginCmd e.proto) seq body d') now :: b)).base.crashed = false)
    (ho : (run gb e t0 (a ++ .base (.packet (loginCmd e.proto) seq body d') now :: b)).base.isOpen = true)
    (hset : Settled gb e (run gb e t0 (a ++ .base (.packet (loginCmd e.proto) seq body d') now :: b))) :
    loginResponse e.md5 e.proto seq body (.ok ac) ∈
      frames (run gb e t0 (a ++ .base (.packet (loginCmd e.proto) seq body d') now :: b)) := by
  have hok' : loginVerdict e.md5 e.proto body d'.find d'.sessions = .ok ac := by
    rw [LoginExchange.verdict_iff] at hok ⊢
    exact ⟨hfind.trans hok.1, hok.2.1, hok.2.2.1, hroom⟩
  refine slotless_answered gb e h16 t0 a b (loginCmd e.proto) seq body d' now _ ?_ (.inl rfl) hc ho hset
  unfold answer
  rw [if_neg (by cases e.proto <;> decide), if_pos rfl, hok']

/-- C106, with the server's own frames: see `SubmitExchange.sgip_text_answered_partial`. -/
theorem sgip_text_answered_partial (gb : Bytes → Option Bytes) (e : Env) (he : e.proto = .sgip) (h16 : ∀ x, (e.md5 x).length = 16) (t0 : Int)
    (ac : AuthConf) (phone content : Bytes) (opts : List OptionFunc) (g : UInt8) (expiry : Clock) (seqs : Nat → Sgip.Seq3)
    (msgs : List Sgip.Submit) (hmsgs : Sgip.newSubmit ac [phone] content opts g expiry seqs = some msgs)
    (i : Nat) (hi : i < msgs.length) (frame : Bytes) (henc : msgs[i].encode = some frame)
    (hdist : ∀ j, j < msgs.length → j ≠ i → (seqs j).2 ≠ (seqs i).2)
    (a b : List Step) (d : Draw) (now : Int) (hacc : d.allow = true → d.account ≠ none ∧ d.minMs < d.maxMs)
    (hwin : AccountsAll (fun ac => 1 ≤ ac.mtWindowSize) (a ++ .base (arrives frame d) now :: b))
    (hone : ((a ++ .base (arrives frame d) now :: b).filter (onPacketSteps fun c _ _ _ => c = 1)).length ≤ 1)
    (hc : (run gb e t0 (a ++ .base (arrives frame d) now :: b)).base.crashed = false)
    (ho : (run gb e t0 (a ++ .base (arrives frame d) now :: b)).base.isOpen = true)
    (hs : Settled gb e (run gb e t0 (a ++ .base (arrives frame d) now :: b)))
    (huniq : ((a ++ .base (arrives frame d) now :: b).filter (onPacketSteps fun c s body _ =>
      c = 3 ∧ be32 s ++ body.take 8 = be32 (seqs i).1 ++ be32 (seqs i).2.1 ++ be32 (seqs i).2.2)).length = 1)
    (ce : ClientTraffic.Env) (hid : ce.nextId.length = 10) (pre post : List Client.Step) (call : Nat) (ok : Bool) (t : Int)
    (h1 : ∀ x ∈ post, ¬ Client.Spec.sends (SubmitExchange.number (seqs i)) x) (h2 : ∀ x ∈ post, ¬ Client.Spec.dropsSeq t x) :
    let before := pre ++ .send call phone ((List.range msgs.length).map fun j => SubmitExchange.number (seqs j)) ok t :: post
    let k := (Client.run pre).heap.length + i
    ∃ f pkt r o, SubmitExchange.answersTo (seqs i) (frames (run gb e t0 (a ++ .base (arrives frame d) now :: b))) = [f] ∧
      ClientReceive.turn [f] = .inr (pkt, []) ∧
      (Client.run before).heap[k]? = some r ∧ r.phone = phone ∧
      ClientTraffic.onTraffic .sgip ce (Client.run before) pkt.cmd pkt.seq pkt.body = some o ∧ o.written = none ∧ o.closed = false ∧
      o.st.heap = (Client.run before).heap.set k
        { r with result := if d.allow = true ∧ d.fail = false then 0 else 33,
                 msgId := Client.sequence2String (seqs i).1 (seqs i).2.1 (seqs i).2.2, responseTime := ce.now } := by
  intro before k
  obtain ⟨b', hb'⟩ := project_split gb e t0 a b (rd32 ((frame.drop 4).take 4)) (rd32 ((frame.drop 8).take 4)) (frame.drop 12) d now
  obtain ⟨s1, s2⟩ := sim_run gb e t0 (a ++ .base (arrives frame d) now :: b)
  have hset' := settled_base s1 hs
  have hsp : answering gb e t0 (a ++ .base (arrives frame d) now :: b) = answering gb e t0 a ++ arrives frame d :: b' := hb'
  have hacs : Accounts _ (answering gb e t0 (a ++ .base (arrives frame d) now :: b)) := accounts_base hwin
  have hone' := project_packets gb e (fun c _ _ _ => c = 1) (a ++ .base (arrives frame d) now :: b) { lastUse := t0 }
  have huniq' := project_packets gb e (fun c s body _ =>
      c = 3 ∧ be32 s ++ body.take 8 = be32 (seqs i).1 ++ be32 (seqs i).2.1 ++ be32 (seqs i).2.2)
    (a ++ .base (arrives frame d) now :: b) { lastUse := t0 }
  rw [show project gb e { lastUse := t0 } (a ++ .base (arrives frame d) now :: b) = _ from hsp] at hone' huniq'
  have hfr : SubmitExchange.answersTo (seqs i) (frames (run gb e t0 (a ++ .base (arrives frame d) now :: b))) =
      SubmitExchange.answersTo (seqs i) (ServerTraffic.frames (run gb e t0 (a ++ .base (arrives frame d) now :: b)).base) := by
    unfold SubmitExchange.answersTo
    apply filter_frames
    intro f x hx
    obtain ⟨lu, t, o, h⟩ := own_on_wire gb e t0 _ hx
    have := (own_command h).1 3
    rw [show Spec.responseOf 3 = 0x80000003 by decide] at this
    simp [this]
  rw [hfr]
  rw [s2, hsp] at hc ho hset' ⊢
  rw [hsp] at hacs
  exact SubmitExchange.sgip_text_answered_partial e he h16 ac phone content opts g expiry seqs msgs hmsgs i hi frame henc hdist _ b' d hacc
    hacs (by rw [hone']; exact hone) hc ho hset' (by rw [huniq']; exact huniq) ce hid pre post call ok t h1 h2

/-! ### Sessions: the login of the demonstration, then a tick with a heartbeat and a simulated text; an SGIP text with a tick before the answer -/

def exchangeAfter : List Step := ownSteps.tail
def exchangeFrame : Bytes := (request ServerTraffic.demoEnv.md5 .cmpp ServerTraffic.demoAccount (7, 0, 0) LoginExchange.exampleClock).getD []

set_option maxRecDepth 20000 in
theorem exchange_run :
    (run some ServerTraffic.demoEnv 0 ([] ++ .base (arrives exchangeFrame ServerTraffic.demoDraw) 0 :: exchangeAfter)).own.length = 0 ∧
    (run some ServerTraffic.demoEnv 0 ([] ++ .base (arrives exchangeFrame ServerTraffic.demoDraw) 0 :: exchangeAfter)).queue.length = 0 ∧
    (run some ServerTraffic.demoEnv 0 ([] ++ .base (arrives exchangeFrame ServerTraffic.demoDraw) 0 :: exchangeAfter)).base.tasks.length = 0 ∧
    (run some ServerTraffic.demoEnv 0 ([] ++ .base (arrives exchangeFrame ServerTraffic.demoDraw) 0 :: exchangeAfter)).base.crashed = false ∧
    (run some ServerTraffic.demoEnv 0 ([] ++ .base (arrives exchangeFrame ServerTraffic.demoDraw) 0 :: exchangeAfter)).base.isOpen = true ∧
    (([] ++ Step.base (arrives exchangeFrame ServerTraffic.demoDraw) 0 :: exchangeAfter).filter
      (onPacketSteps fun c _ _ _ => c = loginCmd .cmpp)).length ≤ 1 ∧
    ((frames (run some ServerTraffic.demoEnv 0 ([] ++ .base (arrives exchangeFrame ServerTraffic.demoDraw) 0 :: exchangeAfter))).map command) =
      [be32 0x80000001, be32 8, be32 5] := by
  refine ⟨?_, ?_, ?_, ?_, ?_, ?_, ?_⟩ <;> decide +kernel

example : ∃ f ∈ frames (run some ServerTraffic.demoEnv 0 ([] ++ .base (arrives exchangeFrame ServerTraffic.demoDraw) 0 :: exchangeAfter)),
    newSession .cmpp ServerTraffic.demoAccount.version false ⟨f, false⟩ = some .login := by
  obtain ⟨h1, h2, h3, h4, h5, h6, _⟩ := exchange_run
  obtain ⟨frame, q1, _, q3, q4⟩ := LoginExchange.example_request
  have hf : frame = exchangeFrame := by simp [exchangeFrame, q1]
  subst hf
  obtain ⟨f, r1, _, r3, _⟩ := login_answered_partial some ServerTraffic.demoEnv (by simp [ServerTraffic.demoEnv]) 0 ServerTraffic.demoAccount q4
    (7, 0, 0) LoginExchange.exampleClock q3 _ q1 ServerTraffic.demoDraw 0 [] exchangeAfter h6 h4 h5 (settled_of_empty h1 h2 h3)
  exact ⟨f, r1, r3.2 ⟨ServerTraffic.demoAccount, rfl, fun _ => rfl, rfl, by decide⟩⟩

/-- The recorded login of the demonstration, sent again. -/
example : loginResponse ServerTraffic.demoEnv.md5 .cmpp 1 ServerTraffic.demoLogin (.ok ServerTraffic.demoAccount) ∈
    frames (run some ServerTraffic.demoEnv 0 mixedSteps) := by
  obtain ⟨h1, h2, h3, h4, h5, _⟩ := mixed_run
  exact login_replay_fails some ServerTraffic.demoEnv (by simp [ServerTraffic.demoEnv]) 0 ServerTraffic.demoLogin ServerTraffic.demoDraw
    ServerTraffic.demoAccount (by decide) ServerTraffic.demoDraw rfl (by decide) 1 0 [] mixedSteps.tail h4 h5 (settled_of_empty h1 h2 h3)

def textBefore : List Step := [.base (.packet 1 1 (be32 2 ++ be32 3 ++ [1] ++ pad 16 [65] ++ pad 16 [66] ++ zeros 8) SubmitExchange.demoDraw) 0,
  .base (.run 0) 1, .base (.run 0) 2, .base .loop 5]
def textAfter : List Step := [.base (.run 0) 6, .tick { now := 60000000006, force := 600000000000, enable := true, account := some SubmitExchange.demoAccount, contents := [ascii "12_,_hi"] },
  .task 0 { now := 60000000007, seq := 9 }, .task 0 { now := 60000000008, seq := 10, id := 5 }, .base (.run 0) 60000000009,
  .base (.run 0) 60000000010, .base .loop 60000000011]

set_option maxRecDepth 40000 in
theorem text_run :
    (run some SubmitExchange.demoEnv 0 (textBefore ++ .base (arrives SubmitExchange.demoFrame SubmitExchange.demoDraw) 6 :: textAfter)).own.length = 0 ∧
    (run some SubmitExchange.demoEnv 0 (textBefore ++ .base (arrives SubmitExchange.demoFrame SubmitExchange.demoDraw) 6 :: textAfter)).queue.length = 0 ∧
    (run some SubmitExchange.demoEnv 0 (textBefore ++ .base (arrives SubmitExchange.demoFrame SubmitExchange.demoDraw) 6 :: textAfter)).base.tasks.length = 0 ∧
    (run some SubmitExchange.demoEnv 0 (textBefore ++ .base (arrives SubmitExchange.demoFrame SubmitExchange.demoDraw) 6 :: textAfter)).base.crashed = false ∧
    (run some SubmitExchange.demoEnv 0 (textBefore ++ .base (arrives SubmitExchange.demoFrame SubmitExchange.demoDraw) 6 :: textAfter)).base.isOpen = true ∧
    ((textBefore ++ .base (arrives SubmitExchange.demoFrame SubmitExchange.demoDraw) 6 :: textAfter).filter (onPacketSteps fun c _ _ _ => c = 1)).length ≤ 1 ∧
    ((textBefore ++ .base (arrives SubmitExchange.demoFrame SubmitExchange.demoDraw) 6 :: textAfter).filter (onPacketSteps fun c s body _ =>
      c = 3 ∧ be32 s ++ body.take 8 = be32 5 ++ be32 6 ++ be32 7)).length = 1 := by
  refine ⟨?_, ?_, ?_, ?_, ?_, ?_, ?_⟩ <;> decide +kernel

example := sgip_text_answered_partial some SubmitExchange.demoEnv rfl (by simp [SubmitExchange.demoEnv]) 0 SubmitExchange.demoAccount
  [0x31, 0x32] [104, 105] [] 1 ⟨26, 1, 3, 4, 5, 6⟩ SubmitExchange.demoSeqs SubmitExchange.demoMsgs (by decide +kernel) 0
  (by rw [SubmitExchange.demo_run.1]; decide) SubmitExchange.demoFrame (by
    have h := SubmitExchange.demo_run.2.1
    have h0 : (SubmitExchange.demoMsgs.map (·.encode))[0]? = some (some SubmitExchange.demoFrame) := by rw [h]; rfl
    rw [List.getElem?_map] at h0
    have h1 : 0 < SubmitExchange.demoMsgs.length := by rw [SubmitExchange.demo_run.1]; decide
    rw [List.getElem?_eq_getElem h1] at h0
    exact Option.some.inj h0)
  (by intro j hj h0; rw [SubmitExchange.demo_run.1] at hj; omega)
  textBefore textAfter SubmitExchange.demoDraw 6 (by intro _; exact ⟨by decide, by decide⟩)
  (by
    have hacc : ∀ n ac, SubmitExchange.demoDraw.find n = some ac → 1 ≤ ac.mtWindowSize := by
      intro n ac h; obtain rfl := Option.some.inj h; decide
    intro cmd seq body d now hm n ac hf
    simp only [textBefore, textAfter, arrives, List.cons_append, List.nil_append, List.mem_cons, Step.base.injEq, ServerTraffic.Step.packet.injEq,
      reduceCtorEq, List.not_mem_nil, or_false, false_or, or_self, false_and] at hm
    rcases hm with ⟨⟨_, _, _, rfl⟩, _⟩ | ⟨⟨_, _, _, rfl⟩, _⟩ <;> exact hacc n ac hf)
  text_run.2.2.2.2.2.1 text_run.2.2.2.1 text_run.2.2.2.2.1 (settled_of_empty text_run.1 text_run.2.1 text_run.2.2.1)
  text_run.2.2.2.2.2.2 {} (by decide) [] [.send 1 [0x33] [9] true 12] 0 true 11
  (by simp [Client.Spec.sends]; decide) (by simp [Client.Spec.dropsSeq])

end Gosms.ServerTicks
