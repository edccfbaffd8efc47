import Verif.Props.ServerAccepted
import Verif.Props.LoginExchange

/-! # C76, C94: what needs no slot of the window is always answered

A login and a submit refused by the rate limit work without a slot of the session's window. They are answered whatever the windows and
however many logins there were. -/

namespace Gosms.ServerTraffic
open Handlers Spec.ServerTraffic

/-- A request that needs no slot is never lost. -/
def Kept (e : Env) (s : State) : Prop :=
  ∀ k r, s.reqs[k]? = some r → needsNoSlot r → owed s k = sends (workOf e r) ∧ ∀ t ∈ s.tasks, t.req = k → t.phase = .free

theorem kept_packet {e : Env} {s : State} (hi : Inv e s) (h : Kept e s) (cmd seq : UInt32) (body : Bytes) (d : Draw) :
    Kept e (onPacket e s cmd seq body d) := by
  unfold onPacket
  split
  · exact h
  · exact h
  · exact h
  · rename_i k hk
    have hnew : forReq s.reqs.length s.wire = [] ∧ forReq s.reqs.length s.queue = [] ∧ pend s.tasks s.reqs.length = [] := by
      refine ⟨forReq_other fun x hx => ?_, forReq_other fun x hx => ?_, pend_none fun t ht => ?_⟩
      · have := hi.wlt x hx; omega
      · have := hi.qlt x hx; omega
      · have := hi.lt t ht; omega
    intro k' r hr hn
    have hown : ∀ n, owed { s with reqs := s.reqs ++ [⟨s.ver, k, cmd, seq, body, d⟩]
                                   tasks := s.tasks ++ [⟨s.reqs.length, phaseOf s k d, work e.gbDec e.md5 e.proto s.ver k seq body d⟩] } n
        = owed s n ++ pend [⟨s.reqs.length, phaseOf s k d, work e.gbDec e.md5 e.proto s.ver k seq body d⟩] n := by
      intro n
      simp only [owed, pend_append, List.append_assoc]
    rw [hown]
    by_cases hlt : k' < s.reqs.length
    · rw [List.getElem?_append_left hlt] at hr
      rw [pend_ne (by simp only; omega), List.append_nil]
      refine ⟨(h k' r hr hn).1, fun t ht htk => ?_⟩
      rcases List.mem_append.1 ht with ht | ht
      · exact (h k' r hr hn).2 t ht htk
      · rw [List.mem_singleton.1 ht] at htk; simp only at htk; omega
    · have hk' : k' = s.reqs.length := by
        have := (List.getElem?_eq_some_iff.1 hr).1
        simp at this; omega
      rw [hk', List.getElem?_append_right (Nat.le_refl _)] at hr
      simp at hr
      have : owed s k' = [] := by rw [hk']; simp [owed, hnew]
      rw [this, List.nil_append, hk', pend_eq (⟨s.reqs.length, _, _⟩ : Task)]
      subst hr
      refine ⟨rfl, fun t ht htk => ?_⟩
      rcases List.mem_append.1 ht with ht | ht
      · have := hi.lt t ht; omega
      · rw [List.mem_singleton.1 ht]; exact if_pos hn

theorem kept_run {e : Env} {s : State} (hi : Inv e s) (h : Kept e s) (i : Nat) : Kept e (onRun s i) := by
  unfold onRun
  cases ht : s.tasks[i]? with
  | none => exact h
  | some t =>
    have hmem : t ∈ s.tasks := List.mem_of_getElem? ht
    have base : ∀ (t' : Task), t'.req = t.req → (t.phase = .free → t'.phase = .free) → ∀ (q : List (Nat × Bytes × After)),
        (∀ x ∈ q, x.1 = t.req) → q.map (·.2) ++ sends t'.acts = sends t.acts → ∀ c sl,
        Kept e { s with tasks := s.tasks.set i t', queue := s.queue ++ q, closing := c, slots := sl } := by
      intro t' hr hp q hq hs c sl k r hk hn
      have e1 : owed { s with tasks := s.tasks.set i t', queue := s.queue ++ q, closing := c, slots := sl } k = owed s k :=
        owed_set hi.nodup ht t' hr q hq hs k
      rw [e1]
      refine ⟨(h k r hk hn).1, fun x hx hxk => ?_⟩
      rcases mem_set_task hx with rfl | hx
      · exact hp ((h k r hk hn).2 t hmem (by rw [← hr]; exact hxk))
      · exact (h k r hk hn).2 x hx hxk
    have fin : Kept e (onGo s i t) := by
      unfold onGo
      cases ha : t.acts with
      | nil =>
        intro k r hk hn
        have := owed_erase hi.nodup ht k
        have hz : pend [t] k = [] := by
          by_cases hkt : t.req = k
          · rw [← hkt, pend_eq, ha]; rfl
          · exact pend_ne hkt
        rw [hz, List.append_nil] at this
        have e1 : owed { s with tasks := s.tasks.eraseIdx i, slots := freed s t } k = owed s k := this
        show owed { s with tasks := s.tasks.eraseIdx i, slots := freed s t } k = _ ∧ _
        rw [e1]
        exact ⟨(h k r hk hn).1, fun x hx => (h k r hk hn).2 x (List.mem_of_mem_eraseIdx hx)⟩
      | cons a rest =>
        cases a with
        | send f af =>
          refine base { t with acts := rest } rfl id [(t.req, f, af)] ?_ ?_ s.closing s.slots
          · intro x hx; rw [List.mem_singleton.1 hx]
          · rw [ha]; rfl
        | shut =>
          have := base { t with acts := rest } rfl id [] (by simp) (by rw [ha]; rfl) true s.slots
          simpa [onAct] using this
    cases hp : t.phase with
    | waiting g =>
      simp only [hp]
      by_cases hh : s.slots < s.win
      · rw [if_pos hh]
        have := base { t with phase := .inside s.gen } rfl (by simp [hp]) [] (by simp) rfl s.closing (s.slots + 1)
        simpa using this
      · rw [if_neg hh]; exact h
    | free => simp only [hp]; exact fin
    | inside g => simp only [hp]; exact fin

theorem kept_drop {e : Env} {s : State} (hi : Inv e s) (h : Kept e s) (i : Nat) : Kept e (onDrop s i) := by
  unfold onDrop
  split
  · rename_i k g acts ht
    split
    · intro k' r hk hn
      have he := owed_erase hi.nodup ht k'
      have hkk : k ≠ k' := by
        intro hkk
        have := (h k' r hk hn).2 _ (List.mem_of_getElem? ht) hkk
        cases this
      rw [pend_ne (by simpa using hkk), List.append_nil] at he
      have e1 : owed { s with tasks := s.tasks.eraseIdx i } k' = owed s k' := he
      rw [e1]
      exact ⟨(h k' r hk hn).1, fun x hx => (h k' r hk hn).2 x (List.mem_of_mem_eraseIdx hx)⟩
    · exact h
  · exact h

theorem kept_loop {e : Env} {s : State} (h : Kept e s) : Kept e (onLoop s) := by
  unfold onLoop
  split
  · exact h
  · rename_i k f a q hq
    obtain ⟨e1, e2, e3, e4, _⟩ := onAfter_reqs { s with queue := q, wire := s.wire ++ [(k, f, a)] } a
    intro n r hn hs
    rw [e1] at hn
    have how : owed (onAfter { s with queue := q, wire := s.wire ++ [(k, f, a)] } a) n = owed s n := by
      simp only [owed, e2, e3, e4, hq]
      have : (k, f, a) :: q = [(k, f, a)] ++ q := rfl
      rw [this, forReq_append, forReq_append]
      simp
    rw [how, e3]
    exact h n r hn hs

theorem kept_run_all (e : Env) (steps : List Step) : Kept e (run e steps) := by
  induction steps using snoc_induction with
  | nil => intro k r hr; simp [run] at hr
  | snoc l x ih =>
    have hi := inv_run_all e l
    rw [run_snoc]
    unfold step
    split
    · exact ih
    · cases x with
      | packet cmd seq body d => exact kept_packet hi ih cmd seq body d
      | run i => exact kept_run hi ih i
      | drop i => exact kept_drop hi ih i
      | loop => exact kept_loop ih
      | close => exact ih

/-- C76: a login, and a submit over the rate limit, is answered by a server at rest on an open connection, byte for byte as specified:
whatever the accounts' windows, however many logins there were. -/
theorem slotless_answered (e : Env) (h16 : ∀ x, (e.md5 x).length = 16) (a b : List Step) (cmd seq : UInt32) (body : Bytes)
    (d : Draw) (f : Bytes) (hf : answer e (run e a).ver cmd seq body d = some f)
    (hk : cmd = loginCmd e.proto ∨ cmd = submitCmd e.proto ∧ d.allow = false)
    (hc : (run e (a ++ .packet cmd seq body d :: b)).crashed = false)
    (ho : (run e (a ++ .packet cmd seq body d :: b)).isOpen = true)
    (hs : Settled e (run e (a ++ .packet cmd seq body d :: b))) :
    f ∈ frames (run e (a ++ .packet cmd seq body d :: b)) := by
  obtain ⟨k, hck, _⟩ := answer_chain hf
  have hr := received hck hc ho
  have hinv := inv_run_all e (a ++ .packet cmd seq body d :: b)
  have hg := hinv.good _ (List.mem_of_getElem? hr)
  have hns : needsNoSlot ⟨(run e a).ver, k, cmd, seq, body, d⟩ := by
    rcases hk with rfl | ⟨rfl, hd⟩
    · refine .inl (chain_functional _ _ _ _ hck ?_)
      cases e.proto <;> decide
    · refine .inr ⟨chain_functional _ _ _ _ hck ?_, hd⟩
      cases e.proto <;> decide
  have hab : cmd = submitCmd e.proto → d.allow = true → Able d := by
    intro h1 h2
    rcases hk with rfl | ⟨_, hd⟩
    · exact absurd h1 (by cases e.proto <;> decide)
    · rw [h2] at hd; cases hd
  obtain ⟨x, hx, hxf, _⟩ := task_answers h16 (r := ⟨(run e a).ver, k, cmd, seq, body, d⟩) hg hab hf
  obtain ⟨h1, h2⟩ := kept_run_all e _ _ _ hr hns
  obtain ⟨hq, ht⟩ := settled_waiting hc ho hs
  have hp : pend (run e (a ++ .packet cmd seq body d :: b)).tasks (run e a).reqs.length = [] := by
    refine pend_none fun t hm htk => ?_
    obtain ⟨g, hg'⟩ := ht t hm
    have := h2 t hm htk
    rw [hg'] at this; cases this
  rw [owed, hq, hp] at h1
  simp only [forReq, List.filter_nil, List.map_nil, List.append_nil] at h1
  rw [← h1] at hx
  obtain ⟨y, hy, hyx⟩ := List.mem_map.1 hx
  rw [frame_iff]
  exact ⟨y, (List.mem_filter.1 hy).1, by rw [← hxf, ← hyx]⟩

/-- The second login of `twiceSteps`, which costs a heartbeat its answer, has its own. -/
example : loginResponse demoEnv.md5 .cmpp 4 demoLogin (loginVerdict demoEnv.md5 .cmpp demoLogin demoDraw.find demoDraw.sessions) ∈
    frames (run demoEnv twiceSteps) :=
  slotless_answered demoEnv (by simp [demoEnv]) (twiceSteps.take 7) (twiceSteps.drop 8) 1 4 demoLogin demoDraw _ rfl (.inl rfl)
    (by decide) (by decide) (settled_of_empty (by decide) (by decide))

end Gosms.ServerTraffic

namespace Gosms.ServerTicks
open ServerTraffic (Env After Draw answer verdict)
open Handlers Spec.ServerTraffic

/-- C76, with the server's own frames: logins and submits over the rate limit are answered whatever the windows and logins. -/
theorem slotless_answered (gb : Bytes → Option Bytes) (e : Env) (h16 : ∀ x, (e.md5 x).length = 16) (t0 : Int) (a b : List Step)
    (cmd seq : UInt32) (body : Bytes) (d : Draw) (now : Int) (f : Bytes) (hf : answer e (run gb e t0 a).base.ver cmd seq body d = some f)
    (hk : cmd = loginCmd e.proto ∨ cmd = submitCmd e.proto ∧ d.allow = false)
    (hc : (run gb e t0 (a ++ .base (.packet cmd seq body d) now :: b)).base.crashed = false)
    (ho : (run gb e t0 (a ++ .base (.packet cmd seq body d) now :: b)).base.isOpen = true)
    (hs : Settled gb e (run gb e t0 (a ++ .base (.packet cmd seq body d) now :: b))) :
    f ∈ frames (run gb e t0 (a ++ .base (.packet cmd seq body d) now :: b)) := by
  obtain ⟨b', hb'⟩ := project_split gb e t0 a b cmd seq body d now
  obtain ⟨s1, s2⟩ := sim_run gb e t0 (a ++ .base (.packet cmd seq body d) now :: b)
  have ha := (sim_run gb e t0 a).2
  rw [ha] at hf
  have hset := settled_base s1 hs
  refine base_frames ?_
  unfold answering at *
  rw [s2] at hc ho hset ⊢
  rw [hb'] at hc ho hset ⊢
  exact ServerTraffic.slotless_answered e h16 _ b' cmd seq body d f hf hk hc ho hset

end Gosms.ServerTicks

namespace Gosms.LoginExchange
open Gosms.ServerTraffic
open Gosms.Spec.ServerTraffic
open Gosms.ClientLogin (newSession request)

/-- C94: the client's login is answered by a server at rest on an open connection, whatever the windows; with one login on the connection
both sessions are logged in exactly if the server should admit the client. Partial: for accounts whose fields arrive whole
(`login_cut_id_fails`). -/
theorem login_answered_partial (e : Env) (h16 : ∀ x, (e.md5 x).length = 16) (mine : AuthConf) (hs : Sendable e.proto mine) (seq : Sgip.Seq3)
    (clock : Clock) (hclock : clock.Valid) (frame : Bytes) (hreq : request e.md5 e.proto mine seq clock = some frame) (d : Draw)
    (a b : List Step)
    (hone : ((a ++ arrives frame d :: b).filter (onPackets fun c _ _ _ => c = loginCmd e.proto)).length ≤ 1)
    (hc : (run e (a ++ arrives frame d :: b)).crashed = false) (ho : (run e (a ++ arrives frame d :: b)).isOpen = true)
    (hset : Settled e (run e (a ++ arrives frame d :: b))) :
    ∃ f ∈ frames (run e (a ++ arrives frame d :: b)),
      command f = be32 (Spec.responseOf (loginCmd e.proto)) ∧
      (newSession e.proto mine.version false ⟨f, false⟩ = some .login ↔ ∃ theirs, Admits e.md5 e.proto mine clock d.find d.sessions theirs) ∧
      ((run e (a ++ arrives frame d :: b)).stat = .login ↔ ∃ theirs, Admits e.md5 e.proto mine clock d.find d.sessions theirs) := by
  obtain ⟨frame', hreq', _, hcmd, _⟩ := request_fields e.md5 h16 e.proto mine seq clock hclock
  have : frame' = frame := by rw [hreq] at hreq'; exact (Option.some.inj hreq').symm
  subst this
  have harr : arrives frame' d = .packet (loginCmd e.proto) (rd32 ((frame'.drop 8).take 4)) (frame'.drop 12) d := by
    unfold arrives; rw [hcmd]
  have hans : answer e (run e a).ver (loginCmd e.proto) (rd32 ((frame'.drop 8).take 4)) (frame'.drop 12) d =
      some (loginResponse e.md5 e.proto (rd32 ((frame'.drop 8).take 4)) (frame'.drop 12)
        (loginVerdict e.md5 e.proto (frame'.drop 12) d.find d.sessions)) := by
    unfold answer
    rw [if_neg (by cases e.proto <;> decide), if_pos rfl]
  have hmem := slotless_answered e h16 a b (loginCmd e.proto) (rd32 ((frame'.drop 8).take 4)) (frame'.drop 12) d _ hans (.inl rfl)
  rw [← harr] at hmem
  have hmem := hmem hc ho hset
  have hcom := (answer_command hans).1
  have honly := only_login e.proto (a ++ arrives frame' d :: b) hone (x := arrives frame' d) (by simp) (by rw [harr]; simp [onPackets])
  have := login_exchange_partial e h16 mine hs seq clock hclock frame' hreq d (a ++ arrives frame' d :: b) honly _ hmem hcom
  exact ⟨_, hmem, hcom, this.1, (this.2.2.2 hc).trans this.1⟩

/-! ## Accounts of any size -/

/-- The server admits what arrives of the client's account: an account under the id as it arrives, of the same major version, against
which what was sent checks, with room for another session. -/
def AdmitsSent (md5 : Bytes → Bytes) (p : Proto) (mine : AuthConf) (c : Clock) (find : Bytes → Option AuthConf) (sessions : Int)
    (theirs : AuthConf) : Prop :=
  find (sentName p mine.clientId) = some theirs ∧ (p ≠ .sgip → Spec.major mine.version = Spec.major theirs.version) ∧
  Checked md5 p mine theirs c ∧ sessions < theirs.maxConns

/-- C94 for accounts of any size: the exchange is decided by what arrives of the id (CMPP: its first 6 bytes up to a NUL; SMGP: 8 bytes,
shorter ones filled with NULs; SGIP: 16). -/
theorem login_exchange_any (e : Env) (h16 : ∀ x, (e.md5 x).length = 16) (mine : AuthConf) (seq : Sgip.Seq3)
    (clock : Clock) (hclock : clock.Valid) (frame : Bytes) (hreq : request e.md5 e.proto mine seq clock = some frame) (d : Draw)
    (steps : List Step)
    (honly : ∀ s b d', Step.packet (loginCmd e.proto) s b d' ∈ steps → Step.packet (loginCmd e.proto) s b d' = arrives frame d)
    (f : Bytes) (hf : f ∈ frames (run e steps)) (hc : command f = be32 (Spec.responseOf (loginCmd e.proto))) :
    (newSession e.proto mine.version false ⟨f, false⟩ = some .login ↔ ∃ theirs, AdmitsSent e.md5 e.proto mine clock d.find d.sessions theirs) ∧
    (newSession e.proto mine.version false ⟨f, false⟩ = none ↔ ¬ ∃ theirs, AdmitsSent e.md5 e.proto mine clock d.find d.sessions theirs) ∧
    (newSession e.proto mine.version false ⟨f, false⟩ = none → (run e steps).closing = true) := by
  obtain ⟨frame', hreq', _, hcmd, hseq, hlen, hname, hver, hcred⟩ := request_fields e.md5 h16 e.proto mine seq clock hclock
  have : frame' = frame := by rw [hreq] at hreq'; exact (Option.some.inj hreq').symm
  subst this
  have hv : ∀ a, loginVerdict e.md5 e.proto (frame'.drop 12) d.find d.sessions = .ok a ↔ AdmitsSent e.md5 e.proto mine clock d.find d.sessions a := by
    intro a
    rw [verdict_iff, hname, hcred a]
    constructor
    · rintro ⟨q1, q2, q3, q4⟩; exact ⟨q1, fun hp => by rw [← hver hp]; exact q2 hp, q3, q4⟩
    · rintro ⟨q1, q2, q3, q4⟩; exact ⟨q1, fun hp => by rw [hver hp]; exact q2 hp, q3, q4⟩
  obtain ⟨s, b, d', hm, hfe, href, hcl⟩ := login_response_honest e h16 steps f hf hc
  have hbd := honly s b d' hm
  unfold arrives at hbd
  injection hbd with _ _ hb hd
  subst hb hd
  have h8 : e.proto = .sgip → 8 ≤ (frame'.drop 12).length := by
    intro hp; rw [List.length_drop, hlen, hp]; decide
  have hcr := client_reads h16 e.proto mine.version s (frame'.drop 12) (loginVerdict e.md5 e.proto (frame'.drop 12) d'.find d'.sessions) h8 hver
  rw [← hfe] at hcr
  simp only [hv] at hcr href
  refine ⟨hcr.1, hcr.2, fun hn => hcl ?_⟩
  cases hr : refusal e.proto f with
  | true => rfl
  | false => exact absurd (href.1 hr) (hcr.2.1 hn)

/-- C94 fails for every id that does not arrive whole: if the server has the client's very account, with room, but none under the id cut
short (or, SMGP, filled up), the client never gets a session, in no schedule, and the server closes the connection. -/
theorem login_cut_id_fails (e : Env) (h16 : ∀ x, (e.md5 x).length = 16) (mine : AuthConf) (seq : Sgip.Seq3)
    (clock : Clock) (hclock : clock.Valid) (frame : Bytes) (hreq : request e.md5 e.proto mine seq clock = some frame) (d : Draw)
    (hcut : sentName e.proto mine.clientId ≠ mine.clientId)
    (hfind : ∀ n, d.find n = if n = mine.clientId then some mine else none) (hroom : d.sessions < mine.maxConns)
    (hname : mine.loginName = mine.clientId) (steps : List Step)
    (honly : ∀ s b d', Step.packet (loginCmd e.proto) s b d' ∈ steps → Step.packet (loginCmd e.proto) s b d' = arrives frame d)
    (f : Bytes) (hf : f ∈ frames (run e steps)) (hc : command f = be32 (Spec.responseOf (loginCmd e.proto))) :
    (∃ theirs, Admits e.md5 e.proto mine clock d.find d.sessions theirs) ∧
    newSession e.proto mine.version false ⟨f, false⟩ = none ∧ (run e steps).closing = true := by
  obtain ⟨_, h2, h3⟩ := login_exchange_any e h16 mine seq clock hclock frame hreq d steps honly f hf hc
  have hn : newSession e.proto mine.version false ⟨f, false⟩ = none := by
    rw [h2]
    rintro ⟨theirs, h, _⟩
    rw [hfind, if_neg hcut] at h
    cases h
  refine ⟨⟨mine, by rw [hfind, if_pos rfl], fun _ => rfl, ?_, hroom⟩, hn, h3 hn⟩
  unfold Proves
  cases e.proto with
  | sgip => exact ⟨hname, rfl⟩
  | cmpp => rfl
  | smgp => rfl

/-- A client of CMPP id "ABCDEFG", which the server knows. -/
def longAccount : AuthConf := { clientId := [65, 66, 67, 68, 69, 70, 71], loginName := [65, 66, 67, 68, 69, 70, 71], version := 0x20, maxConns := 1, mtWindowSize := 1 }
def longDraw : Draw := { find := fun n => if n = longAccount.clientId then some longAccount else none }
def longSteps : List Step :=
  [arrives ((request demoEnv.md5 .cmpp longAccount (7, 0, 0) exampleClock).getD []) longDraw, .run 0, .run 0, .loop]

set_option maxRecDepth 20000 in
theorem long_run : (run demoEnv longSteps).wire.map (fun x => command x.2.1) = [be32 0x80000001] := by
  decide +kernel

/-- It is refused. -/
example : ∃ f ∈ frames (run demoEnv longSteps), newSession .cmpp longAccount.version false ⟨f, false⟩ = none ∧
    (run demoEnv longSteps).closing = true ∧
    ∃ theirs, Admits demoEnv.md5 .cmpp longAccount exampleClock longDraw.find longDraw.sessions theirs := by
  have hv : exampleClock.Valid := by refine ⟨?_, ?_, ?_, ?_, ?_, ?_⟩ <;> decide
  obtain ⟨frame, h, _⟩ := request_fields demoEnv.md5 (by simp [demoEnv]) .cmpp longAccount (7, 0, 0) exampleClock hv
  have hsteps : longSteps = arrives frame longDraw :: [.run 0, .run 0, .loop] := by simp [longSteps, h]
  have hw := long_run
  obtain ⟨x, hx, hxc⟩ : ∃ x, x ∈ (run demoEnv longSteps).wire ∧ command x.2.1 = be32 0x80000001 := by
    cases hl : (run demoEnv longSteps).wire with
    | nil => rw [hl] at hw; cases hw
    | cons y l => rw [hl] at hw; exact ⟨y, List.mem_cons_self, (List.cons.inj hw).1⟩
  have hf : x.2.1 ∈ frames (run demoEnv longSteps) := frame_iff.2 ⟨x, hx, rfl⟩
  obtain ⟨h1, h2, h3⟩ := login_cut_id_fails demoEnv (by simp [demoEnv]) longAccount (7, 0, 0) exampleClock hv frame h longDraw (by decide)
    (fun _ => rfl) (by decide) rfl longSteps (by
      intro s b d' hm
      rw [hsteps] at hm
      rcases List.mem_cons.1 hm with hm | hm
      · exact hm
      · simp at hm) _ hf hxc
  exact ⟨_, hf, h2, h3, h1⟩

end Gosms.LoginExchange
