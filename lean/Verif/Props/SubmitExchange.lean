import Verif.Props.LoginExchange
import Verif.Props.ClientTraffic
import Verif.Props.SgipSeq

/-!
# C106: a text sent with the client to the server

The client of Model/Client.lean and Model/ClientTraffic.lean and the server of Model/ServerTraffic.lean, joined by the bytes
between them: each packet of the text is received by the server, and the frame the server writes is what the client reads.
-/

namespace Gosms.SubmitExchange
open Gosms.ServerTraffic
open Gosms.Spec.ServerTraffic
open Gosms.Client (sequence2Uint64 sequence2String)
open Gosms.LoginExchange (arrives)

/-! ## Specification -/

/-- The number by which the client finds a packet's result again: the last two words of the SGIP sequence number. -/
def number (s : Sgip.Seq3) : UInt64 := sequence2Uint64 s.2.1 s.2.2

/-- The responses to a submit with this sequence number among the frames the server has written. -/
def answersTo (s : Sgip.Seq3) (fs : List Bytes) : List Bytes :=
  fs.filter fun f => command f = be32 0x80000003 ∧ seqOf .sgip f = be32 s.1 ++ be32 s.2.1 ++ be32 s.2.2

/-! ## The packets -/

theorem encodeWithS_head {h : SHeader} {ops : List WOp} {f : Bytes} (hk : KeepsHead 20 ops) (hl : 20 ≤ h.packetLength.toNat)
    (he : encodeWithS h ops = some f) : f.take 20 = Spec.header20 h.packetLength h.commandId h.seq0 h.seq1 h.seq2 := by
  unfold encodeWithS at he
  rw [sheader_encode, sclamp_of_le hl] at he
  simp only [Option.bind_some, Option.map_eq_some_iff] at he
  obtain ⟨⟨f', i⟩, h1, h2⟩ := he
  have h3 := runW_keeps hk (Nat.le_refl 20) h1
  simp only at h2
  subst h2
  rw [h3, List.take_left' (length_header20 _ _ _ _ _)]

/-- Command, sequence number and the rest of the sequence number in a submit as sent. -/
theorem submit_head {m : Sgip.Submit} {f : Bytes} (hl : 20 ≤ m.hdr.packetLength.toNat) (hc : m.hdr.commandId = 3)
    (he : m.encode = some f) : rd32 ((f.drop 4).take 4) = 3 ∧ rd32 ((f.drop 8).take 4) = m.hdr.seq0 ∧
      (f.drop 12).take 8 = be32 m.hdr.seq1 ++ be32 m.hdr.seq2 ∧ 8 ≤ (f.drop 12).length := by
  have hk : KeepsHead 20 m.ops := by
    intro op hop j hj
    subst hj
    simp [Sgip.Submit.ops] at hop
    omega
  have h20 := encodeWithS_head hk hl he
  have hlen : 20 ≤ f.length := by
    have := congrArg List.length h20
    rw [List.length_take, length_header20] at this
    omega
  have hf : f = be32 m.hdr.packetLength ++ (be32 m.hdr.commandId ++ (be32 m.hdr.seq0 ++ ((be32 m.hdr.seq1 ++ be32 m.hdr.seq2) ++ f.drop 20))) := by
    conv => lhs; rw [← List.take_append_drop 20 f, h20]
    simp [Spec.header20]
  have e4 : f.drop 4 = be32 m.hdr.commandId ++ (be32 m.hdr.seq0 ++ ((be32 m.hdr.seq1 ++ be32 m.hdr.seq2) ++ f.drop 20)) := by
    conv => lhs; rw [hf, List.drop_left' (by simp)]
  have e8 : f.drop 8 = be32 m.hdr.seq0 ++ ((be32 m.hdr.seq1 ++ be32 m.hdr.seq2) ++ f.drop 20) := by
    rw [show (8 : Nat) = 4 + 4 from rfl, ← List.drop_drop, e4, List.drop_left' (by simp)]
  have e12 : f.drop 12 = (be32 m.hdr.seq1 ++ be32 m.hdr.seq2) ++ f.drop 20 := by
    rw [show (12 : Nat) = 8 + 4 from rfl, ← List.drop_drop, e8, List.drop_left' (by simp)]
  refine ⟨?_, ?_, ?_, ?_⟩
  · rw [e4, List.take_left' (by simp), rd32_be32, hc]
  · rw [e8, List.take_left' (by simp), rd32_be32]
  · rw [e12, List.take_left' (by simp)]
  · rw [List.length_drop]; omega

/-- The server's answer is the library's response to the packet. -/
theorem answer_is_response (v3 : Bool) (m : Sgip.Submit) (body : Bytes) (v : Verdict) (id : UInt64) (bcd : Bytes)
    (hb : body.take 8 = be32 m.hdr.seq1 ++ be32 m.hdr.seq2) :
    (m.toResponse (code .sgip v)).encode = some (submitResponse v3 .sgip m.hdr.seq0 body v id bcd) := by
  have henc := Sgip.rsp_encode (m.toResponse (code .sgip v)) rfl
  have hbody : Spec.Sgip.rspBody (m.toResponse (code .sgip v)) = (code .sgip v).toUInt8 :: zeros 8 := by
    simp [Spec.Sgip.rspBody, Sgip.Submit.toResponse]
  rw [henc, hbody, submitResponse, hb]
  simp [response, Spec.header12, Spec.header20, Sgip.Submit.toResponse]
  rfl

/-! ## The exchange -/

/-- C106: a text is sent with the client to this library's server over SGIP. Once the server is at rest (the connection still open), there
is exactly one response to each packet of the text; when the client reads it, whatever it did in between, the packet's result - and no
other - gets the server's verdict (0 accepted, 33 refused or over the limit), the sequence number as message id, and the time. For every
text, account and schedule. Partial: the accounts' windows have a slot, there was one login, the server knows the account and its
processing times are configured (see `zero_window_answers_fails`, `second_login_answers_fails`, `submit_answered_fails`), sequence numbers
are not used twice (see `sgip_sequence_unique`) and the client has not dropped the packet from its cache; and SGIP only (see
`ClientTraffic.submit_answer_recorded_cmpp_smgp_fails`). -/
theorem sgip_text_answered_partial (e : Env) (he : e.proto = .sgip) (h16 : ∀ x, (e.md5 x).length = 16)
    (ac : AuthConf) (phone content : Bytes) (opts : List OptionFunc) (g : UInt8) (expiry : Clock) (seqs : Nat → Sgip.Seq3)
    (msgs : List Sgip.Submit) (hmsgs : Sgip.newSubmit ac [phone] content opts g expiry seqs = some msgs)
    (i : Nat) (hi : i < msgs.length) (frame : Bytes) (henc : msgs[i].encode = some frame)
    (hdist : ∀ j, j < msgs.length → j ≠ i → (seqs j).2 ≠ (seqs i).2)
    (a b : List Step) (d : Draw) (hacc : d.allow = true → d.account ≠ none ∧ d.minMs < d.maxMs)
    (hwin : Accounts (fun ac => 1 ≤ ac.mtWindowSize) (a ++ arrives frame d :: b))
    (hone : ((a ++ arrives frame d :: b).filter (onPackets fun c _ _ _ => c = 1)).length ≤ 1)
    (hc : (run e (a ++ arrives frame d :: b)).crashed = false) (ho : (run e (a ++ arrives frame d :: b)).isOpen = true)
    (hs : Settled e (run e (a ++ arrives frame d :: b)))
    (huniq : ((a ++ arrives frame d :: b).filter (onPackets fun c s body _ =>
      c = 3 ∧ be32 s ++ body.take 8 = be32 (seqs i).1 ++ be32 (seqs i).2.1 ++ be32 (seqs i).2.2)).length = 1)
    (ce : ClientTraffic.Env) (hid : ce.nextId.length = 10) (pre post : List Client.Step) (call : Nat) (ok : Bool) (t : Int)
    (h1 : ∀ x ∈ post, ¬ Client.Spec.sends (number (seqs i)) x) (h2 : ∀ x ∈ post, ¬ Client.Spec.dropsSeq t x) :
    let before := pre ++ .send call phone ((List.range msgs.length).map fun j => number (seqs j)) ok t :: post
    let k := (Client.run pre).heap.length + i
    ∃ f pkt r o, answersTo (seqs i) (frames (run e (a ++ arrives frame d :: b))) = [f] ∧
      ClientReceive.turn [f] = .inr (pkt, []) ∧
      (Client.run before).heap[k]? = some r ∧ r.phone = phone ∧
      ClientTraffic.onTraffic .sgip ce (Client.run before) pkt.cmd pkt.seq pkt.body = some o ∧ o.written = none ∧ o.closed = false ∧
      o.st.heap = (Client.run before).heap.set k
        { r with result := if d.allow = true ∧ d.fail = false then 0 else 33,
                 msgId := sequence2String (seqs i).1 (seqs i).2.1 (seqs i).2.2, responseTime := ce.now } := by
  intro before k
  obtain ⟨msgs', slices, hm', _, _, hlen, hall⟩ := Sgip.sgip_newSubmit ac [phone] content opts g expiry seqs (by simp)
  have : msgs' = msgs := by rw [hmsgs] at hm'; exact (Option.some.inj hm').symm
  subst this
  obtain ⟨hok, hcmd, hseq, _⟩ := hall i hi (hlen ▸ hi)
  have hs0 : msgs'[i].hdr.seq0 = (seqs i).1 := congrArg (·.1) hseq
  have hs1 : msgs'[i].hdr.seq1 = (seqs i).2.1 := congrArg (·.2.1) hseq
  have hs2 : msgs'[i].hdr.seq2 = (seqs i).2.2 := congrArg (·.2.2) hseq
  have h20 : 20 ≤ msgs'[i].hdr.packetLength.toNat := by rw [hok.total]; omega
  obtain ⟨g1, g2, g3, g4⟩ := submit_head h20 hcmd henc
  have hpk : packetSeq .sgip msgs'[i].hdr.seq0 (frame.drop 12) = be32 (seqs i).1 ++ be32 (seqs i).2.1 ++ be32 (seqs i).2.2 := by
    simp only [packetSeq, if_true, g3, hs0, hs1, hs2, List.append_assoc]
  have harr : arrives frame d = .packet 3 msgs'[i].hdr.seq0 (frame.drop 12) d := by unfold arrives; rw [g1, g2]
  rw [harr] at hwin hone hc ho hs huniq ⊢
  have hans : answer e (run e a).ver 3 msgs'[i].hdr.seq0 (frame.drop 12) d =
      some (submitResponse (Cmpp.v3 (run e a).ver) .sgip msgs'[i].hdr.seq0 (frame.drop 12) (verdict d) d.id d.bcd) := by
    unfold answer; rw [he]; rfl
  have honce := packet_answered_once_partial e h16 a b 3 msgs'[i].hdr.seq0 (frame.drop 12) d _ hans (fun _ => hacc) hwin
    (by rw [he]; exact hone) hc ho hs (fun _ => g4) (by
      rw [he, hpk]
      simpa only [packetSeq, if_true] using huniq)
  rw [he, hpk] at honce
  -- the client
  have hsplit : (List.range msgs'.length).map (fun j => number (seqs j)) =
      ((List.range i).map fun j => number (seqs j)) ++ number (seqs i) ::
        ((List.range' (i + 1) (msgs'.length - (i + 1))).map fun j => number (seqs j)) := by
    rw [← List.map_cons (f := fun j => number (seqs j)), ← List.map_append]
    congr 1
    rw [List.range_eq_range', List.range_eq_range', ← List.range'_succ,
      show msgs'.length - (i + 1) + 1 = msgs'.length - i by omega]
    have := List.range'_append (s := 0) (m := i) (n := msgs'.length - i) (step := 1)
    rw [show 0 + 1 * i = i by omega, show i + (msgs'.length - i) = msgs'.length by omega] at this
    exact this.symm
  have hnum : number (seqs i) = sequence2Uint64 msgs'[i].hdr.seq1 msgs'[i].hdr.seq2 := by rw [hs1, hs2]; rfl
  have hnot : number (seqs i) ∉ (List.range' (i + 1) (msgs'.length - (i + 1))).map fun j => number (seqs j) := by
    intro hm
    obtain ⟨j, hj, hjn⟩ := List.mem_map.1 hm
    simp only [List.mem_range'_1] at hj
    obtain ⟨q1, q2⟩ := Client.sequence2Uint64_inj hjn
    exact hdist j (by omega) (by omega) (Prod.ext q1 q2)
  rw [hnum] at hnot h1
  obtain ⟨f, pkt, r, o, z1, z2, z3, z4, z5, z6, z7, z8⟩ := ClientTraffic.submit_answer_recorded_sgip_partial ce pre post call phone
    ((List.range i).map fun j => number (seqs j)) _ ok t msgs'[i] (code .sgip (verdict d)) hid hnot h1 h2
  rw [answer_is_response (Cmpp.v3 (run e a).ver) msgs'[i] (frame.drop 12) (verdict d) d.id d.bcd g3] at z1
  obtain rfl := Option.some.inj z1
  have hcode : (code .sgip (verdict d)).toUInt8.toUInt32 = if d.allow = true ∧ d.fail = false then 0 else 33 := by
    unfold verdict
    cases d.allow <;> cases d.fail <;> decide
  refine ⟨_, pkt, r, o, honce, z2, ?_⟩
  rw [← hnum, ← hsplit] at z3 z5 z8
  rw [hcode, hs0, hs1, hs2] at z8
  simp only [List.length_map, List.length_range] at z3 z8
  exact ⟨z3, z4, z5, z6, z7, z8⟩

/-! ### A session: a bind, a text of one packet, the answer -/

def demoEnv : Env := { proto := .sgip, md5 := fun _ => List.replicate 16 7 }
def demoAccount : AuthConf := { clientId := [65], loginName := [65], sharedSecret := [66], maxConns := 1, mtWindowSize := 1 }
def demoSeqs (j : Nat) : Sgip.Seq3 := (5, 6, UInt32.ofNat (7 + j))
def demoMsgs : List Sgip.Submit := (Sgip.newSubmit demoAccount [[0x31, 0x32]] [104, 105] [] 1 ⟨26, 1, 3, 4, 5, 6⟩ demoSeqs).getD []
def demoFrame : Bytes := ((demoMsgs.map fun m => m.encode.getD [])).headD []
def demoDraw : Draw := { account := some {}, find := fun _ => some demoAccount }
def demoBefore : List Step := [.packet 1 1 (be32 2 ++ be32 3 ++ [1] ++ pad 16 [65] ++ pad 16 [66] ++ zeros 8) demoDraw, .run 0, .run 0, .loop]
def demoAfter : List Step := [.run 0, .run 0, .run 0, .loop]

set_option maxRecDepth 40000 in
theorem demo_run : demoMsgs.length = 1 ∧ (demoMsgs.map (·.encode)) = [some demoFrame] ∧
    (run demoEnv (demoBefore ++ arrives demoFrame demoDraw :: demoAfter)).tasks = [] ∧
    (run demoEnv (demoBefore ++ arrives demoFrame demoDraw :: demoAfter)).queue = [] ∧
    (run demoEnv (demoBefore ++ arrives demoFrame demoDraw :: demoAfter)).crashed = false ∧
    (run demoEnv (demoBefore ++ arrives demoFrame demoDraw :: demoAfter)).isOpen = true ∧
    (run demoEnv (demoBefore ++ arrives demoFrame demoDraw :: demoAfter)).wire.length = 2 ∧
    ((demoBefore ++ arrives demoFrame demoDraw :: demoAfter).filter (onPackets fun c _ _ _ => c = 1)).length ≤ 1 ∧
    ((demoBefore ++ arrives demoFrame demoDraw :: demoAfter).filter (onPackets fun c s body _ =>
      c = 3 ∧ be32 s ++ body.take 8 = be32 5 ++ be32 6 ++ be32 7)).length = 1 := by
  decide +kernel

/-- The hypotheses of `sgip_text_answered_partial` hold for it; the client sends something else before the answer comes. -/
example := sgip_text_answered_partial demoEnv rfl (by simp [demoEnv]) demoAccount [0x31, 0x32] [104, 105] [] 1 ⟨26, 1, 3, 4, 5, 6⟩
  demoSeqs demoMsgs (by decide +kernel) 0 (by rw [demo_run.1]; decide) demoFrame (by
    have h := demo_run.2.1
    have h0 : (demoMsgs.map (·.encode))[0]? = some (some demoFrame) := by rw [h]; rfl
    rw [List.getElem?_map] at h0
    have h1 : 0 < demoMsgs.length := by rw [demo_run.1]; decide
    rw [List.getElem?_eq_getElem h1] at h0
    exact Option.some.inj h0)
  (by intro j hj h0; rw [demo_run.1] at hj; omega)
  demoBefore demoAfter demoDraw (by intro _; exact ⟨by decide, by decide⟩)
  (by
    have hacc : ∀ n ac, demoDraw.find n = some ac → 1 ≤ ac.mtWindowSize := by
      intro n ac h; obtain rfl := Option.some.inj h; decide
    intro cmd seq body d hm n ac hf
    simp only [demoBefore, demoAfter, arrives, List.cons_append, List.nil_append, List.mem_cons, Step.packet.injEq, reduceCtorEq,
      List.not_mem_nil, or_false, false_or, or_self] at hm
    rcases hm with ⟨_, _, _, rfl⟩ | ⟨_, _, _, rfl⟩ <;> exact hacc n ac hf)
  demo_run.2.2.2.2.2.2.2.1 demo_run.2.2.2.2.1 demo_run.2.2.2.2.2.1 (settled_of_empty demo_run.2.2.1 demo_run.2.2.2.1)
  demo_run.2.2.2.2.2.2.2.2 {} (by decide) [] [.send 1 [0x33] [9] true 12] 0 true 11
  (by simp [Client.Spec.sends]; decide) (by simp [Client.Spec.dropsSeq])

/-! ## Afterwards -/

/-- A step in which an answer to the packet with this number is read. -/
def answered (q : UInt64) : Client.Step → Prop
  | .resp (.sgip _ s1 s2 _) _ => sequence2Uint64 s1 s2 = q
  | _ => False

open Client in
/-- What is recorded stays: without another answer of the same number nothing changes the verdict, the message id and the time of the
answer in a result. -/
theorem record_stays (hist post : List Client.Step) (i : Nat) (r : Client.Result) (hr : (Client.run hist).heap[i]? = some r)
    (h : ∀ x ∈ post, ¬ answered r.sequenceId x) :
    ∃ r', (Client.run (hist ++ post)).heap[i]? = some r' ∧ r'.result = r.result ∧ r'.msgId = r.msgId ∧
      r'.responseTime = r.responseTime ∧ r'.phone = r.phone ∧ r'.sequenceId = r.sequenceId ∧ r'.sendTime = r.sendTime := by
  induction post using snoc_induction with
  | nil => exact ⟨r, by simpa using hr, rfl, rfl, rfl, rfl, rfl, rfl⟩
  | snoc post x ih =>
    obtain ⟨r', hr', e1, e2, e3, e4, e5, e6⟩ := ih fun y hy => h y (by simp [hy])
    have hx := h x (by simp)
    rw [← List.append_assoc, Client.run_snoc]
    have hok := Client.seqOk_run (hist ++ post)
    generalize Client.run (hist ++ post) = s at hr' hok
    have keep : ∃ r'', (Client.step s x).heap[i]? = some r'' ∧ r''.result = r'.result ∧ r''.msgId = r'.msgId ∧
        r''.responseTime = r'.responseTime := by
      cases x with
      | send call phone seqs ok now =>
        have e : (Client.step s (.send call phone seqs ok now)).heap = (sendPackets s phone now seqs).heap := by
          simp only [Client.step, onSend]; split <;> rfl
        rw [e, (sendPackets_fields s phone now seqs).1]
        refine ⟨r', ?_, rfl, rfl, rfl⟩
        rw [List.getElem?_append_left (List.getElem?_eq_some_iff.1 hr').1]
        exact hr'
      | save call id =>
        simp only [Client.step, onSave]
        rw [List.getElem?_mapIdx, hr']
        refine ⟨_, rfl, ?_⟩
        split <;> exact ⟨rfl, rfl, rfl⟩
      | resp q now =>
        simp only [Client.step, onResp]
        split
        · exact ⟨r', hr', rfl, rfl, rfl⟩
        · rename_i j hj
          dsimp only
          rw [List.getElem?_modify, hr']
          refine ⟨_, rfl, ?_⟩
          dsimp only
          rw [if_neg]
          · exact ⟨rfl, rfl, rfl⟩
          · intro hji
            subst hji
            obtain ⟨r2, hr2, hk⟩ := hok _ _ (Client.SyncMap.mem_of_load hj)
            rw [hr'] at hr2
            injection hr2 with hr2
            subst hr2
            cases q with
            | cmpp => cases hk
            | smgp => cases hk
            | sgip s0 s1 s2 st =>
              simp only [Resp.key, Key.u64.injEq] at hk
              exact hx (hk.trans e5)
      | report q now =>
        simp only [Client.step, onReport]
        split
        · exact ⟨r', hr', rfl, rfl, rfl⟩
        · dsimp only
          rw [List.getElem?_modify, hr']
          refine ⟨_, rfl, ?_⟩
          split <;> exact ⟨rfl, rfl, rfl⟩
      | cleanQueries order handler d now => exact ⟨r', hr', rfl, rfl, rfl⟩
      | cleanSeqs d now => exact ⟨r', hr', rfl, rfl, rfl⟩
      | cleanMsgs d now => exact ⟨r', hr', rfl, rfl, rfl⟩
    obtain ⟨r'', q1, q2, q3, q4⟩ := keep
    obtain ⟨r3, p1, p2, p3, p4⟩ := heap_step s x i r' hr'
    rw [q1] at p1
    injection p1 with p1
    subst p1
    exact ⟨r'', q1, q2.trans e1, q3.trans e2, q4.trans e3, p2.trans e4, p3.trans e5, p4.trans e6⟩

/-- Two packets are sent; the first is answered, then the second: the first keeps its verdict. -/
example : ((Client.run ([.send 0 [0x31] [1, 2] true 10, .resp (.sgip 7 0 1 33) 11] ++ [.resp (.sgip 7 0 2 0) 12])).heap[0]?).map (·.result) =
    some 33 := by decide

end Gosms.SubmitExchange
