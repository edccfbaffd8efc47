import Verif.Spec.TextOverNetwork
import Verif.Props.ClientStream
import Verif.Props.ServerStream
import Verif.Props.SubmitExchange

/-!
# C143: a text goes over a network, and its answers come back

The client's and the server's ends over bytes (C141, C142), for every way the network cuts the bytes in both directions.
-/

namespace Gosms.TextOverNetwork
open Gosms.Spec.TextOverNetwork Gosms.Spec.ClientStream
open Gosms.Spec (raw Sendable arrived)
open Gosms.Spec.ServerStream (segments packets KeptUp Numbered)
open Gosms.Spec.ServerTraffic (command submitResponse response seqOf packetSeq Verdict code)
open Gosms.ServerTraffic (Env Draw frames Settled verdict answer)
open Gosms.ServerStream (run)
open Gosms.ClientReceive.Spec (Fits wire Whole)
open Gosms.ClientStream (receiver)
open Gosms.Client (sequence2Uint64 sequence2String)
open Gosms.SubmitExchange (number)

theorem packetOf_response (cmd seq : UInt32) (b : Bytes) : packetOf (response cmd seq b) = ⟨Gosms.Spec.responseOf cmd, seq, b⟩ := by
  unfold packetOf response Gosms.Spec.header12
  have e4 : ((be32 (UInt32.ofNat (12 + b.length)) ++ (be32 (Gosms.Spec.responseOf cmd) ++ be32 seq)) ++ b).drop 4 =
      be32 (Gosms.Spec.responseOf cmd) ++ (be32 seq ++ b) := by
    rw [List.append_assoc, List.append_assoc, List.drop_left' (by simp)]
  have e8 : ((be32 (UInt32.ofNat (12 + b.length)) ++ (be32 (Gosms.Spec.responseOf cmd) ++ be32 seq)) ++ b).drop 8 = be32 seq ++ b := by
    rw [show (8 : Nat) = 4 + 4 from rfl, ← List.drop_drop, e4, List.drop_left' (by simp)]
  have e12 : ((be32 (UInt32.ofNat (12 + b.length)) ++ (be32 (Gosms.Spec.responseOf cmd) ++ be32 seq)) ++ b).drop 12 = b := by
    rw [show (12 : Nat) = 8 + 4 from rfl, ← List.drop_drop, e8, List.drop_left' (by simp)]
  rw [e4, e8, e12, List.take_left' (by simp), List.take_left' (by simp), rd32_be32, rd32_be32]

/-- The body of a response to an SGIP submit. -/
def answerBody (body : Bytes) (v : Verdict) : Bytes := body.take 8 ++ [(code .sgip v).toUInt8] ++ List.replicate 8 0

theorem submitResponse_sgip (v3 : Bool) (seq : UInt32) (body : Bytes) (v : Verdict) (id : UInt64) (bcd : Bytes) :
    submitResponse v3 .sgip seq body v id bcd = response 3 seq (answerBody body v) := rfl

theorem length_answerBody {body : Bytes} (h : 8 ≤ body.length) (v : Verdict) : (answerBody body v).length = 17 := by
  simp [answerBody]; omega

/-- What the server writes over SGIP, if it is not asked to terminate, apart from answers to logins. -/
theorem frame_shape (e : Env) (he : e.proto = .sgip) (h16 : ∀ x, (e.md5 x).length = 16) (ps : List ServerTraffic.Step)
    (hterm : ∀ q ∈ packets ps, q.cmd ≠ 2) (f : Bytes) (hf : f ∈ frames (ServerTraffic.run e ps)) (hl : command f ≠ be32 0x80000001) :
    ∃ q ∈ packets ps, q.cmd = 3 ∧ 8 ≤ q.body.length ∧ ∃ v, f = response 3 q.seq (answerBody q.body v) := by
  obtain ⟨x, hx, rfl⟩ := ServerTraffic.frame_iff.1 hf
  obtain ⟨r, hr, hg, hE⟩ := ServerTraffic.wire_entry h16 (ServerTraffic.inv_run_all e ps) hx
  obtain ⟨a, b, hab, _⟩ := ServerTraffic.req_origin e ps _ _ hr
  have hmem : (⟨r.cmd, r.seq, r.body⟩ : Traffic.Packet) ∈ packets ps := by
    rw [hab]; unfold packets; rw [List.filterMap_append]
    exact List.mem_append_right _ (List.mem_cons_self ..)
  have h8 := ServerTraffic.good_sgip hg he
  obtain ⟨xk, xf, xa⟩ := x
  dsimp only at hE hl ⊢
  cases hE with
  | submit hk hc ha =>
    rw [he] at hc
    refine ⟨_, hmem, hc, h8, ServerTraffic.verdict r.draw, ?_⟩
    unfold ServerTraffic.submitAnswer
    rw [he]
    rfl
  | report f h1 h2 h3 h4 h5 h6 h7 => exact absurd he h6
  | login hk hc =>
    exfalso
    apply hl
    rw [he]
    unfold Spec.ServerTraffic.loginResponse response Gosms.Spec.header12 command
    rw [List.append_assoc, List.drop_left' (length_be32 _), List.append_assoc, List.take_left' (length_be32 _)]
    rfl
  | active f hk hc hf => rw [he] at hc; cases hc
  | terminate hk hc => rw [he] at hc; exact absurd hc (hterm _ hmem)

theorem sub_filter_one {α : Type} {l : List α} {P Q : α → Bool} (h : (l.filter Q).length = 1) (hPQ : ∀ x, P x = true → Q x = true)
    {x : α} (hx : x ∈ l) (hp : P x = true) : (l.filter P).length = 1 := by
  have h1 : (l.filter P).length ≤ (l.filter Q).length := by
    rw [← List.countP_eq_length_filter, ← List.countP_eq_length_filter]
    exact List.countP_mono_left fun y _ hy => hPQ y hy
  have h2 : 0 < (l.filter P).length := List.length_pos_iff.2 (List.ne_nil_of_mem (List.mem_filter.2 ⟨hx, hp⟩))
  omega

theorem eq_of_filter_one {α : Type} {l : List α} {Q : α → Bool} (h : (l.filter Q).length = 1) {x y : α} (hx : x ∈ l) (hy : y ∈ l)
    (qx : Q x = true) (qy : Q y = true) : x = y := by
  obtain ⟨z, hz⟩ := List.length_eq_one_iff.1 h
  have h1 : x ∈ l.filter Q := List.mem_filter.2 ⟨hx, qx⟩
  have h2 : y ∈ l.filter Q := List.mem_filter.2 ⟨hy, qy⟩
  rw [hz] at h1 h2
  rw [List.mem_singleton.1 h1, List.mem_singleton.1 h2]

/-- An answer to an SGIP submit is handled without closing the session, and tells its verdict. -/
theorem answer_plain (ce : ClientTraffic.Env) (hid : ce.nextId.length = 10) (hok : ce.ok = true) (seq : UInt32) (body : Bytes) (h : 8 ≤ body.length)
    (v : Verdict) : Plain .sgip ce ⟨0x80000003, seq, answerBody body v⟩ ∧
      news .sgip ce ⟨0x80000003, seq, answerBody body v⟩ =
        some (.resp (.sgip seq (rd32 (body.take 4)) (rd32 ((body.drop 4).take 4)) (code .sgip v).toUInt8) ce.now) := by
  refine ⟨⟨hid, hok, fun k hk => ?_⟩, ?_⟩
  · obtain rfl : Spec.ClientTraffic.Kind.submitResp = k := Option.some.inj hk
    refine ⟨?_, (fun hh => nomatch hh), by decide, by decide, fun u => by cases u.1⟩
    show 8 + 1 ≤ (answerBody body v).length
    rw [length_answerBody h]; decide
  · show some (Client.Step.resp (.sgip seq (rd32 ((answerBody body v).take 4)) (rd32 (((answerBody body v).drop 4).take 4)) ((answerBody body v).getD 8 0)) ce.now) = _
    have h8 : (body.take 8).length = 8 := by simp; omega
    have e1 : (answerBody body v).take 4 = body.take 4 := by
      unfold answerBody
      rw [List.append_assoc, List.take_append_of_le_length (by omega), List.take_take]; rfl
    have e2 : ((answerBody body v).drop 4).take 4 = (body.drop 4).take 4 := by
      unfold answerBody
      rw [List.append_assoc, List.drop_append_of_le_length (by omega), List.take_append_of_le_length (by simp; omega), List.drop_take, List.take_take]
      rfl
    have e3 : (answerBody body v).getD 8 0 = (code .sgip v).toUInt8 := by
      unfold answerBody
      rw [List.append_assoc, List.getD_eq_getElem?_getD, List.getElem?_append_right (by omega), h8]
      rfl
    rw [e1, e2, e3]

theorem wire_packetOf (seq : UInt32) (b : Bytes) : wire (packetOf (response 3 seq b)) = response 3 seq b := by
  rw [packetOf_response]; rfl

theorem allPlain_of (cenv : Nat → ClientTraffic.Env) (l : List ClientReceive.Packet) (h : ∀ k, ∀ x ∈ l, Plain .sgip (cenv k) x) :
    ∀ k, AllPlain .sgip cenv k l := by
  induction l with
  | nil => intro k; trivial
  | cons x t ih => intro k; exact ⟨h k x (by simp), ih (fun k y hy => h k y (by simp [hy])) (k + 1)⟩

theorem mem_story (cenv : Nat → ClientTraffic.Env) (between : Nat → List Client.Step) (l : List ClientReceive.Packet) :
    ∀ k, ∀ x ∈ story .sgip cenv between k l, (∃ k, x ∈ between k) ∨ ∃ p ∈ l, ∃ k, news .sgip (cenv k) p = some x := by
  induction l with
  | nil => intro k x hx; simp [story] at hx
  | cons p t ih =>
    intro k x hx
    simp only [story, List.mem_append, Option.mem_toList] at hx
    rcases hx with (hx | hx) | hx
    · exact .inl ⟨k, hx⟩
    · exact .inr ⟨p, by simp, k, hx⟩
    · rcases ih (k + 1) x hx with h | ⟨p', h1, h2⟩
      · exact .inl h
      · exact .inr ⟨p', by simp [h1], h2⟩

/-- **C143, the part that holds: a text sent over SGIP gets through, and what the server decided about each of its packets gets back to the caller**, wherever the
network cuts the bytes on the way to the server - as long as no run of segments brings more packets than segments (C139) - and, on the way back,
between headers and bodies (C62); whatever else the client sends on the connection and does meanwhile, and however the server's goroutines interleave. `d` is
what the server drew when it read the packet. When the server is at rest and the client has read what it wrote, the result of the packet has the server's verdict, the
packet's sequence number as message id and the moment of an arrival as time of the response. Partial: the conditions of C76 and C106 (`hwin`, `hone`, `hacc`), no termination, and SGIP
only. -/
theorem text_over_network_partial (z : Bool) (e : Env) (he : e.proto = .sgip) (h16 : ∀ x, (e.md5 x).length = 16)
    -- the text
    (ac : AuthConf) (phone content : Bytes) (opts : List OptionFunc) (g : UInt8) (expiry : Clock) (seqs : Nat → Sgip.Seq3)
    (msgs : List Sgip.Submit) (hmsgs : Sgip.newSubmit ac [phone] content opts g expiry seqs = some msgs) (i : Nat) (hi : i < msgs.length)
    (hdist : ∀ j, j < msgs.length → j ≠ i → (seqs j).2 ≠ (seqs i).2)
    -- what the client sends on the connection, and how it arrives
    (qs : List Traffic.Packet) (hs : Sendable z .sgip qs) (hterm : ∀ q ∈ qs, q.cmd ≠ 2)
    (j : Nat) (q : Traffic.Packet) (hq : qs[j]? = some q) (henc : msgs[i].encode = some (raw q))
    (huniq : (qs.filter fun q' => q'.cmd = 3 ∧ q'.body.take 8 = q.body.take 8).length = 1)
    (steps : List ServerStream.Step) (rest : Bytes) (hst : (segments steps).flatten ++ rest = qs.flatMap raw)
    (hj : j < arrived qs (segments steps) (segments steps).length) (hk : KeptUp qs (segments steps))
    -- the server
    (hwin : ∀ bytes d, ServerStream.Step.data bytes d ∈ steps → ∀ n ac, d.find n = some ac → 1 ≤ ac.mtWindowSize)
    (hacc : ∀ bytes d, ServerStream.Step.data bytes d ∈ steps → d.allow = true → d.account ≠ none ∧ d.minMs < d.maxMs)
    (hone : (qs.filter fun q => q.cmd = 1).length ≤ 1)
    (hc : (run z e steps).srv.crashed = false) (ho : (run z e steps).srv.isOpen = true) (hr : Settled e (run z e steps).srv)
    -- what it writes after the answer to the login, and how that arrives
    (early fs : List Bytes) (hfs : frames (run z e steps).srv = early ++ fs) (hlog : ∀ f ∈ fs, command f ≠ be32 0x80000001)
    (hearly : ∀ f ∈ early, command f ≠ be32 0x80000003)
    (chunks : List Bytes) (hne : ∀ c ∈ chunks, c ≠ []) (hback : chunks.flatten = fs.flatten) (hw : Whole (fs.map packetOf) chunks)
    -- the client
    (cenv : Nat → ClientTraffic.Env) (hid : ∀ k, (cenv k).nextId.length = 10) (hok : ∀ k, (cenv k).ok = true)
    (between : Nat → List Client.Step) (pre post : List Client.Step) (call : Nat) (ok : Bool) (t : Int)
    (hpost : ∀ x ∈ post, LeavesAlone (number (seqs i)) t x) (hbetween : ∀ k, ∀ x ∈ between k, LeavesAlone (number (seqs i)) t x)
    (fuel : Nat) (hfuel : fs.length < fuel) :
    let sent := pre ++ .send call phone ((List.range msgs.length).map fun j => number (seqs j)) ok t :: post
    ∃ s1 bytes d s2 c, steps = s1 ++ .data bytes d :: s2 ∧
      Traffic.receive z .sgip (fun _ _ => false) {} (segments s1) = some c ∧ c.handed = qs.take j ∧
      ∃ r k, (receiver .sgip cenv between fuel 0 (Client.run sent) chunks).st.heap[(Client.run pre).heap.length + i]? = some r ∧
        r.phone = phone ∧ r.sequenceId = number (seqs i) ∧ r.sendTime = t ∧
        r.result = (if d.allow = true ∧ d.fail = false then 0 else 33) ∧
        r.msgId = sequence2String (seqs i).1 (seqs i).2.1 (seqs i).2.2 ∧ r.responseTime = (cenv k).now := by
  intro sent
  -- the packet
  obtain ⟨msgs', slices, hm', _, _, hlen, hall⟩ := Sgip.sgip_newSubmit ac [phone] content opts g expiry seqs (by simp)
  have : msgs' = msgs := by rw [hmsgs] at hm'; exact (Option.some.inj hm').symm
  subst this
  obtain ⟨hok', hcmd, hseq, _⟩ := hall i hi (hlen ▸ hi)
  have hs0 : msgs'[i].hdr.seq0 = (seqs i).1 := congrArg (·.1) hseq
  have hs1 : msgs'[i].hdr.seq1 = (seqs i).2.1 := congrArg (·.2.1) hseq
  have hs2 : msgs'[i].hdr.seq2 = (seqs i).2.2 := congrArg (·.2.2) hseq
  have h20 : 20 ≤ msgs'[i].hdr.packetLength.toNat := by rw [hok'.total]; omega
  obtain ⟨g1, g2, g3, g4⟩ := SubmitExchange.submit_head h20 hcmd henc
  have hraw : packetOf (raw q) = ⟨q.cmd, q.seq, q.body⟩ := by
    have := packetOf_response
    unfold packetOf raw Gosms.Spec.header12
    have e4 : ((be32 (UInt32.ofNat (12 + q.body.length)) ++ (be32 q.cmd ++ be32 q.seq)) ++ q.body).drop 4 = be32 q.cmd ++ (be32 q.seq ++ q.body) := by
      rw [List.append_assoc, List.append_assoc, List.drop_left' (by simp)]
    have e8 : ((be32 (UInt32.ofNat (12 + q.body.length)) ++ (be32 q.cmd ++ be32 q.seq)) ++ q.body).drop 8 = be32 q.seq ++ q.body := by
      rw [show (8 : Nat) = 4 + 4 from rfl, ← List.drop_drop, e4, List.drop_left' (by simp)]
    have e12 : ((be32 (UInt32.ofNat (12 + q.body.length)) ++ (be32 q.cmd ++ be32 q.seq)) ++ q.body).drop 12 = q.body := by
      rw [show (12 : Nat) = 8 + 4 from rfl, ← List.drop_drop, e8, List.drop_left' (by simp)]
    rw [e4, e8, e12, List.take_left' (by simp), List.take_left' (by simp), rd32_be32, rd32_be32]
  have hqc : q.cmd = 3 := by have := congrArg (·.cmd) hraw; exact this.symm.trans g1
  have hqs : q.seq = (seqs i).1 := by have := congrArg (·.seq) hraw; exact this.symm.trans (g2.trans hs0)
  have hqb : (raw q).drop 12 = q.body := congrArg (·.body) hraw
  rw [hqb, hs1, hs2] at g3
  rw [hqb] at g4
  have hqm : q ∈ qs := List.mem_of_getElem? hq
  -- the server
  obtain ⟨s1, bytes, d, s2, c, q1, q2, q3, q4⟩ := ServerStream.stream_answered_partial z e h16 qs (he ▸ hs) steps rest hst hk hwin
    (by rw [he]; exact hone) hc ho hr j q hq hj
  have hdm : ServerStream.Step.data bytes d ∈ steps := by rw [q1]; simp
  have hans : answer e (run z e s1).srv.ver q.cmd q.seq q.body d = some (response 3 q.seq (answerBody q.body (verdict d))) := by
    unfold answer; rw [he, hqc]; rfl
  obtain ⟨_, honce⟩ := q4 _ hans fun _ => hacc bytes d hdm
  specialize honce (fun _ => g4) (by
    refine sub_filter_one huniq (fun x hx => ?_) hqm (by simp [Numbered])
    rw [he] at hx
    simp only [Numbered, packetSeq, if_true, decide_eq_true_eq] at hx ⊢
    exact ⟨hx.1.trans hqc, (List.append_inj hx.2 (by simp)).2⟩)
  generalize hF : response 3 q.seq (answerBody q.body (verdict d)) = F at *
  -- all that is read
  obtain ⟨ps, c', p1, p2, p3, _⟩ := ServerStream.stream_inv z e steps
  obtain ⟨m, held, m1, _⟩ := Traffic.handed_exactly z e.proto ServerStream.never (fun _ _ => rfl) qs (he ▸ hs) _ rest hst
  obtain rfl := Option.some.inj (m1.symm.trans p2)
  have hpq : ∀ x ∈ packets ps, x ∈ qs := fun x hx => by rw [p3] at hx; exact List.mem_of_mem_take hx
  have hshape : ∀ f ∈ fs, ∃ q' ∈ qs, q'.cmd = 3 ∧ 8 ≤ q'.body.length ∧ ∃ v, f = response 3 q'.seq (answerBody q'.body v) := by
    intro f hf
    obtain ⟨q', w1, w2⟩ := frame_shape e he h16 ps (fun x hx => hterm x (hpq x hx)) f (by rw [← p1, hfs]; simp [hf]) (hlog f hf)
    exact ⟨q', hpq q' w1, w2⟩
  have hFfs : F ∈ fs := by
    have : F ∈ (frames (run z e steps).srv).filter fun g => command g = be32 (Spec.responseOf q.cmd) ∧
        seqOf e.proto g = packetSeq e.proto q.seq q.body := by rw [honce]; simp
    obtain ⟨w1, w2⟩ := List.mem_filter.1 this
    rw [hfs] at w1
    rcases List.mem_append.1 w1 with w1 | w1
    · simp only [decide_eq_true_eq] at w2
      rw [hqc] at w2
      exact absurd w2.1 (hearly F w1)
    · exact w1
  obtain ⟨fs1, fs2, hsplit⟩ := List.append_of_mem hFfs
  -- no later answer has the number
  have hlater : ∀ f ∈ fs2, ∀ q' ∈ qs, q'.cmd = 3 → ∀ v, f = response 3 q'.seq (answerBody q'.body v) → q'.body.take 8 ≠ q.body.take 8 := by
    intro f hf q' hq' hc' v hfv h8
    obtain rfl : q' = q := eq_of_filter_one huniq hq' hqm (by simp [hc', h8]) (by simp [hqc])
    have hsame : ∀ v, command (response 3 q'.seq (answerBody q'.body v)) = be32 (Spec.responseOf q'.cmd) ∧
        seqOf e.proto (response 3 q'.seq (answerBody q'.body v)) = packetSeq e.proto q'.seq q'.body := by
      intro v
      rw [hc', he]
      have hl8 : (q'.body.take 8).length = 8 := by simp; omega
      have hsr := ServerTraffic.seqOf_response 3 q'.seq (answerBody q'.body v) .sgip
      refine ⟨?_, ?_⟩
      · unfold command response Gosms.Spec.header12
        rw [List.append_assoc, List.drop_left' (length_be32 _), List.append_assoc, List.take_left' (length_be32 _)]
      rw [hsr]
      unfold packetSeq answerBody
      simp only [if_true]
      rw [List.append_assoc, List.take_left' hl8]
    rw [hfs, hsplit] at honce
    have h2 := congrArg List.length honce
    rw [List.filter_append, List.filter_append, List.filter_cons, if_pos (by rw [← hF]; exact decide_eq_true (hsame _))] at h2
    have h3 : 0 < (fs2.filter fun g => command g = be32 (Spec.responseOf q'.cmd) ∧
        seqOf e.proto g = packetSeq e.proto q'.seq q'.body).length :=
      List.length_pos_iff.2 (List.ne_nil_of_mem (List.mem_filter.2 ⟨hf, by rw [hfv]; exact decide_eq_true (hsame v)⟩))
    simp only [List.length_append, List.length_cons, List.length_nil] at h2
    omega
  -- the client
  have hwire : (fs.map packetOf).map wire = fs := by
    rw [List.map_map]
    conv => rhs; rw [← List.map_id fs]
    refine List.map_congr_left fun f hf => ?_
    obtain ⟨q', _, _, _, v, rfl⟩ := hshape f hf
    exact wire_packetOf _ _
  have hplain : ∀ k, ∀ x ∈ fs.map packetOf, Plain .sgip (cenv k) x := by
    intro k x hx
    obtain ⟨f, hf, rfl⟩ := List.mem_map.1 hx
    obtain ⟨q', _, _, w3, v, rfl⟩ := hshape f hf
    rw [packetOf_response]
    exact (answer_plain (cenv k) (hid k) (hok k) q'.seq q'.body w3 v).1
  have hfits : ∀ x ∈ fs.map packetOf, Fits x := by
    intro x hx
    obtain ⟨f, hf, rfl⟩ := List.mem_map.1 hx
    obtain ⟨q', _, _, w3, v, rfl⟩ := hshape f hf
    rw [packetOf_response]
    show 12 + (answerBody q'.body v).length ≤ 5120
    rw [length_answerBody w3]; decide
  rw [ClientStream.client_stream_partial .sgip cenv between (fs.map packetOf) hfits (Client.run sent) (allPlain_of cenv _ hplain 0) chunks hne
    (by rw [hwire]; exact hback) hw fuel (by simpa using hfuel)]
  have hP : packetOf F = ⟨0x80000003, q.seq, answerBody q.body (verdict d)⟩ := by rw [← hF, packetOf_response]; rfl
  have t1 : q.body.take 4 = be32 (seqs i).2.1 := by
    have := congrArg (List.take 4) g3
    rw [List.take_take, List.take_left' (length_be32 _)] at this
    exact this
  have t2 : (q.body.drop 4).take 4 = be32 (seqs i).2.2 := by
    have := congrArg (List.drop 4) g3
    rw [List.drop_take, List.drop_left' (length_be32 _)] at this
    exact this
  have hnews : news .sgip (cenv fs1.length) (packetOf F) =
      some (.resp (.sgip q.seq (seqs i).2.1 (seqs i).2.2 (code .sgip (verdict d)).toUInt8) (cenv fs1.length).now) := by
    rw [hP, (answer_plain _ (hid _) (hok _) q.seq q.body g4 _).2, t1, t2, rd32_be32, rd32_be32]
  have hstory : story .sgip cenv between 0 (fs.map packetOf) =
      story .sgip cenv between 0 (fs1.map packetOf) ++ between fs1.length ++
        [.resp (.sgip q.seq (seqs i).2.1 (seqs i).2.2 (code .sgip (verdict d)).toUInt8) (cenv fs1.length).now] ++
        story .sgip cenv between (fs1.length + 1) (fs2.map packetOf) := by
    rw [hsplit, List.map_append, List.map_cons, ClientStream.story_append, Nat.zero_add, List.length_map]
    simp only [story, hnews, Option.toList_some, List.append_assoc]
  have hnewsOf : ∀ f ∈ fs, ∀ k x, news .sgip (cenv k) (packetOf f) = some x → ∃ q' ∈ qs, q'.cmd = 3 ∧ 8 ≤ q'.body.length ∧
      ∃ v, f = response 3 q'.seq (answerBody q'.body v) ∧
        x = .resp (.sgip q'.seq (rd32 (q'.body.take 4)) (rd32 ((q'.body.drop 4).take 4)) (code .sgip v).toUInt8) (cenv k).now := by
    intro f hf k x hx
    obtain ⟨q', w1, w2, w3, v, hv⟩ := hshape f hf
    rw [hv, packetOf_response] at hx
    exact ⟨q', w1, w2, w3, v, hv, (Option.some.inj (((answer_plain _ (hid k) (hok k) q'.seq q'.body w3 v).2).symm.trans hx)).symm⟩
  have hnum : number (seqs i) = sequence2Uint64 (seqs i).2.1 (seqs i).2.2 := rfl
  have hmid : ∀ x ∈ post ++ story .sgip cenv between 0 (fs1.map packetOf) ++ between fs1.length,
      ¬ Client.Spec.sends (number (seqs i)) x ∧ ¬ Client.Spec.dropsSeq t x := by
    intro x hx
    simp only [List.mem_append] at hx
    rcases hx with (hx | hx) | hx
    · exact ⟨(hpost x hx).1, (hpost x hx).2.1⟩
    · rcases mem_story cenv between _ 0 x hx with ⟨k, hx⟩ | ⟨pk, hpk, k, hx⟩
      · exact ⟨(hbetween k x hx).1, (hbetween k x hx).2.1⟩
      · obtain ⟨f, hf, rfl⟩ := List.mem_map.1 hpk
        obtain ⟨_, _, _, _, _, _, rfl⟩ := hnewsOf f (by rw [hsplit]; simp [hf]) k x hx
        exact ⟨fun h => h, fun h => h⟩
    · exact ⟨(hbetween _ x hx).1, (hbetween _ x hx).2.1⟩
  have hrange : (List.range msgs'.length).map (fun j => number (seqs j)) =
      ((List.range i).map fun j => number (seqs j)) ++ number (seqs i) ::
        ((List.range' (i + 1) (msgs'.length - (i + 1))).map fun j => number (seqs j)) := by
    rw [← List.map_cons (f := fun j => number (seqs j)), ← List.map_append]
    congr 1
    rw [List.range_eq_range', List.range_eq_range', ← List.range'_succ,
      show msgs'.length - (i + 1) + 1 = msgs'.length - i by omega]
    have := List.range'_append (s := 0) (m := i) (n := msgs'.length - i) (step := 1)
    rw [show 0 + 1 * i = i by omega, show i + (msgs'.length - i) = msgs'.length by omega] at this
    exact this.symm
  have hnot : number (seqs i) ∉ (List.range' (i + 1) (msgs'.length - (i + 1))).map fun j => number (seqs j) := by
    intro hm
    obtain ⟨j, hj, hjn⟩ := List.mem_map.1 hm
    simp only [List.mem_range'_1] at hj
    obtain ⟨u1, u2⟩ := Client.sequence2Uint64_inj hjn
    exact hdist j (by omega) (by omega) (Prod.ext u1 u2)
  obtain ⟨r, k1, k2, k3, k4, k5⟩ := Client.response_recorded_sgip_partial pre
    (post ++ story .sgip cenv between 0 (fs1.map packetOf) ++ between fs1.length) call phone ((List.range i).map fun j => number (seqs j)) _ ok t
    (cenv fs1.length).now q.seq (seqs i).2.1 (seqs i).2.2 (code .sgip (verdict d)).toUInt8 hnot (fun x hx => (hmid x hx).1)
    (fun x hx => (hmid x hx).2)
  rw [← hnum, ← hrange] at k1 k5
  simp only [List.length_map, List.length_range] at k1 k5
  have hrec := congrArg (fun h : List Client.Result => h[(Client.run pre).heap.length + i]?) k5
  rw [List.getElem?_set, if_pos rfl, if_pos (List.getElem?_eq_some_iff.1 k1).1] at hrec
  obtain ⟨r', v1, v2, v3, v4, v5, v6, v7⟩ := SubmitExchange.record_stays _
    (story .sgip cenv between (fs1.length + 1) (fs2.map packetOf)) _ _ hrec (by
      intro x hx
      dsimp only
      rw [k3, ← hnum]
      rcases mem_story cenv between _ _ x hx with ⟨k, hx⟩ | ⟨pk, hpk, k, hx⟩
      · have := (hbetween k x hx).2.2
        cases x with
        | resp rs now =>
          cases rs with
          | sgip a b c st => exact this a b c st now rfl
          | cmpp => exact fun h => h
          | smgp => exact fun h => h
        | _ => exact fun h => h
      · obtain ⟨f, hf, rfl⟩ := List.mem_map.1 hpk
        obtain ⟨q', w1, w2, w3, v, w4, rfl⟩ := hnewsOf f (by rw [hsplit]; simp [hf]) k x hx
        intro ha
        obtain ⟨u1, u2⟩ := Client.sequence2Uint64_inj (show sequence2Uint64 _ _ = sequence2Uint64 _ _ from ha)
        apply hlater f hf q' w1 w2 v w4
        rw [g3, ← u1, ← u2, be32_rd32 (by simp; omega), be32_rd32 (by simp; omega)]
        rw [show (8 : Nat) = 4 + 4 from rfl, List.take_add])
  refine ⟨s1, bytes, d, s2, c, q1, by rw [← he]; exact q2, q3, r', fs1.length, ?_, v5.trans k2, v6.trans k3, v7.trans k4, ?_, ?_, v4⟩
  · dsimp only
    rw [hstory, ← Client.run_append]
    rw [← v1]
    simp [sent]
  · rw [v2]
    dsimp only
    unfold verdict
    cases d.allow <;> cases d.fail <;> decide
  · rw [v3, hqs]

/-! ### A session: a bind, a text of one packet that arrives in two pieces, and the answer -/

open SubmitExchange (demoEnv demoAccount demoSeqs demoMsgs demoFrame demoDraw demo_run)

def demoBind : Traffic.Packet := ⟨1, 1, be32 2 ++ be32 3 ++ [1] ++ pad 16 [65] ++ pad 16 [66] ++ zeros 8⟩
def demoPacket : Traffic.Packet := ⟨3, 5, demoFrame.drop 12⟩
def demoQs : List Traffic.Packet := [demoBind, demoPacket]
def demoSteps : List ServerStream.Step :=
  [.data (raw demoBind) demoDraw, .run 0, .run 0, .loop, .data ((raw demoPacket).take 30) demoDraw, .data ((raw demoPacket).drop 30) demoDraw,
    .run 0, .run 0, .run 0, .loop]
def demoWritten : List Bytes := frames (run true demoEnv demoSteps).srv

set_option maxRecDepth 40000 in
theorem demo_facts : demoMsgs.length = 1 ∧ (demoMsgs.map (·.encode)) = [some (raw demoPacket)] ∧
    (run true demoEnv demoSteps).srv.tasks = [] ∧ (run true demoEnv demoSteps).srv.queue = [] ∧
    (run true demoEnv demoSteps).srv.crashed = false ∧ (run true demoEnv demoSteps).srv.isOpen = true ∧
    demoWritten.map command = [be32 0x80000001, be32 0x80000003] ∧ demoWritten = demoWritten.take 1 ++ demoWritten.drop 1 ∧
    arrived demoQs (segments demoSteps) (segments demoSteps).length = 2 ∧
    (∀ i ∈ List.range 4, arrived demoQs (segments demoSteps) (segments demoSteps).length - arrived demoQs (segments demoSteps) i ≤ 3 - i) ∧
    (demoWritten.drop 1).flatMap (fun f => ClientReceive.Spec.pieces (packetOf f)) =
      [(demoWritten.drop 1).flatten.take 12, (demoWritten.drop 1).flatten.drop 12] := by
  decide +kernel

set_option maxRecDepth 40000 in
theorem demo_sendable : Sendable true .sgip demoQs ∧ (∀ q ∈ demoQs, q.cmd ≠ 2) ∧
    (demoQs.filter fun q' => q'.cmd = 3 ∧ q'.body.take 8 = demoPacket.body.take 8).length = 1 ∧
    (segments demoSteps).flatten ++ [] = demoQs.flatMap raw ∧ (demoQs.filter fun q => q.cmd = 1).length ≤ 1 := by
  unfold Sendable
  decide +kernel

theorem demo_draws (bytes : Bytes) (d : Draw) (h : ServerStream.Step.data bytes d ∈ demoSteps) : d = demoDraw := by
  simp only [demoSteps, List.mem_cons, ServerStream.Step.data.injEq, reduceCtorEq, List.not_mem_nil, or_false, false_or] at h
  rcases h with h | h | h <;> exact h.2

/-- The hypotheses of `text_over_network_partial` hold for it; the client's reads give the answer's header and its body one by one. -/
example := text_over_network_partial true demoEnv rfl (by simp [demoEnv]) demoAccount [0x31, 0x32] [104, 105] [] 1 ⟨26, 1, 3, 4, 5, 6⟩
  demoSeqs demoMsgs (by decide +kernel) 0 (by rw [demo_facts.1]; decide) (by intro j hj h0; rw [demo_facts.1] at hj; omega)
  demoQs demo_sendable.1 demo_sendable.2.1 1 demoPacket rfl (by
    have h := demo_facts.2.1
    have h0 : (demoMsgs.map (·.encode))[0]? = some (some (raw demoPacket)) := by rw [h]; rfl
    rw [List.getElem?_map] at h0
    have h1 : 0 < demoMsgs.length := by rw [demo_run.1]; decide
    rw [List.getElem?_eq_getElem h1] at h0
    exact Option.some.inj h0)
  demo_sendable.2.2.1 demoSteps [] demo_sendable.2.2.2.1 (by rw [demo_facts.2.2.2.2.2.2.2.2.1]; decide)
  (by
    intro i hi
    have h3 : (segments demoSteps).length = 3 := rfl
    have := demo_facts.2.2.2.2.2.2.2.2.2.1 i (by rw [List.mem_range]; omega)
    rw [h3] at this ⊢
    exact this)
  (by
    intro bytes d hm n ac hf
    rw [demo_draws bytes d hm] at hf
    obtain rfl := Option.some.inj hf
    decide)
  (by intro bytes d hm _; rw [demo_draws bytes d hm]; exact ⟨by decide, by decide⟩)
  demo_sendable.2.2.2.2 demo_facts.2.2.2.2.1 demo_facts.2.2.2.2.2.1
  (ServerTraffic.settled_of_empty demo_facts.2.2.1 demo_facts.2.2.2.1)
  (demoWritten.take 1) (demoWritten.drop 1) demo_facts.2.2.2.2.2.2.2.1
  (by
    intro f hf
    have : command f ∈ (demoWritten.drop 1).map command := List.mem_map.2 ⟨f, hf, rfl⟩
    rw [List.map_drop, demo_facts.2.2.2.2.2.2.1] at this
    rw [List.mem_singleton.1 this]
    decide)
  (by
    intro f hf
    have : command f ∈ (demoWritten.take 1).map command := List.mem_map.2 ⟨f, hf, rfl⟩
    rw [List.map_take, demo_facts.2.2.2.2.2.2.1] at this
    rw [List.mem_singleton.1 this]
    decide)
  [(demoWritten.drop 1).flatten.take 12, (demoWritten.drop 1).flatten.drop 12] (by decide +kernel) (by simp)
  ⟨[[(demoWritten.drop 1).flatten.take 12], [(demoWritten.drop 1).flatten.drop 12]], by simp, by
    rw [List.flatMap_map, demo_facts.2.2.2.2.2.2.2.2.2.2]; rfl, by simp⟩
  (fun _ => {}) (fun _ => rfl) (fun _ => rfl) (fun _ => [.send 1 [0x33] [9] true 12]) [] [] 0 true 11 (by simp)
  (by
    intro k x hx
    obtain rfl := List.mem_singleton.1 hx
    exact ⟨by simp [Client.Spec.sends]; decide, fun h => h, fun _ _ _ _ _ h => by cases h⟩)
  2 (by decide +kernel)

end Gosms.TextOverNetwork
