import Verif.Spec.ServerStream
import Verif.Props.Backlog
import Verif.Props.ServerAnswers

/-!
# C141: from the bytes a client sends to the answers it gets

Framing (Props/Traffic.lean, Props/Backlog.lean) and answering (Props/ServerAnswers.lean) together, for every stream of packets, every way it is cut into
segments and every schedule.
-/

namespace Gosms.ServerStream
open Gosms.Spec Gosms.Spec.ServerStream
open Gosms.Traffic (Packet Conn receive decodeAndCheckHeader)
open Gosms.ServerTraffic (Env Draw answer frames Settled)
open Gosms.Spec.ServerTraffic (packetSeq seqOf loginCmd submitCmd)

/-- No packet closes the connection (what framing alone does). -/
abbrev never : List Packet → Packet → Bool := fun _ _ => false

theorem run_snoc (z : Bool) (e : Env) (steps : List Step) (x : Step) : run z e (steps ++ [x]) = step z e (run z e steps) x := by
  simp [run]

theorem srun_snoc (e : Env) (ps : List ServerTraffic.Step) (x : ServerTraffic.Step) :
    ServerTraffic.run e (ps ++ [x]) = ServerTraffic.step e (ServerTraffic.run e ps) x := by
  simp [ServerTraffic.run]

theorem packets_snoc (ps : List ServerTraffic.Step) (x : ServerTraffic.Step) : packets (ps ++ [x]) = packets ps ++ packets [x] := by
  simp [packets, List.filterMap_append]

theorem segments_snoc (steps : List Step) (x : Step) : segments (steps ++ [x]) = segments steps ++ segments [x] := by
  simp [segments, List.filterMap_append]

/-- Where a packet of the packet history comes from. -/
def From (z : Bool) (e : Env) (steps : List Step) (ps : List ServerTraffic.Step) : Prop :=
  ∀ a cmd seq body d b, ps = a ++ .packet cmd seq body d :: b → ∃ s1 bytes s2 c, steps = s1 ++ .data bytes d :: s2 ∧
    (run z e s1).srv = ServerTraffic.run e a ∧ receive z e.proto never {} (segments s1) = some c ∧ c.handed = packets a

theorem From.none {z : Bool} {e : Env} {steps : List Step} {ps : List ServerTraffic.Step} (h : From z e steps ps) (x : Step) :
    From z e (steps ++ [x]) ps := by
  intro a cmd seq body d b hp
  obtain ⟨s1, bytes, s2, c, h1, h2, h3, h4⟩ := h a cmd seq body d b hp
  exact ⟨s1, bytes, s2 ++ [x], c, by rw [h1]; simp, h2, h3, h4⟩

theorem From.snoc {z : Bool} {e : Env} {steps : List Step} {ps : List ServerTraffic.Step} (h : From z e steps ps) (x : Step)
    (y : ServerTraffic.Step)
    (hy : ∀ cmd seq body d, y = .packet cmd seq body d → ∃ bytes c, x = .data bytes d ∧ (run z e steps).srv = ServerTraffic.run e ps ∧
      receive z e.proto never {} (segments steps) = some c ∧ c.handed = packets ps) :
    From z e (steps ++ [x]) (ps ++ [y]) := by
  intro a cmd seq body d b hp
  rcases List.eq_nil_or_concat b with rfl | ⟨b', y', rfl⟩
  · obtain ⟨rfl, h2⟩ := List.append_inj' hp rfl
    obtain ⟨bytes, c, h3, h4, h5, h6⟩ := hy cmd seq body d (List.cons.inj h2).1
    exact ⟨steps, bytes, [], c, by rw [h3], h4, h5, h6⟩
  · rw [List.concat_eq_append, ← List.cons_append, ← List.append_assoc] at hp
    obtain ⟨h1, h2⟩ := List.append_inj' hp rfl
    obtain ⟨s1, bytes, s2, c, g1, g2, g3, g4⟩ := h a cmd seq body d b' h1
    exact ⟨s1, bytes, s2 ++ [x], c, by rw [g1]; simp, g2, g3, g4⟩

/-- Nothing happens on a connection that is closed. -/
theorem down_stays {e : Env} {s : ServerTraffic.State} (h : s.crashed = true ∨ s.isOpen = false) (x : ServerTraffic.Step) :
    ServerTraffic.step e s x = s := by
  unfold ServerTraffic.step
  rw [if_pos (by simpa using h)]

theorem closed_down {e : Env} {s : ServerTraffic.State} : (ServerTraffic.step e s .close).crashed = true ∨
    (ServerTraffic.step e s .close).isOpen = false := by
  unfold ServerTraffic.step
  split
  · rename_i h; simpa using h
  · exact .inr rfl

theorem onTraffic_closed (z : Bool) (p : Proto) (c : Conn) (h : c.isOpen = false) (x : Bytes) : Traffic.onTraffic z p never c x = some c := by
  unfold Traffic.onTraffic
  rw [if_neg (by simp [h])]

theorem stream_inv (z : Bool) (e : Env) (steps : List Step) : ∃ ps c, (run z e steps).srv = ServerTraffic.run e ps ∧
    receive z e.proto never {} (segments steps) = some c ∧ packets ps = c.handed ∧ From z e steps ps ∧
    ((run z e steps).srv.crashed = true ∨ (run z e steps).srv.isOpen = false ∨ c.isOpen = true ∧ (run z e steps).buffer = c.buffer) := by
  induction steps using snoc_induction with
  | nil => exact ⟨[], {}, rfl, rfl, rfl, fun a cmd seq body d b h => by simp at h, .inr (.inr ⟨rfl, rfl⟩)⟩
  | snoc steps x ih =>
    obtain ⟨ps, c, h1, h2, h3, h4, h5⟩ := ih
    have other : ∀ y : ServerTraffic.Step, segments [x] = [] → packets [y] = [] → (∀ cmd seq body d, y ≠ .packet cmd seq body d) →
        step z e (run z e steps) x = { run z e steps with srv := ServerTraffic.step e (run z e steps).srv y } →
        ∃ ps c, (run z e (steps ++ [x])).srv = ServerTraffic.run e ps ∧
          receive z e.proto never {} (segments (steps ++ [x])) = some c ∧ packets ps = c.handed ∧ From z e (steps ++ [x]) ps ∧
          ((run z e (steps ++ [x])).srv.crashed = true ∨ (run z e (steps ++ [x])).srv.isOpen = false ∨
            c.isOpen = true ∧ (run z e (steps ++ [x])).buffer = c.buffer) := by
      intro y hx hy hn hstep
      refine ⟨ps ++ [y], c, ?_, ?_, ?_, h4.snoc x y fun cmd seq body d h => absurd h (hn cmd seq body d), ?_⟩
      · rw [run_snoc, hstep, srun_snoc, h1]
      · rw [segments_snoc, hx, List.append_nil, h2]
      · rw [packets_snoc, hy, List.append_nil, h3]
      · rw [run_snoc, hstep]
        rcases h5 with h5 | h5 | ⟨g1, g2⟩
        · left; rw [down_stays (.inl h5)]; exact h5
        · right; left; rw [down_stays (.inr h5)]; exact h5
        · exact .inr (.inr ⟨g1, g2⟩)
    cases x with
    | run i => exact other (.run i) rfl rfl (by simp) rfl
    | drop i => exact other (.drop i) rfl rfl (by simp) rfl
    | loop => exact other .loop rfl rfl (by simp) rfl
    | close => exact other .close rfl rfl (by simp) rfl
    | data bytes d =>
      have hseg : segments (steps ++ [.data bytes d]) = segments steps ++ [bytes] := by rw [segments_snoc]; rfl
      by_cases hdown : (run z e steps).srv.crashed = true ∨ (run z e steps).srv.isOpen = false
      · have hstep : step z e (run z e steps) (.data bytes d) = run z e steps := by
          simp only [step]; rw [if_pos (by simpa using hdown)]
        have hsrv : ∀ y, ServerTraffic.step e (run z e steps).srv y = (run z e steps).srv := fun y => down_stays hdown y
        have hd' : (run z e (steps ++ [.data bytes d])).srv.crashed = true ∨ (run z e (steps ++ [.data bytes d])).srv.isOpen = false ∨ False := by
          rw [run_snoc, hstep]; rcases hdown with h | h <;> simp [h]
        rw [hseg, Traffic.receive_snoc, h2, Option.bind_some]
        cases ho : c.isOpen with
        | false =>
          refine ⟨ps, c, by rw [run_snoc, hstep, h1], onTraffic_closed z _ c ho bytes, h3, h4.none _, ?_⟩
          rcases hd' with h | h | h
          · exact .inl h
          · exact .inr (.inl h)
          · exact h.elim
        | true =>
          have hdec : ∃ hd, decodeAndCheckHeader z e.proto (c.buffer ++ bytes) = some hd := by
            rcases Traffic.decode_cases z e.proto (c.buffer ++ bytes) with h | h | h | h
            · exact ⟨_, h.2⟩
            · exact ⟨_, h.2.2⟩
            · exact ⟨_, h.2.2.2.2.2⟩
            · exact ⟨_, h.2.2.2.2.2⟩
          obtain ⟨hd, hdec⟩ := hdec
          have hT : Traffic.onTraffic z e.proto never c bytes = some (match (generalizing := false) hd with
              | .wait => { c with buffer := c.buffer ++ bytes }
              | .close => { c with buffer := c.buffer ++ bytes, isOpen := false }
              | .packet cmd seq body rest => ⟨rest, c.handed ++ [⟨cmd, seq, body⟩], true⟩) := by
            unfold Traffic.onTraffic
            rw [if_pos ho]
            simp only [hdec]
            cases hd <;> rfl
          have hd2 : ∀ c' : Conn, (run z e (steps ++ [.data bytes d])).srv.crashed = true ∨
              (run z e (steps ++ [.data bytes d])).srv.isOpen = false ∨
              c'.isOpen = true ∧ (run z e (steps ++ [.data bytes d])).buffer = c'.buffer := by
            intro c'
            rcases hd' with h | h | h
            · exact .inl h
            · exact .inr (.inl h)
            · exact h.elim
          rw [hT]
          cases hd with
          | wait => exact ⟨ps, _, by rw [run_snoc, hstep, h1], rfl, h3, h4.none _, hd2 _⟩
          | close => exact ⟨ps, _, by rw [run_snoc, hstep, h1], rfl, h3, h4.none _, hd2 _⟩
          | packet cmd seq body rest =>
            refine ⟨ps ++ [.packet cmd seq body d], _, ?_, rfl, by rw [packets_snoc, h3]; rfl, ?_, hd2 _⟩
            · rw [run_snoc, hstep, srun_snoc, ← h1, hsrv]
            · refine h4.snoc _ _ fun cmd' seq' body' d' h => ?_
              obtain ⟨rfl, rfl, rfl, rfl⟩ := ServerTraffic.Step.packet.inj h
              exact ⟨bytes, c, rfl, h1, h2, h3.symm⟩
      · obtain ⟨g1, g2⟩ : c.isOpen = true ∧ (run z e steps).buffer = c.buffer := by
          rcases h5 with h | h | h
          · exact absurd (.inl h) hdown
          · exact absurd (.inr h) hdown
          · exact h
        have hdec : ∃ hd, decodeAndCheckHeader z e.proto (c.buffer ++ bytes) = some hd := by
          rcases Traffic.decode_cases z e.proto (c.buffer ++ bytes) with h | h | h | h
          · exact ⟨_, h.2⟩
          · exact ⟨_, h.2.2⟩
          · exact ⟨_, h.2.2.2.2.2⟩
          · exact ⟨_, h.2.2.2.2.2⟩
        obtain ⟨hd, hdec⟩ := hdec
        have hT : Traffic.onTraffic z e.proto never c bytes = some (match (generalizing := false) hd with
            | .wait => { c with buffer := c.buffer ++ bytes }
            | .close => { c with buffer := c.buffer ++ bytes, isOpen := false }
            | .packet cmd seq body rest => ⟨rest, c.handed ++ [⟨cmd, seq, body⟩], true⟩) := by
          unfold Traffic.onTraffic
          rw [if_pos g1]
          simp only [hdec]
          cases hd <;> rfl
        have hstep : step z e (run z e steps) (.data bytes d) = (match (generalizing := false) hd with
            | .wait => { run z e steps with buffer := c.buffer ++ bytes }
            | .close => { buffer := c.buffer ++ bytes, srv := ServerTraffic.step e (run z e steps).srv .close }
            | .packet cmd seq body rest => ⟨rest, ServerTraffic.step e (run z e steps).srv (.packet cmd seq body d)⟩) := by
          simp only [step]
          rw [if_neg (by simpa using hdown)]
          simp only [g2, hdec]
          cases hd <;> rfl
        rw [hseg, Traffic.receive_snoc, h2, Option.bind_some, hT, run_snoc, hstep]
        cases hd with
        | wait => exact ⟨ps, _, h1, rfl, h3, h4.none _, .inr (.inr ⟨g1, rfl⟩)⟩
        | close =>
          refine ⟨ps ++ [.close], _, ?_, rfl, by rw [packets_snoc, h3]; simp [packets], h4.snoc _ _ (by simp), ?_⟩
          · rw [srun_snoc, h1]
          · rcases closed_down (e := e) (s := (run z e steps).srv) with h | h
            · exact .inl h
            · exact .inr (.inl h)
        | packet cmd seq body rest =>
          refine ⟨ps ++ [.packet cmd seq body d], _, ?_, rfl, by rw [packets_snoc, h3]; rfl, ?_, .inr (.inr ⟨rfl, rfl⟩)⟩
          · rw [srun_snoc, h1]
          · refine h4.snoc _ _ fun cmd' seq' body' d' h => ?_
            obtain ⟨rfl, rfl, rfl, rfl⟩ := ServerTraffic.Step.packet.inj h
            exact ⟨bytes, c, rfl, h1, h2, h3.symm⟩

/-- **C141: whatever bytes arrive, and in whatever pieces, the server does what it does for a history of packets**: those that framing gives to the handlers,
in order, each drawing what was drawn when the segment came with which it was given. So all that is proved of histories of packets (C76 to C93) holds of histories of
bytes. -/
theorem stream_as_packets (z : Bool) (e : Env) (steps : List Step) : ∃ ps c, (run z e steps).srv = ServerTraffic.run e ps ∧
    receive z e.proto (fun _ _ => false) {} (segments steps) = some c ∧ packets ps = c.handed ∧
    ∀ cmd seq body d, ServerTraffic.Step.packet cmd seq body d ∈ ps → ∃ bytes, Step.data bytes d ∈ steps := by
  obtain ⟨ps, c, h1, h2, h3, h4, _⟩ := stream_inv z e steps
  refine ⟨ps, c, h1, h2, h3, fun cmd seq body d hm => ?_⟩
  obtain ⟨a, b, hab⟩ := List.append_of_mem hm
  obtain ⟨s1, bytes, s2, _, g, _⟩ := h4 a cmd seq body d b hab
  exact ⟨bytes, by rw [g]; simp⟩

theorem filter_packets (f : Packet → Bool) (ps : List ServerTraffic.Step) :
    (ps.filter (ServerTraffic.onPackets fun c s b _ => f ⟨c, s, b⟩)).length = ((packets ps).filter f).length := by
  induction ps with
  | nil => rfl
  | cons x t ih =>
    unfold packets at ih ⊢
    cases x with
    | packet c s b d =>
      rw [List.filterMap_cons, List.filter_cons]
      show (if f ⟨c, s, b⟩ = true then _ else _ : List ServerTraffic.Step).length = _
      rw [List.filter_cons]
      by_cases hf : f ⟨c, s, b⟩ = true
      · rw [if_pos hf, if_pos hf, List.length_cons, List.length_cons, ih]
      · rw [if_neg hf, if_neg hf, ih]
    | run i => rw [List.filterMap_cons, List.filter_cons]; simpa [ServerTraffic.onPackets] using ih
    | drop i => rw [List.filterMap_cons, List.filter_cons]; simpa [ServerTraffic.onPackets] using ih
    | loop => rw [List.filterMap_cons, List.filter_cons]; simpa [ServerTraffic.onPackets] using ih
    | close => rw [List.filterMap_cons, List.filter_cons]; simpa [ServerTraffic.onPackets] using ih

/-- **C141: however a stream of packets is cut, no request is answered more often than it was sent.** -/
theorem stream_at_most_once (z : Bool) (e : Env) (h16 : ∀ x, (e.md5 x).length = 16) (qs : List Packet) (hs : Sendable z e.proto qs)
    (steps : List Step) (rest : Bytes) (hst : (segments steps).flatten ++ rest = qs.flatMap raw) (cmd : UInt32) (hcmd : cmd < 0x80000000)
    (n : Bytes) :
    ((frames (run z e steps).srv).filter fun f => ServerTraffic.command f = be32 (Spec.responseOf cmd) ∧ seqOf e.proto f = n).length ≤
      (qs.filter fun q => Numbered e.proto cmd n q).length := by
  obtain ⟨ps, c, h1, h2, h3, _⟩ := stream_inv z e steps
  obtain ⟨m, held, g1, _⟩ := Traffic.handed_exactly z e.proto never (fun _ _ => rfl) qs hs _ rest hst
  obtain rfl := Option.some.inj (g1.symm.trans h2)
  have := ServerTraffic.response_at_most_once e h16 ps cmd hcmd n
  rw [← h1] at this
  refine Nat.le_trans this ?_
  have hf := filter_packets (fun q => decide (Numbered e.proto cmd n q)) ps
  rw [h3] at hf
  have hle : ((qs.take m).filter fun q => decide (Numbered e.proto cmd n q)).length ≤
      (qs.filter fun q => decide (Numbered e.proto cmd n q)).length :=
    ((List.take_sublist m qs).filter _).length_le
  refine Nat.le_trans (Nat.le_of_eq ?_) hle
  rw [← hf]
  rfl

theorem packets_at (ps : List ServerTraffic.Step) : ∀ (j : Nat) (q : Packet), (packets ps)[j]? = some q →
    ∃ a d b, ps = a ++ .packet q.cmd q.seq q.body d :: b ∧ (packets a).length = j := by
  induction ps with
  | nil => intro j q h; simp [packets] at h
  | cons x t ih =>
    intro j q h
    have skip : packets (x :: t) = packets t → packets [x] = [] → ∃ a d b, x :: t = a ++ .packet q.cmd q.seq q.body d :: b ∧
        (packets a).length = j := by
      intro e1 e2
      obtain ⟨a, d, b, h1, h2⟩ := ih j q (by rw [← e1]; exact h)
      refine ⟨x :: a, d, b, by rw [h1]; rfl, ?_⟩
      have : packets (x :: a) = packets [x] ++ packets a := by simp only [packets, ← List.filterMap_append]; rfl
      rw [this, e2]; exact h2
    cases x with
    | packet cmd seq body d =>
      have e1 : packets (.packet cmd seq body d :: t) = ⟨cmd, seq, body⟩ :: packets t := rfl
      rw [e1] at h
      cases j with
      | zero =>
        rw [List.getElem?_cons_zero] at h
        obtain rfl := Option.some.inj h
        exact ⟨[], d, t, rfl, rfl⟩
      | succ j =>
        rw [List.getElem?_cons_succ] at h
        obtain ⟨a, d', b, h1, h2⟩ := ih j q h
        exact ⟨.packet cmd seq body d :: a, d', b, by rw [h1]; rfl, by
          have : packets (.packet cmd seq body d :: a) = ⟨cmd, seq, body⟩ :: packets a := rfl
          rw [this, List.length_cons, h2]⟩
    | run i => exact skip rfl rfl
    | drop i => exact skip rfl rfl
    | loop => exact skip rfl rfl
    | close => exact skip rfl rfl

/-- **C141, the part that holds: a server at rest has answered every packet of the stream that has arrived, with the specified bytes, once** - if it is not
behind with reading, the connection is still open, accounts have windows of at least one slot and there was no second login. Packet number `j` was read when a
segment came (`bytes`, after the steps `s1`), and its answer is the one specified for what was drawn then and for the version the session had; for submits: unless
the sender's account was no longer known, or the configured shortest processing time was not less than the longest. -/
theorem stream_answered_partial (z : Bool) (e : Env) (h16 : ∀ x, (e.md5 x).length = 16) (qs : List Packet) (hs : Sendable z e.proto qs)
    (steps : List Step) (rest : Bytes) (hst : (segments steps).flatten ++ rest = qs.flatMap raw) (hk : KeptUp qs (segments steps))
    (hwin : ∀ bytes d, Step.data bytes d ∈ steps → ∀ n ac, d.find n = some ac → 1 ≤ ac.mtWindowSize)
    (hone : (qs.filter fun q => q.cmd = loginCmd e.proto).length ≤ 1)
    (hc : (run z e steps).srv.crashed = false) (ho : (run z e steps).srv.isOpen = true) (hr : Settled e (run z e steps).srv)
    (j : Nat) (q : Packet) (hq : qs[j]? = some q) (hj : j < arrived qs (segments steps) (segments steps).length) :
    ∃ s1 bytes d s2 c, steps = s1 ++ .data bytes d :: s2 ∧
      receive z e.proto (fun _ _ => false) {} (segments s1) = some c ∧ c.handed = qs.take j ∧
      ∀ f, answer e (run z e s1).srv.ver q.cmd q.seq q.body d = some f →
        (q.cmd = submitCmd e.proto → d.allow = true → d.account ≠ none ∧ d.minMs < d.maxMs) →
        f ∈ frames (run z e steps).srv ∧
        ((e.proto = .sgip → 8 ≤ q.body.length) →
          (qs.filter fun q' => Numbered e.proto q.cmd (packetSeq e.proto q.seq q.body) q').length = 1 →
          ((frames (run z e steps).srv).filter fun g => ServerTraffic.command g = be32 (Spec.responseOf q.cmd) ∧
            seqOf e.proto g = packetSeq e.proto q.seq q.body) = [f]) := by
  obtain ⟨ps, c, h1, h2, h3, h4, _⟩ := stream_inv z e steps
  have hall := (Traffic.keeps_up_iff_partial z e.proto never (fun _ _ => rfl) qs hs _ rest hst c h2).2 hk
  rw [hall] at h3
  have hqj : (packets ps)[j]? = some q := by rw [h3, List.getElem?_take, if_pos hj, hq]
  obtain ⟨a, d, b, g1, g2⟩ := packets_at ps j q hqj
  obtain ⟨s1, bytes, s2, c1, k1, k2, k3, k4⟩ := h4 a _ _ _ d b g1
  have hpre : packets a = qs.take j := by
    have e1 : packets ps = packets a ++ packets (.packet q.cmd q.seq q.body d :: b) := by
      rw [g1]; simp only [packets, List.filterMap_append]
    have e2 := congrArg (List.take j) (e1.symm.trans h3)
    rw [List.take_left' g2, List.take_take, Nat.min_eq_left (by omega)] at e2
    exact e2
  have hlogin : (ps.filter (ServerTraffic.onPackets fun c _ _ _ => c = loginCmd e.proto)).length ≤ 1 := by
    have := filter_packets (fun q => decide (q.cmd = loginCmd e.proto)) ps
    rw [h3] at this
    have hle : ((qs.take (arrived qs (segments steps) (segments steps).length)).filter fun q => decide (q.cmd = loginCmd e.proto)).length ≤
        (qs.filter fun q => decide (q.cmd = loginCmd e.proto)).length := ((List.take_sublist _ qs).filter _).length_le
    exact Nat.le_trans (Nat.le_of_eq this) (Nat.le_trans hle hone)
  have hacc : ServerTraffic.Accounts (fun ac => 1 ≤ ac.mtWindowSize) ps := by
    intro cmd seq body d' hm n ac hfind
    obtain ⟨a', b', hab⟩ := List.append_of_mem hm
    obtain ⟨s1', bytes', s2', _, g, _⟩ := h4 a' cmd seq body d' b' hab
    exact hwin bytes' d' (by rw [g]; simp) n ac hfind
  refine ⟨s1, bytes, d, s2, c1, k1, k3, by rw [k4, hpre], fun f hf hsub => ?_⟩
  rw [k2] at hf
  rw [h1] at hc ho hr ⊢
  rw [g1] at hacc hlogin hc ho hr ⊢
  refine ⟨ServerTraffic.packet_answered_partial e h16 a b _ _ _ d f hf hsub hacc hlogin hc ho hr, fun h8 hu => ?_⟩
  refine ServerTraffic.packet_answered_once_partial e h16 a b _ _ _ d f hf hsub hacc hlogin hc ho hr h8 ?_
  have hfp := filter_packets (fun q' => decide (Numbered e.proto q.cmd (packetSeq e.proto q.seq q.body) q')) ps
  rw [h3] at hfp
  have hle : ((qs.take (arrived qs (segments steps) (segments steps).length)).filter fun q' =>
      decide (Numbered e.proto q.cmd (packetSeq e.proto q.seq q.body) q')).length ≤ 1 := by
    rw [← hu]; exact ((List.take_sublist _ qs).filter _).length_le
  have hge : 1 ≤ ((qs.take (arrived qs (segments steps) (segments steps).length)).filter fun q' =>
      decide (Numbered e.proto q.cmd (packetSeq e.proto q.seq q.body) q')).length := by
    apply List.length_pos_of_mem (a := q)
    refine List.mem_filter.2 ⟨?_, by simp [Numbered]⟩
    exact List.mem_of_getElem? (i := j) (by rw [List.getElem?_take, if_pos hj, hq])
  rw [← g1]
  exact Nat.le_antisymm (by rw [← hfp] at hle; exact hle) (by rw [← hfp] at hge; exact hge)

/-- **C141: it makes no difference where a segment is cut inside a packet**: bytes that only complete part of a packet change nothing but the buffer. -/
theorem cut_anywhere (z : Bool) (e : Env) (s1 s2 : List Step) (x y : Bytes) (d0 d : Draw) (q : Packet) (hk : Known e.proto q.cmd)
    (hl : 12 + q.body.length ≤ 5120) (more : Bytes) (h : (run z e s1).buffer ++ x ++ more = raw q)
    (hm : more ≠ []) :
    run z e (s1 ++ .data x d0 :: .data y d :: s2) = run z e (s1 ++ .data (x ++ y) d :: s2) := by
  have hb : ((run z e s1).buffer ++ x).length < (raw q).length := by
    have := congrArg List.length h
    have : 0 < more.length := List.length_pos_iff.2 hm
    simp only [List.length_append] at *
    omega
  have hw := Traffic.decode_torn z e.proto q hk hl ((run z e s1).buffer ++ x) more [] (by rw [h, List.append_nil]) hb
  have key : step z e (step z e (run z e s1) (.data x d0)) (.data y d) = step z e (run z e s1) (.data (x ++ y) d) := by
    by_cases hd : (run z e s1).srv.crashed = true ∨ (run z e s1).srv.isOpen = false
    · have hh : ∀ w d', step z e (run z e s1) (.data w d') = run z e s1 := by
        intro w d'; simp only [step]; rw [if_pos (by simpa using hd)]
      rw [hh, hh, hh]
    · have h1 : step z e (run z e s1) (.data x d0) = { run z e s1 with buffer := (run z e s1).buffer ++ x } := by
        simp only [step]
        rw [if_neg (by simpa using hd)]
        simp only [hw]
      rw [h1]
      simp only [step]
      rw [if_neg (by simpa using hd), if_neg (by simpa using hd)]
      simp only [List.append_assoc]
  simp only [run, List.foldl_append, List.foldl_cons] at key ⊢
  rw [key]

/-- **C141 fails: of two packets that arrive together the second is not answered**, as long as nothing else arrives, in no schedule and however long the server
is given: all the answers are to the first. -/
theorem together_unanswered_fails (z : Bool) (e : Env) (h16 : ∀ x, (e.md5 x).length = 16) (a b : Packet) (hs : Sendable z e.proto [a, b])
    (d : Draw) (later : List Step) (hl : segments later = []) (hcmd : b.cmd < 0x80000000)
    (hne : ¬ Numbered e.proto b.cmd (packetSeq e.proto b.seq b.body) a) :
    ∀ f ∈ frames (run z e (.data (raw a ++ raw b) d :: later)).srv,
      ¬ (ServerTraffic.command f = be32 (Spec.responseOf b.cmd) ∧ seqOf e.proto f = packetSeq e.proto b.seq b.body) := by
  obtain ⟨ps, c, h1, h2, h3, _⟩ := stream_inv z e (.data (raw a ++ raw b) d :: later)
  obtain ⟨ka, la, za⟩ := hs a (by simp)
  have hseg : segments (.data (raw a ++ raw b) d :: later) = [raw a ++ raw b] := by
    have : segments (.data (raw a ++ raw b) d :: later) = (raw a ++ raw b) :: segments later := rfl
    rw [this, hl]
  have hrec : receive z e.proto never {} [raw a ++ raw b] = some ⟨raw b, [a], true⟩ := by
    have := Traffic.packet_progress_partial z e.proto never {} rfl (raw a ++ raw b) a (raw b) rfl ka la za
    simpa [receive] using this
  rw [hseg, hrec] at h2
  obtain rfl := Option.some.inj h2
  have hle := ServerTraffic.response_at_most_once e h16 ps b.cmd hcmd (packetSeq e.proto b.seq b.body)
  have hfp := filter_packets (fun q' => decide (Numbered e.proto b.cmd (packetSeq e.proto b.seq b.body) q')) ps
  rw [h3] at hfp
  have h0 : ([a].filter fun q' => decide (Numbered e.proto b.cmd (packetSeq e.proto b.seq b.body) q')) = [] := by
    simp [hne]
  rw [h0] at hfp
  rw [← h1] at hle
  intro f hf hcon
  have hmem : f ∈ (frames (run z e (.data (raw a ++ raw b) d :: later)).srv).filter fun f =>
      ServerTraffic.command f = be32 (Spec.responseOf b.cmd) ∧ seqOf e.proto f = packetSeq e.proto b.seq b.body :=
    List.mem_filter.2 ⟨hf, by simpa using hcon⟩
  have hpos := List.length_pos_of_mem hmem
  have : (ps.filter (ServerTraffic.onPackets fun c seq body _ => c = b.cmd ∧ packetSeq e.proto seq body =
      packetSeq e.proto b.seq b.body)).length = 0 := hfp
  omega

/-! ### The session of Props/ServerAnswers.lean, in bytes -/

def demoQs : List Packet := [⟨1, 1, ServerTraffic.demoLogin⟩, ⟨4, 2, Handlers.exampleSubmitBody [97]⟩]

/-- The login comes in two pieces, the second of them with the first bytes of a submit; then the rest of that. -/
def demoStream : List Step :=
  [.data ((raw ⟨1, 1, ServerTraffic.demoLogin⟩).take 5) {},
   .data ((raw ⟨1, 1, ServerTraffic.demoLogin⟩).drop 5 ++ (raw ⟨4, 2, Handlers.exampleSubmitBody [97]⟩).take 20) ServerTraffic.demoDraw,
   .run 0, .run 0, .loop,
   .data ((raw ⟨4, 2, Handlers.exampleSubmitBody [97]⟩).drop 20) { account := some {}, id := 77, rptId := 78, rptSeq := 9 },
   .run 0, .run 0, .loop, .run 0, .run 0, .run 0, .loop, .run 0, .run 0, .loop]

set_option maxRecDepth 20000 in
theorem demo_stream : (run true ServerTraffic.demoEnv demoStream).srv.tasks = [] ∧ (run true ServerTraffic.demoEnv demoStream).srv.queue = [] ∧
    (run true ServerTraffic.demoEnv demoStream).srv.crashed = false ∧ (run true ServerTraffic.demoEnv demoStream).srv.isOpen = true ∧
    ((run true ServerTraffic.demoEnv demoStream).srv.wire.map fun x => (ServerTraffic.command x.2.1, seqOf .cmpp x.2.1)) =
      [(be32 0x80000001, be32 1), (be32 0x80000004, be32 2), (be32 5, be32 9)] := by
  decide

set_option maxRecDepth 20000 in
theorem demo_sendable : Sendable true .cmpp demoQs := by
  intro q hq
  simp only [demoQs, List.mem_cons, List.not_mem_nil, or_false] at hq
  rcases hq with rfl | rfl <;> decide

set_option maxRecDepth 20000 in
/-- The hypotheses of `stream_answered_partial` hold for it; both packets have arrived. -/
example : (segments demoStream).flatten ++ [] = demoQs.flatMap raw ∧ KeptUp demoQs (segments demoStream) ∧
    (∀ bytes d, Step.data bytes d ∈ demoStream → ∀ n ac, d.find n = some ac → 1 ≤ ac.mtWindowSize) ∧
    (demoQs.filter fun q => q.cmd = loginCmd .cmpp).length ≤ 1 ∧
    Settled ServerTraffic.demoEnv (run true ServerTraffic.demoEnv demoStream).srv ∧
    arrived demoQs (segments demoStream) (segments demoStream).length = 2 ∧
    (demoQs.filter fun q' => Numbered .cmpp 4 (packetSeq .cmpp 2 (Handlers.exampleSubmitBody [97])) q').length = 1 := by
  refine ⟨by decide, ?_, ?_, by decide, ServerTraffic.settled_of_empty demo_stream.1 demo_stream.2.1, by decide, by decide⟩
  · have h3 : (segments demoStream).length = 3 := by decide
    intro i hi
    rw [h3] at hi ⊢
    have : i = 0 ∨ i = 1 ∨ i = 2 ∨ i = 3 := by omega
    rcases this with rfl | rfl | rfl | rfl <;> decide
  · intro bytes d hm n ac hf
    simp only [demoStream, List.mem_cons, Step.data.injEq, reduceCtorEq, List.not_mem_nil, or_false, false_or, or_self] at hm
    rcases hm with ⟨_, rfl⟩ | ⟨_, rfl⟩ | ⟨_, rfl⟩
    · cases hf
    · obtain rfl := Option.some.inj hf; decide
    · cases hf

/-- A login and a submit sent together: the submit is not answered. -/
example (later : List Step) (hl : segments later = []) :
    ∀ f ∈ frames (run true ServerTraffic.demoEnv (.data (raw ⟨1, 1, ServerTraffic.demoLogin⟩ ++
      raw ⟨4, 2, Handlers.exampleSubmitBody [97]⟩) ServerTraffic.demoDraw :: later)).srv,
      ¬ (ServerTraffic.command f = be32 (Spec.responseOf 4) ∧ seqOf .cmpp f = packetSeq .cmpp 2 (Handlers.exampleSubmitBody [97])) :=
  together_unanswered_fails true ServerTraffic.demoEnv (by simp [ServerTraffic.demoEnv]) ⟨1, 1, ServerTraffic.demoLogin⟩ ⟨4, 2, _⟩ demo_sendable _
    later hl (by decide) (by decide)

/-- The first cut of that history makes no difference. -/
example : run true ServerTraffic.demoEnv demoStream = run true ServerTraffic.demoEnv
    (.data (raw ⟨1, 1, ServerTraffic.demoLogin⟩ ++ (raw ⟨4, 2, Handlers.exampleSubmitBody [97]⟩).take 20) ServerTraffic.demoDraw ::
      demoStream.drop 2) :=
  cut_anywhere true ServerTraffic.demoEnv [] (demoStream.drop 2) ((raw ⟨1, 1, ServerTraffic.demoLogin⟩).take 5) _ {} _
    ⟨1, 1, ServerTraffic.demoLogin⟩ (by decide) (by decide) ((raw ⟨1, 1, ServerTraffic.demoLogin⟩).drop 5) (by decide) (by decide)

end Gosms.ServerStream
