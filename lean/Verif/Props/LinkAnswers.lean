import Verif.Spec.LinkAnswers
import Verif.Props.Link
import Verif.Props.LinkEnd

/-!
# C148: on a connection between this library's client and server, answers belong to requests, in both directions
-/

namespace Gosms.Link
open Gosms.Spec (raw Sendable Known responseOf arrived)
open Gosms.Spec.ServerStream (Numbered KeptUp)
open Gosms.Spec.ServerLife (segments written AnswersHeartbeat BareAlone ComesAlone)
open Gosms.Spec.ServerTraffic (loginCmd terminateCmd submitCmd activeCmd deliverCmd packetSeq seqOf)
open Gosms.Spec.Link (requests haveRead packetOf Answerable Quiet)
open Gosms.ServerTraffic (Env Draw answer)
open Gosms.ServerTicks (Settled)
open Gosms.Traffic (Packet)
open Gosms.ClientTraffic (onTraffic)

/-- What the client's answers echo. -/
theorem client_echo (p : Proto) (ce : ClientTraffic.Env) (hid : ce.nextId.length = 10) (s : Client.State) (cmd seq : UInt32) (body : Bytes)
    (o : ClientTraffic.Out) (h : onTraffic p ce s cmd seq body = some o) :
    (∀ w, o.written = some w → ∃ b, w = raw ⟨responseOf cmd, seq, b⟩ ∧ cmd < 0x80000000 ∧ packetSeq p seq b = packetSeq p seq body) ∧
    (Answerable p cmd → o.closed = false → ∃ w, o.written = some w) := by
  rw [ClientTraffic.onTraffic_eq ce s seq body p cmd hid] at h
  cases hk : Spec.ClientTraffic.kind p cmd with
  | none =>
    rw [hk] at h
    obtain rfl := (Option.some.inj h).symm
    refine ⟨fun w hw => (nomatch hw), fun ha => ?_⟩
    exfalso
    obtain ⟨hp, ha⟩ := ha
    cases p <;> simp only [activeCmd, deliverCmd, Option.some.injEq, ne_eq, not_true_eq_false] at ha hp <;> rcases ha with rfl | rfl <;> cases hk
  | some k =>
    rw [hk] at h
    dsimp only at h
    unfold ClientTraffic.expectK at h
    split at h
    · obtain rfl := (Option.some.inj h).symm
      dsimp only
      constructor
      · intro w hw
        split at hw
        · unfold Spec.ClientTraffic.answerTo at hw
          unfold Spec.ClientTraffic.kind at hk
          split at hk <;> first
            | (cases hk; done)
            | (obtain rfl := Option.some.inj hk
               cases hw
               done)
            | (obtain rfl := Option.some.inj hk
               cases hw
               refine ⟨_, rfl, by decide, ?_⟩
               simp [packetSeq, List.take_take])
        · cases hw
      · intro ha hcl
        have hs : ∃ w, Spec.ClientTraffic.answerTo (Cmpp.v3 ce.ver) ce.nextId p k cmd seq body = some w := by
          obtain ⟨hp, ha⟩ := ha
          cases p <;> simp only [activeCmd, deliverCmd, Option.some.injEq, ne_eq, not_true_eq_false] at ha hp <;> rcases ha with rfl | rfl <;>
            (obtain rfl := Option.some.inj hk; exact ⟨_, rfl⟩)
        obtain ⟨w, hw⟩ := hs
        rw [decide_eq_false_iff_not, not_or, not_or, not_or] at hcl
        obtain ⟨_, _, hu, hok⟩ := hcl
        rw [hw] at hok
        have : ce.ok = true := by simpa using hok
        exact ⟨w, by rw [if_pos ⟨this, hu⟩, hw]⟩
    · cases h

/-- What has been asked and answered. -/
structure Inv2 (p : Proto) (js : List Step) (s : State) (qs : List Packet) : Prop where
  own : (qs.filter fun q => q.cmd < 0x80000000).Sublist (requests js)
  some_ : ∀ cmd n, cmd < 0x80000000 → (qs.filter fun q => Numbered p (responseOf cmd) n q).length ≤
    ((s.srv.tk.wire.take s.read).filter fun it => Numbered p cmd n (pk (frame it))).length
  all : ∀ cmd n, cmd < 0x80000000 → s.up = true → Answerable p cmd → (qs.filter fun q => Numbered p (responseOf cmd) n q).length =
    ((s.srv.tk.wire.take s.read).filter fun it => Numbered p cmd n (pk (frame it))).length

theorem requests_append (a b : List Step) : requests (a ++ b) = requests a ++ requests b := List.filterMap_append

theorem response_big (c : UInt32) : ¬ responseOf c < 0x80000000 := by
  unfold Spec.responseOf
  rw [UInt32.lt_iff_toNat_lt, UInt32.toNat_or]
  intro h
  have := @Nat.right_le_or c.toNat (0x80000000 : UInt32).toNat
  omega

theorem not_response {cmd seq : UInt32} {body n : Bytes} {p : Proto} (h : cmd < 0x80000000) (c : UInt32) :
    ¬ Numbered p (responseOf c) n ⟨cmd, seq, body⟩ := fun hn => response_big c (by rw [← hn.1]; exact h)

theorem inv2_run (z : Bool) (gb : Bytes → Option Bytes) (e : Env) (h16 : ∀ x, (e.md5 x).length = 16) (t0 : Int) (js : List Step)
    (hsend : ∀ cmd seq body, Step.send cmd seq body ∈ js → Known e.proto cmd ∧ 12 + body.length ≤ 5120 ∧ cmd < 0x80000000)
    (hid : ∀ ce, Step.read ce ∈ js → ce.nextId.length = 10) :
    Inv e.proto js (run z gb e t0 js) (story z gb e (start t0) js) (trace z gb e (start t0) js) ∧
    Inv2 e.proto js (run z gb e t0 js) (story z gb e (start t0) js) := by
  refine ⟨inv_run z gb e h16 t0 js (fun cmd seq body h => ⟨(hsend cmd seq body h).1, (hsend cmd seq body h).2.1, fun ha => ?_⟩) hid, ?_⟩
  · have h3 := (hsend cmd seq body h).2.2
    unfold AnswersHeartbeat at ha
    cases hc : activeCmd e.proto with
    | none => rw [hc] at ha; cases ha
    | some c =>
      rw [hc] at ha
      exact response_big c (by rw [Option.some.inj ha]; exact h3)
  induction js using snoc_induction with
  | nil => exact ⟨List.Sublist.refl _, fun _ _ _ => Nat.le_refl _, fun _ _ _ _ _ => rfl⟩
  | snoc l x ih =>
    have hI := inv_run z gb e h16 t0 l (fun cmd seq body h => by
      have := hsend cmd seq body (List.mem_append_left _ h)
      refine ⟨this.1, this.2.1, fun ha => ?_⟩
      unfold AnswersHeartbeat at ha
      cases hc : activeCmd e.proto with
      | none => rw [hc] at ha; cases ha
      | some c =>
        rw [hc] at ha
        exact response_big c (by rw [Option.some.inj ha]; exact this.2.2)) (fun ce h => hid ce (List.mem_append_left _ h))
    have ih := ih (fun cmd seq body h => hsend cmd seq body (List.mem_append_left _ h)) (fun ce h => hid ce (List.mem_append_left _ h))
    have i4 := hI.read
    rw [run_snoc, story_snoc]
    generalize run z gb e t0 l = s at ih i4
    generalize story z gb e (start t0) l = qs at ih
    obtain ⟨j1, j2, j3⟩ := ih
    have hown : ∀ x, (requests l).Sublist (requests (l ++ [x])) := fun x => by rw [requests_append]; exact List.sublist_append_left _ _
    have hserver : ∀ x y, told e.proto s x = [] → (y = s ∨ ∃ ys g, y = { s with srv := ys, gone := g } ∧ ∃ w, ys.tk.wire = s.srv.tk.wire ++ w) →
        Inv2 e.proto (l ++ [x]) y (qs ++ told e.proto s x) := by
      intro x y h1 h2
      rw [h1, List.append_nil]
      rcases h2 with rfl | ⟨ys, g, rfl, w, hw⟩
      · exact ⟨j1.trans (hown x), j2, j3⟩
      · have ht : ys.tk.wire.take s.read = s.srv.tk.wire.take s.read := by rw [hw, List.take_append_of_le_length i4]
        exact ⟨j1.trans (hown x), fun c n hc => by dsimp only; rw [ht]; exact j2 c n hc, fun c n hc hu ha => by dsimp only; rw [ht]; exact j3 c n hc hu ha⟩
    cases x with
    | server y =>
      cases y with
      | data b d now => exact hserver _ _ rfl (.inl rfl)
      | _ => exact hserver _ _ rfl (.inr ⟨_, s.gone, rfl, wire_grows z gb e _ _⟩)
    | arrive n d now =>
      by_cases hn : s.flight.take n = []
      · refine hserver _ _ rfl (.inl ?_)
        simp only [step, hn, if_true]
      · refine hserver _ _ rfl (.inr ⟨_, s.gone + (s.flight.take n).length, ?_, wire_grows z gb e s.srv (.data (s.flight.take n) d now)⟩)
        simp only [step, if_neg hn]
    | send cmd seq body =>
      obtain ⟨_, _, k3⟩ := hsend cmd seq body (by simp)
      by_cases hu : s.up = true
      · have h1 : step z gb e s (.send cmd seq body) = { s with sent := s.sent ++ raw ⟨cmd, seq, body⟩ } := by
          simp only [step, hu, if_true, raw, Spec.header12, List.append_assoc]
        have h2 : told e.proto s (.send cmd seq body) = [⟨cmd, seq, body⟩] := by simp only [told, hu, if_true]
        rw [h1, h2]
        have hf : ∀ c n, ((qs ++ [(⟨cmd, seq, body⟩ : Packet)]).filter fun q => Numbered e.proto (responseOf c) n q) =
            qs.filter fun q => Numbered e.proto (responseOf c) n q := by
          intro c n
          rw [List.filter_append]
          simp [not_response k3 c]
        refine ⟨?_, fun c n hc => by rw [hf]; exact j2 c n hc, fun c n hc hh ha => by rw [hf]; exact j3 c n hc hh ha⟩
        rw [List.filter_append, requests_append]
        have : ([(⟨cmd, seq, body⟩ : Packet)].filter fun q => decide (q.cmd < 0x80000000)) = requests [.send cmd seq body] := by
          rw [List.filter_cons_of_pos (by simpa using k3)]; rfl
        rw [this]
        exact j1.append (List.Sublist.refl _)
      · have h1 : step z gb e s (.send cmd seq body) = s := by simp [step, hu]
        rw [h1]
        exact hserver _ _ (by simp [told, hu]) (.inl rfl)
    | read ce =>
      by_cases hu : s.up = true
      · have h1 : step z gb e s (.read ce) = reads e.proto ce s := by simp only [step, hu, if_true]
        rw [h1]
        cases hr : s.srv.tk.wire[s.read]? with
        | none =>
          have h2 : reads e.proto ce s = s := by simp only [reads, hr]
          rw [h2]
          exact hserver _ _ (by simp only [told, hu, hr, if_true]) (.inl rfl)
        | some it =>
          have htk : s.srv.tk.wire.take (s.read + 1) = s.srv.tk.wire.take s.read ++ [it] := by
            rw [List.take_add_one, hr]; rfl
          have ht0 : told e.proto s (.read ce) =
              ((onTraffic e.proto ce s.cli (pk (frame it)).cmd (pk (frame it)).seq (pk (frame it)).body).bind (·.written)).toList.map pk := by
            simp only [told, hu, hr, if_true]
          have hr0 : reads e.proto ce s = match onTraffic e.proto ce s.cli (pk (frame it)).cmd (pk (frame it)).seq (pk (frame it)).body with
              | none => { s with read := s.read + 1, up := false }
              | some o => { s with read := s.read + 1, up := !o.closed, sent := s.sent ++ o.written.getD [], cli := o.st } := by
            simp only [reads, hr]; rfl
          rw [ht0, hr0]
          have hmore : ∀ c n, ((s.srv.tk.wire.take s.read).filter fun it => decide (Numbered e.proto c n (pk (frame it)))).length ≤
              ((s.srv.tk.wire.take (s.read + 1)).filter fun it => decide (Numbered e.proto c n (pk (frame it)))).length := by
            intro c n; rw [htk, List.filter_append, List.length_append]; omega
          cases ho : onTraffic e.proto ce s.cli (pk (frame it)).cmd (pk (frame it)).seq (pk (frame it)).body with
          | none =>
            show Inv2 _ _ _ (qs ++ [])
            rw [List.append_nil]
            exact ⟨j1.trans (hown _), fun c n hc => Nat.le_trans (j2 c n hc) (hmore c n), fun _ _ _ hh => (nomatch hh)⟩
          | some o =>
            obtain ⟨c1, c2⟩ := client_echo e.proto ce (hid ce (by simp)) s.cli _ _ _ o ho
            show Inv2 _ _ { s with read := s.read + 1, up := !o.closed, sent := s.sent ++ o.written.getD [], cli := o.st } (qs ++ (o.written.toList.map pk))
            cases hw : o.written with
            | none =>
              simp only [Option.toList_none, List.map_nil, List.append_nil]
              refine ⟨j1.trans (hown _), fun c n hc => Nat.le_trans (j2 c n hc) (hmore c n), fun c n hc hh ha => ?_⟩
              have hnb : ¬ Numbered e.proto c n (pk (frame it)) := by
                rintro ⟨hcmd, -⟩
                obtain ⟨w, hw'⟩ := c2 (by rw [hcmd]; exact ha) (by simpa using hh)
                rw [hw] at hw'
                cases hw'
              dsimp only
              rw [htk, List.filter_append, j3 c n hc hu ha]
              simp [hnb]
            | some w =>
              obtain ⟨b, hb1, hb2, hb3⟩ := c1 w hw
              simp only [Option.toList_some, List.map_cons, List.map_nil]
              rw [hb1, pk_raw]
              have hiff : ∀ c n, c < 0x80000000 → (Numbered e.proto (responseOf c) n (⟨responseOf (pk (frame it)).cmd, (pk (frame it)).seq, b⟩ : Packet) ↔
                  Numbered e.proto c n (pk (frame it))) := by
                intro c n hc
                unfold Spec.ServerStream.Numbered
                dsimp only
                rw [hb3]
                exact and_congr_left' ⟨fun h => ServerTraffic.responseOf_inj hb2 hc h, fun h => by rw [h]⟩
              have hone : ∀ c n, c < 0x80000000 →
                  ([(⟨responseOf (pk (frame it)).cmd, (pk (frame it)).seq, b⟩ : Packet)].filter fun q => decide (Numbered e.proto (responseOf c) n q)).length =
                  ([it].filter fun it => decide (Numbered e.proto c n (pk (frame it)))).length := by
                intro c n hc
                by_cases hN : Numbered e.proto c n (pk (frame it))
                · rw [List.filter_cons_of_pos (by simpa using (hiff c n hc).2 hN), List.filter_cons_of_pos (by simpa using hN)]; rfl
                · rw [List.filter_cons_of_neg (by simpa using fun h => hN ((hiff c n hc).1 h)), List.filter_cons_of_neg (by simpa using hN)]; rfl
              refine ⟨?_, fun c n hc => ?_, fun c n hc _ ha => ?_⟩
              · rw [List.filter_append, List.filter_cons_of_neg (by simpa using response_big _), List.filter_nil, List.append_nil]
                exact j1.trans (hown _)
              · dsimp only
                rw [htk, List.filter_append, List.filter_append, List.length_append, List.length_append, hone c n hc]
                have := j2 c n hc
                omega
              · dsimp only
                rw [htk, List.filter_append, List.filter_append, List.length_append, List.length_append, hone c n hc, j3 c n hc hu ha]
      · have h1 : step z gb e s (.read ce) = s := by simp [step, hu]
        rw [h1]
        exact hserver _ _ (by simp [told, hu]) (.inl rfl)

theorem filter_frames (P : Bytes → Bool) (s : State) : ((haveRead s).filter P).length = ((s.srv.tk.wire.take s.read).filter fun it => P (frame it)).length := by
  unfold Spec.Link.haveRead
  rw [written_wire, ← List.map_take, List.filter_map, List.length_map]
  rfl

/-- **C148, the part that holds: the client reads at most one answer for each of its requests**: among what it has read there are no more answers to a command
with a number than it has sent such requests with that number itself. For every history of client, network and server, however the client's bytes are torn on
their way; if the library reads 0 as everything (`z`), packets without body must arrive alone. Without that: `answers_read_were_asked_for_fails`. -/
theorem answers_read_were_asked_for_partial (z : Bool) (gb : Bytes → Option Bytes) (e : Env) (h16 : ∀ x, (e.md5 x).length = 16) (t0 : Int) (js : List Step)
    (hsend : ∀ cmd seq body, Step.send cmd seq body ∈ js → Known e.proto cmd ∧ 12 + body.length ≤ 5120 ∧ cmd < 0x80000000)
    (hid : ∀ ce, Step.read ce ∈ js → ce.nextId.length = 10)
    (hz : z = true → ∀ a n d now b, js = a ++ .arrive n d now :: b → BareAlone ((run z gb e t0 a).srv.buffer ++ (run z gb e t0 a).flight.take n))
    (cmd : UInt32) (hcmd : cmd < 0x80000000) (n : Bytes) :
    ((haveRead (run z gb e t0 js)).filter fun f => Spec.ServerTraffic.command f = be32 (responseOf cmd) ∧ seqOf e.proto f = n).length ≤
      ((requests js).filter fun q => Numbered e.proto cmd n q).length := by
  obtain ⟨hI, hJ⟩ := inv2_run z gb e h16 t0 js hsend hid
  have hzz : z = true → ComesAlone gb e t0 (trace z gb e (start t0) js) := by
    intro hz1 s1 bytes d now s2 hab
    obtain ⟨a, x, b, h1, h2, h3⟩ := trace_at z gb e t0 js s1 _ s2 hab
    obtain ⟨n, rfl, rfl⟩ := contrib_data h3
    have := hz hz1 a n d now b h1
    rw [run_srv, h2] at this
    rw [hz1] at this ⊢
    exact this
  have hs : Sendable false e.proto (story z gb e (start t0) js) := fun q hq => ⟨(hI.known q hq).1, (hI.known q hq).2, .inl rfl⟩
  have hst : (segments (trace z gb e (start t0) js)).flatten ++ (run z gb e t0 js).flight = (story z gb e (start t0) js).flatMap raw := by
    rw [hI.segs, ← hI.sent]
    exact List.take_append_drop _ _
  have hlife := ServerLife.life_at_most_once false gb e h16 t0 _ hs (trace z gb e (start t0) js) _ hst cmd hcmd n
  rw [← ServerLife.run_reading hzz _ [] (by simp), ← run_srv] at hlife
  refine Nat.le_trans (((List.take_sublist _ _).filter _).length_le) (Nat.le_trans hlife ?_)
  have h1 : ((story z gb e (start t0) js).filter fun q => decide (Numbered e.proto cmd n q)) =
      (((story z gb e (start t0) js).filter fun q => decide (q.cmd < 0x80000000)).filter fun q => decide (Numbered e.proto cmd n q)) := by
    rw [List.filter_filter]
    apply List.filter_congr
    intro q _
    by_cases hN : Numbered e.proto cmd n q
    · simp [hN, hN.1, hcmd]
    · simp [hN]
  rw [h1]
  exact (hJ.own.filter _).length_le

/-- **C148: and in the other direction: the client answers what the server asks, once**: what it has written is its own requests, while its session was open, and
answers; there are no more answers to a command with a number than such requests it has read; and as long as its session is open it has answered every heartbeat
and every delivery it has read. -/
theorem client_answers_what_it_reads (z : Bool) (gb : Bytes → Option Bytes) (e : Env) (h16 : ∀ x, (e.md5 x).length = 16) (t0 : Int) (js : List Step)
    (hsend : ∀ cmd seq body, Step.send cmd seq body ∈ js → Known e.proto cmd ∧ 12 + body.length ≤ 5120 ∧ cmd < 0x80000000)
    (hid : ∀ ce, Step.read ce ∈ js → ce.nextId.length = 10) :
    ∃ qs : List Packet, (run z gb e t0 js).sent = qs.flatMap raw ∧ (∀ q ∈ qs, Known e.proto q.cmd ∧ 12 + q.body.length ≤ 5120) ∧
      (qs.filter fun q => q.cmd < 0x80000000).Sublist (requests js) ∧
      ∀ cmd n, cmd < 0x80000000 →
        (qs.filter fun q => Numbered e.proto (responseOf cmd) n q).length ≤
          ((haveRead (run z gb e t0 js)).filter fun f => Numbered e.proto cmd n (packetOf f)).length ∧
        ((run z gb e t0 js).up = true → Answerable e.proto cmd →
          (qs.filter fun q => Numbered e.proto (responseOf cmd) n q).length =
            ((haveRead (run z gb e t0 js)).filter fun f => Numbered e.proto cmd n (packetOf f)).length) := by
  obtain ⟨hI, hJ⟩ := inv2_run z gb e h16 t0 js hsend hid
  refine ⟨_, hI.sent, hI.known, hJ.own, fun cmd n hc => ?_⟩
  rw [filter_frames]
  exact ⟨hJ.some_ cmd n hc, hJ.all cmd n hc⟩

/-- **C148, the part that holds: when all is quiet again, every request of the client has been answered, and it has read the answer; exactly one, if it has used
the number once.** For every history at whose end all is quiet (C146) and the connection open, however the client's bytes were torn on their way: if accounts
have windows of at least one slot and the client logs in once. The server answers with what it drew when it took the request, which was next in its buffer. -/
theorem quiet_all_answered_partial (z : Bool) (gb : Bytes → Option Bytes) (e : Env) (h16 : ∀ x, (e.md5 x).length = 16) (t0 : Int) (js : List Step)
    (hsend : ∀ cmd seq body, Step.send cmd seq body ∈ js → Known e.proto cmd ∧ 12 + body.length ≤ 5120 ∧ cmd < 0x80000000)
    (hone : (js.filter fun | .send cmd _ _ => decide (cmd = loginCmd e.proto) | _ => false).length ≤ 1)
    (hid : ∀ ce, Step.read ce ∈ js → ce.nextId.length = 10)
    (hz : z = true → ∀ a n d now b, js = a ++ .arrive n d now :: b → BareAlone ((run z gb e t0 a).srv.buffer ++ (run z gb e t0 a).flight.take n))
    (hwin : ∀ n d now, Step.arrive n d now ∈ js → ∀ nm ac, d.find nm = some ac → 1 ≤ ac.mtWindowSize)
    (hQ : Quiet (run z gb e t0 js)) (hc : (run z gb e t0 js).srv.tk.base.crashed = false) (ho : (run z gb e t0 js).srv.tk.base.isOpen = true)
    (a b : List Step) (cmd seq : UInt32) (body : Bytes) (hab : js = a ++ .send cmd seq body :: b) :
    ∃ a' n d now b', js = a' ++ .arrive n d now :: b' ∧
      (run z gb e t0 a').gone = (run z gb e t0 a).sent.length + (run z gb e t0 a').srv.buffer.length ∧
      ∀ f, answer e (run z gb e t0 a').srv.tk.base.ver cmd seq body d = some f →
        (cmd = submitCmd e.proto → d.allow = true → d.account ≠ none ∧ d.minMs < d.maxMs) →
        f ∈ haveRead (run z gb e t0 js) ∧
        ((e.proto = .sgip → 8 ≤ body.length) →
          ((requests js).filter fun q => Numbered e.proto cmd (packetSeq e.proto seq body) q).length = 1 →
          ((haveRead (run z gb e t0 js)).filter fun g => Spec.ServerTraffic.command g = be32 (responseOf cmd) ∧
            seqOf e.proto g = packetSeq e.proto seq body) = [f]) := by
  obtain ⟨hI, hJ⟩ := inv2_run z gb e h16 t0 js hsend hid
  have hIa := (inv2_run z gb e h16 t0 a (fun c s x h => hsend c s x (by rw [hab]; exact List.mem_append_left _ h))
    (fun ce h => hid ce (by rw [hab]; exact List.mem_append_left _ h))).1
  have hzz : z = true → ComesAlone gb e t0 (trace z gb e (start t0) js) := by
    intro hz1 s1 bytes d now s2 hab
    obtain ⟨a, x, b, h1, h2, h3⟩ := trace_at z gb e t0 js s1 _ s2 hab
    obtain ⟨n, rfl, rfl⟩ := contrib_data h3
    have := hz hz1 a n d now b h1
    rw [run_srv, h2] at this
    rw [hz1] at this ⊢
    exact this
  have hs : Sendable false e.proto (story z gb e (start t0) js) := fun q hq => ⟨(hI.known q hq).1, (hI.known q hq).2, .inl rfl⟩
  have hfl : (run z gb e t0 js).flight = [] := by
    unfold State.flight
    rw [hQ.arrived, List.drop_length]
  have hst : (segments (trace z gb e (start t0) js)).flatten ++ [] = (story z gb e (start t0) js).flatMap raw := by
    rw [List.append_nil, hI.segs, ← hI.sent, hQ.arrived, List.take_length]
  have hup : (run z gb e t0 a).up = true := by
    cases hu : (run z gb e t0 a).up with
    | true => rfl
    | false =>
      have := (over_stays z gb e (.send cmd seq body :: b) _ hu).1
      rw [← run_split, ← hab, hQ.up] at this
      cases this
  obtain ⟨B, hB⟩ : ∃ B, story z gb e (start t0) js = story z gb e (start t0) a ++ ⟨cmd, seq, body⟩ :: B := by
    have hup' : (a.foldl (step z gb e) (start t0)).up = true := hup
    exact ⟨story z gb e (step z gb e (a.foldl (step z gb e) (start t0)) (.send cmd seq body)) b, by
      rw [hab, story_append, story, told, if_pos hup']; rfl⟩
  have hnum := hsend cmd seq body (by rw [hab]; simp)
  -- the server is not behind
  have hall : arrived (story z gb e (start t0) js) (segments (trace z gb e (start t0) js)) (segments (trace z gb e (start t0) js)).length =
      (story z gb e (start t0) js).length := by
    rw [arrived_all]
    have := wholeIn_all (story z gb e (start t0) js) []
    rw [List.append_nil] at this
    rw [← List.append_nil (segments (trace z gb e (start t0) js)).flatten, hst, this]
  have hsrv := run_srv z gb e t0 js
  have hkept : KeptUp (story z gb e (start t0) js) (segments (trace z gb e (start t0) js)) := by
    have hfalse := ServerLife.run_reading hzz _ [] (List.append_nil _).symm
    obtain ⟨ts, c, _, g2, _, _, g5⟩ := ServerLife.life_inv false gb e t0 (trace z gb e (start t0) js)
    refine (Traffic.keeps_up_iff_partial false e.proto _ (fun _ _ => rfl) _ hs _ _ hst c g2).1 ?_
    obtain ⟨n, held, k1, k2, k3, _⟩ := Traffic.handed_exactly false e.proto (fun _ _ => false) (fun _ _ => rfl) _ hs _ _ hst
    obtain rfl := Option.some.inj (k1.symm.trans g2)
    have hheld : held = [] := by
      rw [← hfalse, ← hsrv] at g5
      rcases g5 with g | g | ⟨_, g⟩
      · rw [hc] at g; cases g
      · rw [ho] at g; cases g
      · rw [← hQ.taken, g]
    subst hheld
    show List.take n _ = _
    rw [hall, List.take_length]
    have : (story z gb e (start t0) js).drop n = [] := by
      cases hd : (story z gb e (start t0) js).drop n with
      | nil => rfl
      | cons q t =>
        rw [hd] at k3
        have := congrArg List.length k3
        simp [raw, Spec.header12] at this
        omega
    rw [List.drop_eq_nil_iff] at this
    exact List.take_of_length_le this
  have hset : Settled gb e (run z gb e t0 js).srv.tk :=
    ServerTicks.settled_of_empty (by rw [hQ.idle.1]; rfl) (by rw [hQ.idle.2.1]; rfl) (by rw [hQ.idle.2.2]; rfl)
  rw [hsrv] at hc ho hset
  have hw1 : ∀ bytes d now, ServerLife.Step.data bytes d now ∈ trace z gb e (start t0) js → ∀ n ac, d.find n = some ac → 1 ≤ ac.mtWindowSize := by
    intro bytes d now hm
    obtain ⟨s1, s2, hab⟩ := List.append_of_mem hm
    obtain ⟨a, x, b, h1, _, h3⟩ := trace_at z gb e t0 js s1 _ s2 hab
    obtain ⟨n, rfl, _⟩ := contrib_data h3
    exact hwin n d now (by rw [h1]; simp)
  obtain ⟨s1, bytes, d, now, s2, c, l1, l2, l3, l4⟩ := ServerLife.life_answered_alone_partial z gb e h16 t0 _ hs _ hzz [] hst hkept hw1
    (Nat.le_trans hI.logins hone) hc ho hset (story z gb e (start t0) a).length ⟨cmd, seq, body⟩
    (by rw [hB, List.getElem?_append_right (Nat.le_refl _), Nat.sub_self]; rfl) (by rw [hall, hB, List.length_append, List.length_cons]; omega)
  obtain ⟨a', x, b', h1, h2, h3⟩ := trace_at z gb e t0 js s1 _ s2 l1
  obtain ⟨n, rfl, hbytes⟩ := contrib_data h3
  have hread : haveRead (run z gb e t0 js) = written (ServerLife.run z gb e t0 (trace z gb e (start t0) js)) := by
    unfold Spec.Link.haveRead
    rw [hQ.read, List.take_length, hsrv]
  refine ⟨a', n, d, now, b', h1, ?_, fun f hf hsub => ?_⟩
  · have hdown : (run z gb e t0 a').srv.tk.base.crashed = true ∨ (run z gb e t0 a').srv.tk.base.isOpen = false → False := by
      intro h
      have hd := ServerLife.down_run z gb e t0 s1 (.data bytes d now :: s2) (by rw [← h2, ← run_srv]; exact h)
      rw [← l1] at hd
      rw [run_srv, h2, ← hd] at h
      rcases h with h | h
      · rw [hc] at h; cases h
      · rw [ho] at h; cases h
    have hc' : (run z gb e t0 a').srv.tk.base.crashed = false := by
      cases h : (run z gb e t0 a').srv.tk.base.crashed with
      | false => rfl
      | true => exact (hdown (.inl h)).elim
    have ho' : (run z gb e t0 a').srv.tk.base.isOpen = true := by
      cases h : (run z gb e t0 a').srv.tk.base.isOpen with
      | true => rfl
      | false => exact (hdown (.inr h)).elim
    have hIa' := (inv2_run z gb e h16 t0 a' (fun c s x h => hsend c s x (by rw [h1]; exact List.mem_append_left _ h))
      (fun ce h => hid ce (by rw [h1]; exact List.mem_append_left _ h))).1
    have hlen : (segments s1).flatten.length = (run z gb e t0 a').gone := by
      rw [← h2, hIa'.segs, List.length_take, Nat.min_eq_left hIa'.gone]
    have hfalse := ServerLife.run_reading hzz s1 _ l1
    obtain ⟨ts, c2, _, g2, _, _, g5⟩ := ServerLife.life_inv false gb e t0 s1
    have hsp : (segments s1).flatten ++ (segments (.data bytes d now :: s2)).flatten = (story z gb e (start t0) js).flatMap raw := by
      rw [← hst, List.append_nil, l1, segments_append, List.flatten_append]
    obtain ⟨m, held, k1, k2, k3, _⟩ := Traffic.handed_exactly false e.proto (fun _ _ => false) (fun _ _ => rfl) _ hs _ _ hsp
    obtain rfl := Option.some.inj (k1.symm.trans g2)
    obtain rfl := Option.some.inj (l2.symm.trans g2)
    have hm : m = (story z gb e (start t0) a).length := by
      have := congrArg List.length l3
      rw [hB, List.length_take, List.length_take] at this
      rw [hB] at k2
      rw [List.length_append, List.length_cons] at this k2
      omega
    have hbuf : (run z gb e t0 a').srv.buffer = held := by
      rw [run_srv, h2, hfalse] at hc' ho' ⊢
      rcases g5 with g | g | ⟨_, g⟩
      · rw [hc'] at g; cases g
      · rw [ho'] at g; cases g
      · exact g
    have e1 := congrArg List.length hsp
    have e2 := congrArg List.length k3
    have e3 : ((story z gb e (start t0) js).flatMap raw).length = ((story z gb e (start t0) a).flatMap raw).length +
        (((story z gb e (start t0) js).drop m).flatMap raw).length := by
      rw [hm, hB, List.drop_left, List.flatMap_append, List.length_append]
    rw [List.length_append] at e1 e2
    rw [hbuf, ← hlen, hIa.sent]
    omega
  · have hver : (ServerLife.run z gb e t0 s1).tk.base.ver = (run z gb e t0 a').srv.tk.base.ver := by rw [run_srv, h2]
    obtain ⟨r1, r2⟩ := l4 f (by rw [hver]; exact hf) hsub
    rw [hread]
    refine ⟨r1, fun h8 hu => r2 h8 (Nat.le_antisymm ?_ ?_)⟩
    · rw [← hu]
      have h1 : ((story z gb e (start t0) js).filter fun q => decide (Numbered e.proto cmd (packetSeq e.proto seq body) q)) =
          (((story z gb e (start t0) js).filter fun q => decide (q.cmd < 0x80000000)).filter fun q =>
            decide (Numbered e.proto cmd (packetSeq e.proto seq body) q)) := by
        rw [List.filter_filter]
        apply List.filter_congr
        intro q _
        by_cases hN : Numbered e.proto cmd (packetSeq e.proto seq body) q
        · simp [hN, hN.1, hnum.2.2]
        · simp [hN]
      show ((story z gb e (start t0) js).filter fun q => decide (Numbered e.proto cmd (packetSeq e.proto seq body) q)).length ≤ _
      rw [h1]
      exact (hJ.own.filter _).length_le
    · apply List.length_pos_of_mem (a := (⟨cmd, seq, body⟩ : Packet))
      exact List.mem_filter.2 ⟨by rw [hB]; simp, by simp [Spec.ServerStream.Numbered]⟩

/-! ## A client that logs in, sends a text and reads the answer, the report on it and a heartbeat -/

def talkCe : ClientTraffic.Env := { gbDec := some, nextId := List.replicate 10 5, ver := 0x20 }

/-- The text arrives in two pieces. -/
def talk : List Step :=
  [.send 1 1 ServerTraffic.demoLogin, .arrive 1000 ServerTraffic.demoDraw 0, .server (.run 0 1), .server (.run 0 1), .server (.loop 1), .read talkCe,
   .send 4 2 (Handlers.exampleSubmitBody [97]), .arrive 20 ServerTraffic.demoDraw 2,
   .arrive 1000 { account := some {}, id := 77, rptId := 78, rptSeq := 9 } 3, .server (.run 0 3), .server (.run 0 3), .server (.loop 3), .server (.run 0 3),
   .server (.run 0 3), .server (.run 0 3), .server (.loop 3), .server (.run 0 3), .server (.run 0 3), .server (.loop 3), .read talkCe, .read talkCe,
   .server (.tick { now := sec 100, force := sec 160 }), .server (.task 0 { now := sec 100, seq := 21 }), .server (.loop (sec 100)), .read talkCe]

/-- And what follows: the client's answers arrive, and all is quiet. -/
def talkOn : List Step :=
  talk ++ [.arrive 21 {} (sec 101), .server (.run 0 (sec 101)), .server (.run 0 (sec 101)), .server (.run 0 (sec 101)), .arrive 1000 {} (sec 101),
    .server (.run 0 (sec 101)), .server (.run 0 (sec 101)), .server (.run 0 (sec 101))]

set_option maxRecDepth 20000 in
/-- What the theorems ask holds of it, and both directions are in use: the client has read the answers to its login and its text, and has answered the report
and the heartbeat. -/
example : ((requests talk).all fun q => decide (Known .cmpp q.cmd ∧ 12 + q.body.length ≤ 5120 ∧ q.cmd < 0x80000000)) = true ∧
    (talk.all fun | .read ce => ce.nextId.length == 10 | _ => true) = true ∧
    (atSteps (fun a x => match x with
      | .arrive n _ _ => decide (BareAlone ((run true some ServerTraffic.demoEnv 0 a).srv.buffer ++ (run true some ServerTraffic.demoEnv 0 a).flight.take n))
      | _ => true) talk) = true ∧
    (run true some ServerTraffic.demoEnv 0 talk).up = true ∧
    ((requests talk).map fun q => (q.cmd, q.seq)) = [(1, 1), (4, 2)] ∧
    ((haveRead (run true some ServerTraffic.demoEnv 0 talk)).map fun f => (Spec.ServerTraffic.command f, seqOf .cmpp f)) =
      [(be32 0x80000001, be32 1), (be32 0x80000004, be32 2), (be32 5, be32 9), (be32 8, be32 21)] ∧
    ((story true some ServerTraffic.demoEnv (start 0) talk).map fun q => (q.cmd, q.seq)) = [(1, 1), (4, 2), (0x80000005, 9), (0x80000008, 21)] := by
  decide +kernel

set_option maxRecDepth 20000 in
theorem talk_demo : ((requests talkOn).all fun q => decide (Known .cmpp q.cmd ∧ 12 + q.body.length ≤ 5120 ∧ q.cmd < 0x80000000)) = true ∧
    (talkOn.all fun
      | .read ce => ce.nextId.length == 10
      | .arrive _ d _ => (d.find []).all fun ac => decide (1 ≤ ac.mtWindowSize)
      | _ => true) = true ∧
    (atSteps (fun a x => match x with
      | .arrive n _ _ => decide (BareAlone ((run true some ServerTraffic.demoEnv 0 a).srv.buffer ++ (run true some ServerTraffic.demoEnv 0 a).flight.take n))
      | _ => true) talkOn) = true ∧
    (let s := run true some ServerTraffic.demoEnv 0 talkOn;
      (s.up && s.read == (written s.srv).length && s.gone == s.sent.length && s.srv.buffer.isEmpty && s.srv.tk.own.isEmpty && s.srv.tk.queue.isEmpty &&
        s.srv.tk.base.tasks.isEmpty && !s.srv.tk.base.crashed && s.srv.tk.base.isOpen) = true) ∧
    (talkOn.filter fun | .send cmd _ _ => decide (cmd = loginCmd .cmpp) | _ => false).length ≤ 1 ∧
    ((requests talkOn).filter fun q => Numbered .cmpp 4 (be32 2) q).length = 1 := by
  decide +kernel

/-- The last theorem applied to the text in that history. -/
example : ∃ a' n d now b', talkOn = a' ++ .arrive n d now :: b' ∧
    (run true some ServerTraffic.demoEnv 0 a').gone = 39 + (run true some ServerTraffic.demoEnv 0 a').srv.buffer.length ∧
    ∀ f, answer ServerTraffic.demoEnv (run true some ServerTraffic.demoEnv 0 a').srv.tk.base.ver 4 2 (Handlers.exampleSubmitBody [97]) d = some f →
      ((4 : UInt32) = submitCmd .cmpp → d.allow = true → d.account ≠ none ∧ d.minMs < d.maxMs) →
      ((haveRead (run true some ServerTraffic.demoEnv 0 talkOn)).filter fun g => Spec.ServerTraffic.command g = be32 (responseOf 4) ∧ seqOf .cmpp g = be32 2) = [f] := by
  obtain ⟨d1, d2, d3, d4, d5, d6⟩ := talk_demo
  simp only [Bool.and_eq_true, beq_iff_eq, List.isEmpty_iff, Bool.not_eq_true'] at d4
  obtain ⟨⟨⟨⟨⟨⟨⟨⟨q1, q2⟩, q3⟩, q4⟩, q5⟩, q6⟩, q7⟩, q8⟩, q9⟩ := d4
  have hstep : ∀ x ∈ talkOn, _ := List.all_eq_true.1 d2
  obtain ⟨a', n, d, now, b', h1, h2, h3⟩ := quiet_all_answered_partial true some ServerTraffic.demoEnv (by simp [ServerTraffic.demoEnv]) 0 talkOn
    (fun c s x h => of_decide_eq_true (List.all_eq_true.1 d1 ⟨c, s, x⟩ (List.mem_filterMap.2 ⟨_, h, rfl⟩))) d5
    (fun ce h => by simpa using hstep _ h)
    (fun _ a n d now b h => by simpa using atSteps_spec d3 h)
    (fun n d now h nm ac hf => by
      have hd : d.find nm = d.find [] := by
        simp only [talkOn, talk, List.cons_append, List.nil_append, List.mem_cons, List.not_mem_nil, or_false, reduceCtorEq, false_or, Step.arrive.injEq] at h
        rcases h with ⟨_, rfl, _⟩ | ⟨_, rfl, _⟩ | ⟨_, rfl, _⟩ | ⟨_, rfl, _⟩ | ⟨_, rfl, _⟩ <;> rfl
      have := hstep _ h
      simp only at this
      rw [← hd, hf] at this
      simpa using this)
    ⟨q1, q2, q3, q4, q5, q6, q7⟩ q8 q9 (talkOn.take 6) (talkOn.drop 7) 4 2 (Handlers.exampleSubmitBody [97]) rfl
  refine ⟨a', n, d, now, b', h1, ?_, fun f hf hsub => ?_⟩
  · have : (run true some ServerTraffic.demoEnv 0 (talkOn.take 6)).sent.length = 39 := by decide +kernel
    rw [this] at h2
    exact h2
  · exact (h3 f hf hsub).2 (fun h => nomatch h) d6

/-- After its login the client sends a heartbeat, and a text that holds the 12 bytes of a heartbeat with number 99. The heartbeat arrives with the first part of
the text, up to those bytes. -/
def smuggle : List Step :=
  [.send 1 1 ServerTraffic.demoLogin, .arrive 1000 ServerTraffic.demoDraw 0, .server (.run 0 1), .server (.run 0 1), .server (.loop 1), .read talkCe,
   .send 8 2 [], .send 4 3 (Handlers.exampleSubmitBody (raw ⟨8, 99, []⟩)),
   .arrive (24 + (Handlers.exampleSubmitBody (raw ⟨8, 99, []⟩)).length - 12) ServerTraffic.demoDraw 2, .server (.run 0 2), .server (.run 0 2), .server (.loop 2),
   .server (.run 0 2), .server (.run 0 2), .arrive 12 ServerTraffic.demoDraw 3, .server (.run 0 3), .server (.run 0 3), .server (.loop 3), .read talkCe, .read talkCe]

set_option maxRecDepth 20000 in
/-- **C148 fails otherwise**: with a library that reads 0 as everything, a packet without body takes along what has arrived behind it, so that reading goes on in the
midst of a text; the client is answered for a request that it has never sent but that its text spells. -/
theorem answers_read_were_asked_for_fails : ∃ (e : Env) (js : List Step) (cmd : UInt32) (n : Bytes), (∀ x, (e.md5 x).length = 16) ∧
    (∀ c seq body, Step.send c seq body ∈ js → Known e.proto c ∧ 12 + body.length ≤ 5120 ∧ c < 0x80000000) ∧
    (∀ ce, Step.read ce ∈ js → ce.nextId.length = 10) ∧ cmd < 0x80000000 ∧
    ((requests js).filter fun q => Numbered e.proto cmd n q) = [] ∧
    ((haveRead (run true some e 0 js)).filter fun f => Spec.ServerTraffic.command f = be32 (responseOf cmd) ∧ seqOf e.proto f = n).length = 1 := by
  refine ⟨ServerTraffic.demoEnv, smuggle, 8, be32 99, by simp [ServerTraffic.demoEnv], ?_, ?_, by decide, by decide +kernel, by decide +kernel⟩
  · intro c seq body h
    have hall : ((requests smuggle).all fun q => decide (Known .cmpp q.cmd ∧ 12 + q.body.length ≤ 5120 ∧ q.cmd < 0x80000000)) = true := by decide +kernel
    have := List.all_eq_true.1 hall ⟨c, seq, body⟩ (List.mem_filterMap.2 ⟨_, h, rfl⟩)
    exact of_decide_eq_true this
  · intro ce h
    have hall : (smuggle.all fun | .read ce => ce.nextId.length == 10 | _ => true) = true := by decide +kernel
    have := List.all_eq_true.1 hall _ h
    simpa using this

end Gosms.Link
