import Verif.Spec.LinkEnd
import Verif.Props.Link

/-!
# C147: a session that is ended is over at both ends
-/

namespace Gosms.Link
open Gosms.Spec (raw Known responseOf)
open Gosms.Spec.ServerLife (written)
open Gosms.Spec.ServerTraffic (loginCmd terminateCmd activeCmd)
open Gosms.Spec.Link (confirmation closeAsked GivesUp)
open Gosms.ServerTraffic (Env Draw)
open Gosms.Traffic (Packet)
open Gosms.ClientTraffic (onTraffic)

theorem written_wire (s : ServerLife.State) : written s = s.tk.wire.map frame := by
  unfold written
  congr 1

theorem run_split (z : Bool) (gb : Bytes → Option Bytes) (e : Env) (t0 : Int) (a b : List Step) :
    run z gb e t0 (a ++ b) = b.foldl (step z gb e) (run z gb e t0 a) := by
  unfold run
  rw [List.foldl_append]

/-- After its session the client does nothing. -/
theorem over_stays (z : Bool) (gb : Bytes → Option Bytes) (e : Env) (b : List Step) : ∀ s : State, s.up = false →
    (b.foldl (step z gb e) s).up = false ∧ (b.foldl (step z gb e) s).sent = s.sent ∧ (b.foldl (step z gb e) s).read = s.read := by
  induction b with
  | nil => intro s h; exact ⟨h, rfl, rfl⟩
  | cons x b ih =>
    intro s h
    have hx : (step z gb e s x).up = false ∧ (step z gb e s x).sent = s.sent ∧ (step z gb e s x).read = s.read := by
      cases x with
      | server y => cases y <;> exact ⟨h, rfl, rfl⟩
      | arrive n d now => simp only [step]; split <;> exact ⟨h, rfl, rfl⟩
      | read ce => simp only [step, h]; exact ⟨h, rfl, rfl⟩
      | send cmd seq body => simp only [step, h]; exact ⟨h, rfl, rfl⟩
    obtain ⟨h1, h2, h3⟩ := ih _ hx.1
    exact ⟨h1, h2.trans hx.2.1, h3.trans hx.2.2⟩

theorem wire_at (z : Bool) (gb : Bytes → Option Bytes) (e : Env) (t0 : Int) (a b : List Step) {k : Nat} {it : ServerTicks.Item}
    (h : (run z gb e t0 a).srv.tk.wire[k]? = some it) : (run z gb e t0 (a ++ b)).srv.tk.wire[k]? = some it := by
  rw [run_srv, trace_append]
  rw [run_srv] at h
  unfold ServerLife.run at h ⊢
  rw [List.foldl_append]
  obtain ⟨w, hw⟩ := wire_grows_all z gb e (trace z gb e (a.foldl (step z gb e) (start t0)) b) ((trace z gb e (start t0) a).foldl (ServerLife.step z gb e) { tk := { lastUse := t0 } })
  rw [hw, List.getElem?_append_left (List.getElem?_eq_some_iff.1 h).1]
  exact h

/-- Each frame the client has read it has read at some moment, its session being open. -/
theorem read_at (z : Bool) (gb : Bytes → Option Bytes) (e : Env) (t0 : Int) (js : List Step) (k : Nat) (hk : k < (run z gb e t0 js).read) :
    ∃ a ce b it, js = a ++ .read ce :: b ∧ (run z gb e t0 a).read = k ∧ (run z gb e t0 a).up = true ∧ (run z gb e t0 a).srv.tk.wire[k]? = some it := by
  induction js using snoc_induction with
  | nil => exact absurd hk (by simp [run])
  | snoc l x ih =>
    by_cases h : k < (run z gb e t0 l).read
    · obtain ⟨a, ce, b, it, h1, h2⟩ := ih h
      exact ⟨a, ce, b ++ [x], it, by rw [h1]; simp, h2⟩
    · rw [run_snoc] at hk
      cases x with
      | server y => cases y <;> exact absurd hk h
      | arrive n d now => simp only [step] at hk; split at hk <;> exact absurd hk h
      | send cmd seq body => simp only [step] at hk; split at hk <;> exact absurd hk h
      | read ce =>
        simp only [step] at hk
        split at hk
        · rename_i hu
          unfold reads at hk
          cases hr : (run z gb e t0 l).srv.tk.wire[(run z gb e t0 l).read]? with
          | none => rw [hr] at hk; exact absurd hk h
          | some it =>
            have : k = (run z gb e t0 l).read := by
              rw [hr] at hk
              dsimp only at hk
              split at hk <;> (dsimp only at hk; omega)
            subst this
            exact ⟨l, ce, [], it, rfl, rfl, hu, hr⟩
        · exact absurd hk h

/-- What the client makes of the frame it reads. -/
theorem step_read (z : Bool) (gb : Bytes → Option Bytes) (e : Env) {s : State} (hu : s.up = true) {it : ServerTicks.Item}
    (hit : s.srv.tk.wire[s.read]? = some it) (ce : ClientTraffic.Env) : step z gb e s (.read ce) =
      match onTraffic e.proto ce s.cli (pk (frame it)).cmd (pk (frame it)).seq (pk (frame it)).body with
      | none => { s with read := s.read + 1, up := false }
      | some o => { s with read := s.read + 1, up := !o.closed, sent := s.sent ++ o.written.getD [], cli := o.st } := by
  simp only [step, hu, if_true, reads, hit]
  rfl

/-- A termination in the server's stream is one the server makes, byte by byte. -/
theorem termination_bytes (z : Bool) (gb : Bytes → Option Bytes) (e : Env) (h16 : ∀ x, (e.md5 x).length = 16) (t0 : Int) (steps : List ServerLife.Step)
    (it : ServerTicks.Item) (hit : it ∈ (ServerLife.run z gb e t0 steps).tk.wire) (hc : Spec.ServerTraffic.command (frame it) = be32 (terminateCmd e.proto)) :
    ∃ seq s3, frame it = Spec.ServerTicks.termination e.proto seq s3 := by
  obtain ⟨ts, c, hts, _⟩ := ServerLife.life_inv z gb e t0 steps
  rw [hts] at hit
  cases it with
  | own f x =>
    obtain ⟨lu, t, o, h⟩ := ServerTicks.own_on_wire gb e t0 ts hit
    have hx := (ServerTicks.own_command h).2.2.2.2 hc
    subst hx
    cases h with
    | terminate => exact ⟨_, _, rfl⟩
  | reply x =>
    exfalso
    have hs := ServerTicks.sim_run gb e t0 ts
    have hx : x ∈ (ServerTraffic.run e (ServerTicks.answering gb e t0 ts)).wire := by
      rw [← hs.2, hs.1.wire]; exact List.mem_filterMap.2 ⟨_, hit, rfl⟩
    obtain ⟨r, hr, hg, hE⟩ := ServerTraffic.wire_entry h16 (ServerTraffic.inv_run_all e _) hx
    have k1 : ∀ p, (terminateCmd p).toNat ≤ 8 ∧ terminateCmd p ≠ Spec.ServerTraffic.deliverCmd p := by intro p; cases p <;> decide
    obtain ⟨k2, k3⟩ := k1 e.proto
    have hc : Spec.ServerTraffic.command x.2.1 = be32 (terminateCmd e.proto) := hc
    by_cases hrpt : x.2.2 = .rpt
    · have := (ServerTraffic.entry_report hE hrpt).1
      rw [hc] at this
      exact k3 (be32_inj this)
    · have := (ServerTraffic.entry_answer hg hE hrpt).1
      rw [hc] at this
      exact ServerTicks.small_ne k2 this

theorem client_terminated (p : Proto) (ce : ClientTraffic.Env) (hid : ce.nextId.length = 10) (s : Client.State) (seq : UInt32) (s3 : UInt32 × UInt32 × UInt32) :
    ∃ st, onTraffic p ce s (pk (Spec.ServerTicks.termination p seq s3)).cmd (pk (Spec.ServerTicks.termination p seq s3)).seq (pk (Spec.ServerTicks.termination p seq s3)).body =
      some ⟨if ce.ok then some (confirmation p (Spec.ServerTicks.termination p seq s3)) else none, true, st⟩ := by
  cases p with
  | cmpp =>
    have hr : Spec.ServerTicks.termination .cmpp seq s3 = raw ⟨2, seq, []⟩ := (List.append_nil _).symm
    have hc : confirmation .cmpp (raw ⟨2, seq, []⟩) = Spec.header12 (UInt32.ofNat (12 + ([] : Bytes).length)) (responseOf 2) seq ++ [] := by
      simp [confirmation, raw, Spec.header12, terminateCmd, List.drop_append]
    rw [hr, pk_raw, hc, ClientTraffic.onTraffic_eq ce s _ _ _ _ hid]
    refine ⟨s, ?_⟩
    show ClientTraffic.expectK .cmpp .terminate ce s 2 seq [] = _
    unfold ClientTraffic.expectK
    rw [if_pos ⟨trivial, fun h => nomatch h⟩]
    have hu : ¬ Spec.ClientTraffic.Undecodable ce.gbDec .cmpp .terminate [] := fun u => nomatch u.1
    simp [hu, Spec.ClientTraffic.answerTo, Spec.ClientTraffic.effect]
  | smgp =>
    have hr : Spec.ServerTicks.termination .smgp seq s3 = raw ⟨6, seq, []⟩ := (List.append_nil _).symm
    have hc : confirmation .smgp (raw ⟨6, seq, []⟩) = Spec.header12 (UInt32.ofNat (12 + ([] : Bytes).length)) (responseOf 6) seq ++ [] := by
      simp [confirmation, raw, Spec.header12, terminateCmd, List.drop_append]
    rw [hr, pk_raw, hc, ClientTraffic.onTraffic_eq ce s _ _ _ _ hid]
    refine ⟨s, ?_⟩
    show ClientTraffic.expectK .smgp .terminate ce s 6 seq [] = _
    unfold ClientTraffic.expectK
    rw [if_pos ⟨trivial, fun h => nomatch h⟩]
    have hu : ¬ Spec.ClientTraffic.Undecodable ce.gbDec .smgp .terminate [] := fun u => nomatch u.2.1
    simp [hu, Spec.ClientTraffic.answerTo, Spec.ClientTraffic.effect]
  | sgip =>
    obtain ⟨x, y, w⟩ := s3
    have hr : Spec.ServerTicks.termination .sgip seq (x, y, w) = raw ⟨2, x, be32 y ++ be32 w⟩ := by
      simp [Spec.ServerTicks.termination, raw, Spec.header12, Spec.header20]
    have hc : confirmation .sgip (raw ⟨2, x, be32 y ++ be32 w⟩) =
        Spec.header12 (UInt32.ofNat (12 + ((be32 y ++ be32 w).take 8).length)) (responseOf 2) x ++ (be32 y ++ be32 w).take 8 := by
      rw [List.take_of_length_le (l := be32 y ++ be32 w) (by simp)]
      have hd : (be32 20).drop 8 = [] := by decide
      simp [confirmation, raw, Spec.header12, terminateCmd, List.drop_append, hd]
    rw [hr, pk_raw, hc, ClientTraffic.onTraffic_eq ce s _ _ _ _ hid]
    refine ⟨s, ?_⟩
    show ClientTraffic.expectK .sgip .terminate ce s 2 x (be32 y ++ be32 w) = _
    unfold ClientTraffic.expectK
    rw [if_pos ⟨by simp [Spec.ClientTraffic.BodyComplete], fun h => nomatch h⟩]
    have hu : ¬ Spec.ClientTraffic.Undecodable ce.gbDec .sgip .terminate (be32 y ++ be32 w) := fun u => nomatch u.1
    simp [hu, Spec.ClientTraffic.answerTo, Spec.ClientTraffic.effect]

/-- **C147: once the client has read the server's termination the session is over at both ends**: the server has asked for the connection to be closed; the
client has written the confirmation (if writing worked), closed its session, and reads and writes nothing more. For every history and all three protocols. -/
theorem termination_ends_session (z : Bool) (gb : Bytes → Option Bytes) (e : Env) (h16 : ∀ x, (e.md5 x).length = 16) (t0 : Int) (js : List Step)
    (hid : ∀ ce, Step.read ce ∈ js → ce.nextId.length = 10)
    (k : Nat) (f : Bytes) (hf : (written (run z gb e t0 js).srv)[k]? = some f) (hcmd : Spec.ServerTraffic.command f = be32 (terminateCmd e.proto)) :
    closeAsked (run z gb e t0 js) = true ∧
    (k < (run z gb e t0 js).read → (run z gb e t0 js).up = false ∧ (run z gb e t0 js).read = k + 1 ∧
      ∃ a ce b, js = a ++ .read ce :: b ∧ (run z gb e t0 a).up = true ∧
        (run z gb e t0 js).sent = (run z gb e t0 a).sent ++ if ce.ok then confirmation e.proto f else []) := by
  constructor
  · have hm := List.mem_of_getElem? hf
    rw [run_srv] at hm
    obtain ⟨ts, c, hts, _⟩ := ServerLife.life_inv z gb e t0 (trace z gb e (start t0) js)
    rw [ServerLife.written_eq, hts] at hm
    have := ServerTicks.termination_written_closes gb e h16 t0 ts f hm hcmd
    unfold closeAsked
    rw [run_srv, hts, this]
    rfl
  · intro hk
    obtain ⟨a, ce, b, it, hab, hr, hu, hit⟩ := read_at z gb e t0 js k hk
    have hit' := wire_at z gb e t0 a (.read ce :: b) hit
    rw [← hab] at hit'
    have hfr : frame it = f := by
      rw [written_wire, List.getElem?_map, hit'] at hf
      exact Option.some.inj hf
    have hmem : it ∈ (ServerLife.run z gb e t0 (trace z gb e (start t0) a)).tk.wire := by rw [← run_srv]; exact List.mem_of_getElem? hit
    obtain ⟨seq, s3, hterm⟩ := termination_bytes z gb e h16 t0 _ it hmem (by rw [hfr]; exact hcmd)
    obtain ⟨st, ho⟩ := client_terminated e.proto ce (hid ce (by rw [hab]; simp)) (run z gb e t0 a).cli seq s3
    rw [← hterm] at ho
    have hst := step_read z gb e hu (by rw [hr]; exact hit) ce
    rw [ho] at hst
    dsimp only at hst
    have hrun : run z gb e t0 js = b.foldl (step z gb e) (step z gb e (run z gb e t0 a) (.read ce)) := by
      rw [hab, run_split]; rfl
    obtain ⟨o1, o2, o3⟩ := over_stays z gb e b (step z gb e (run z gb e t0 a) (.read ce)) (by rw [hst]; rfl)
    rw [← hrun] at o1 o2 o3
    refine ⟨o1, by rw [o3, hst]; dsimp only; rw [hr], a, ce, b, hab, hu, ?_⟩
    rw [o2, hst, ← hfr]
    dsimp only
    split <;> rfl

/-- **C147: the same if the client ended the session**: once the server's confirmation is written the server has asked for the connection to be closed, and once
the client has read it the client reads and writes nothing more. -/
theorem confirmation_ends_session (z : Bool) (gb : Bytes → Option Bytes) (e : Env) (h16 : ∀ x, (e.md5 x).length = 16) (t0 : Int) (js : List Step)
    (hid : ∀ ce, Step.read ce ∈ js → ce.nextId.length = 10)
    (k : Nat) (f : Bytes) (hf : (written (run z gb e t0 js).srv)[k]? = some f) (hcmd : Spec.ServerTraffic.command f = be32 (responseOf (terminateCmd e.proto))) :
    closeAsked (run z gb e t0 js) = true ∧
    (k < (run z gb e t0 js).read → (run z gb e t0 js).up = false ∧ (run z gb e t0 js).read = k + 1 ∧
      ∃ a ce b, js = a ++ .read ce :: b ∧ (run z gb e t0 a).up = true ∧ (run z gb e t0 js).sent = (run z gb e t0 a).sent) := by
  constructor
  · have hm := List.mem_of_getElem? hf
    rw [run_srv] at hm
    obtain ⟨ts, c, hts, _⟩ := ServerLife.life_inv z gb e t0 (trace z gb e (start t0) js)
    rw [ServerLife.written_eq, hts] at hm
    unfold closeAsked
    rw [run_srv, hts]
    rcases ServerTicks.frame_cases hm with hm | ⟨x, hx⟩
    · have hs := (ServerTicks.sim_run gb e t0 ts).2
      rw [hs] at hm ⊢
      rw [ServerTraffic.termination_closes e h16 _ f hm hcmd, Bool.or_true]
    · obtain ⟨lu, t, o, h⟩ := ServerTicks.own_on_wire gb e t0 ts hx
      exact absurd hcmd ((ServerTicks.own_command h).1 _)
  · intro hk
    obtain ⟨a, ce, b, it, hab, hr, hu, hit⟩ := read_at z gb e t0 js k hk
    have hit' := wire_at z gb e t0 a (.read ce :: b) hit
    rw [← hab] at hit'
    have hfr : frame it = f := by
      rw [written_wire, List.getElem?_map, hit'] at hf
      exact Option.some.inj hf
    have hst := step_read z gb e hu (by rw [hr]; exact hit) ce
    have hc : (pk (frame it)).cmd = responseOf (terminateCmd e.proto) := by
      show rd32 (Spec.ServerTraffic.command (frame it)) = _
      rw [hfr, hcmd, rd32_be32]
    have hnew : (step z gb e (run z gb e t0 a) (.read ce)).up = false ∧ (step z gb e (run z gb e t0 a) (.read ce)).sent = (run z gb e t0 a).sent ∧
        (step z gb e (run z gb e t0 a) (.read ce)).read = k + 1 := by
      rw [hst, hc, ClientTraffic.onTraffic_eq ce _ _ _ _ _ (hid ce (by rw [hab]; simp))]
      have hkind : Spec.ClientTraffic.kind e.proto (responseOf (terminateCmd e.proto)) = some .terminateResp := by
        cases e.proto <;> rfl
      rw [hkind]
      dsimp only
      unfold ClientTraffic.expectK
      split
      · rename_i hsome
        rw [← hr]
        split at hsome
        · cases hsome
        · exact ⟨rfl, rfl, rfl⟩
      · rename_i o hsome
        split at hsome
        · have hn : Spec.ClientTraffic.answerTo (Cmpp.v3 ce.ver) ce.nextId e.proto .terminateResp (responseOf (terminateCmd e.proto)) (pk (frame it)).seq (pk (frame it)).body = none := by
            cases e.proto <;> rfl
          obtain rfl := (Option.some.inj hsome).symm
          refine ⟨by simp, ?_, by rw [← hr]⟩
          dsimp only
          rw [hn]
          simp
        · cases hsome
    have hrun : run z gb e t0 js = b.foldl (step z gb e) (step z gb e (run z gb e t0 a) (.read ce)) := by
      rw [hab, run_split]; rfl
    obtain ⟨o1, o2, o3⟩ := over_stays z gb e b _ hnew.1
    rw [← hrun] at o1 o2 o3
    exact ⟨o1, o3.trans hnew.2.2, a, ce, b, hab, hu, o2.trans hnew.2.1⟩

theorem kind_terminate {p : Proto} {c : UInt32} (h : Spec.ClientTraffic.kind p c = some .terminate) : c = terminateCmd p := by
  unfold Spec.ClientTraffic.kind at h
  split at h <;> first | (cases h; done) | rfl

theorem kind_terminateResp {p : Proto} {c : UInt32} (h : Spec.ClientTraffic.kind p c = some .terminateResp) : c = responseOf (terminateCmd p) := by
  unfold Spec.ClientTraffic.kind at h
  split at h <;> first | (cases h; done) | rfl

/-- **C147: the client ends a session for no other reason than that** it has read a termination or a confirmation, could not write an answer, got a text that cannot be
decoded, or ended its process (C73). -/
theorem session_given_up_only (z : Bool) (gb : Bytes → Option Bytes) (e : Env) (h16 : ∀ x, (e.md5 x).length = 16) (t0 : Int) (js : List Step)
    (hid : ∀ ce, Step.read ce ∈ js → ce.nextId.length = 10) (hup : (run z gb e t0 js).up = false) :
    ∃ a ce b f, js = a ++ .read ce :: b ∧ (run z gb e t0 a).up = true ∧ (written (run z gb e t0 a).srv)[(run z gb e t0 a).read]? = some f ∧ GivesUp e.proto ce f := by
  induction js using snoc_induction with
  | nil => cases hup
  | snoc l x ih =>
    cases hu : (run z gb e t0 l).up with
    | false =>
      obtain ⟨a, ce, b, f, h1, h2⟩ := ih (fun ce h => hid ce (List.mem_append_left _ h)) hu
      exact ⟨a, ce, b ++ [x], f, by rw [h1]; simp, h2⟩
    | true =>
      rw [run_snoc] at hup
      cases x with
      | server y => cases y <;> (rw [show (step z gb e (run z gb e t0 l) _).up = (run z gb e t0 l).up from rfl, hu] at hup; cases hup)
      | arrive n d now => simp only [step] at hup; split at hup <;> (simp only [hu] at hup; cases hup)
      | send cmd seq body => simp only [step] at hup; split at hup <;> (simp only [hu] at hup; cases hup)
      | read ce =>
        cases hr : (run z gb e t0 l).srv.tk.wire[(run z gb e t0 l).read]? with
        | none =>
          simp only [step, hu, if_true, reads, hr] at hup
          cases hup
        | some it =>
          refine ⟨l, ce, [], frame it, rfl, hu, by rw [written_wire, List.getElem?_map, hr]; rfl, ?_⟩
          rw [step_read z gb e hu hr ce, ClientTraffic.onTraffic_eq ce _ _ _ _ _ (hid ce (by simp))] at hup
          have hcm : (pk (frame it)).cmd = rd32 (Spec.ServerTraffic.command (frame it)) := rfl
          have hbe : be32 (rd32 (Spec.ServerTraffic.command (frame it))) = Spec.ServerTraffic.command (frame it) := by
            obtain ⟨c, hc⟩ := frame_command z gb e h16 t0 (trace z gb e (start t0) l) it (by rw [← run_srv]; exact List.mem_of_getElem? hr)
            rw [hc, rd32_be32]
          cases hk : Spec.ClientTraffic.kind e.proto (pk (frame it)).cmd with
          | none => rw [hk] at hup; cases hup
          | some k =>
            rw [hk] at hup
            dsimp only at hup
            unfold ClientTraffic.expectK at hup
            by_cases hcomp : Spec.ClientTraffic.BodyComplete (Cmpp.v3 ce.ver) (pk (frame it)).body e.proto k ∧
                (k = .loginResp → Spec.ClientTraffic.LoginOk (Cmpp.v3 ce.ver) (pk (frame it)).body e.proto)
            · rw [if_pos hcomp] at hup
              simp only [Bool.not_eq_eq_eq_not, Bool.not_false, decide_eq_true_eq] at hup
              rcases hup with rfl | rfl | hU | ⟨_, hok⟩
              · left
                rw [← hbe, ← hcm]
                rw [kind_terminate hk]
              · right; left
                rw [← hbe, ← hcm]
                rw [kind_terminateResp hk]
              · exact .inr (.inr (.inr ⟨k, hk, .inl hU⟩))
              · exact .inr (.inr (.inl hok))
            · right; right; right
              refine ⟨k, hk, .inr ?_⟩
              by_cases hb : Spec.ClientTraffic.BodyComplete (Cmpp.v3 ce.ver) (pk (frame it)).body e.proto k
              · right
                by_cases hl : k = .loginResp
                · exact ⟨hl, fun h => hcomp ⟨hb, fun _ => h⟩⟩
                · exact absurd ⟨hb, fun h => absurd h hl⟩ hcomp
              · exact .inl hb

/-! ## Sessions that are ended -/

/-- An SGIP client has nothing to send until the server ends the session; it reads the termination. -/
def endedByServer : List Step :=
  [.send ServerLife.bindQ.cmd ServerLife.bindQ.seq ServerLife.bindQ.body, .arrive 1000 SubmitExchange.demoDraw 0, .server (.run 0 1), .server (.run 0 1),
   .server (.loop 1), .read {}, .server (.tick { now := sec 301, force := sec 300 }), .server (.task 0 { now := sec 301, seq3 := (7, 8, 9) }),
   .server (.loop (sec 301)), .read {}, .send 3 2 []]

/-- A CMPP client logs in and then ends the session. -/
def endedByClient : List Step :=
  [.send ServerLife.loginQ.cmd ServerLife.loginQ.seq ServerLife.loginQ.body, .arrive 1000 ServerTraffic.demoDraw 0, .server (.run 0 1), .server (.run 0 1),
   .server (.loop 1), .read demoCe, .send 2 2 [], .arrive 1000 ServerTraffic.demoDraw (sec 1), .server (.run 0 (sec 1)), .server (.run 0 (sec 1)),
   .server (.loop (sec 1)), .read demoCe]

set_option maxRecDepth 20000 in
/-- The hypotheses of the theorems hold of them. -/
example :
    (written (run true some SubmitExchange.demoEnv 0 endedByServer).srv)[1]? = some (Spec.header20 20 2 7 8 9) ∧
    (run true some SubmitExchange.demoEnv 0 endedByServer).read = 2 ∧ (run true some SubmitExchange.demoEnv 0 endedByServer).up = false ∧
    (run true some SubmitExchange.demoEnv 0 endedByServer).sent = raw ServerLife.bindQ ++ Spec.header20 20 0x80000002 7 8 9 ∧
    (written (run true some ServerTraffic.demoEnv 0 endedByClient).srv)[1]? = some (Spec.header12 12 0x80000002 2) ∧
    (run true some ServerTraffic.demoEnv 0 endedByClient).read = 2 ∧ (run true some ServerTraffic.demoEnv 0 endedByClient).up = false := by decide +kernel

end Gosms.Link
