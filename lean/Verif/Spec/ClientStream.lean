import Verif.Spec.ClientTraffic
import Verif.Model.ClientStream

/-!
# Specification: what the client makes of a stream of packets
-/

namespace Gosms.Spec.ClientStream
open Gosms.Spec.ClientTraffic
open Gosms.ClientReceive (Packet)
open Gosms.ClientTraffic (Env)

/-- A packet that is handled without closing the session: its body is complete, it is neither a termination nor the answer to one, nor a login response
that says no, nor a text that cannot be decoded, and writing works. Packets of kinds the client does not know are among them. -/
def Plain (p : Proto) (e : Env) (q : Packet) : Prop :=
  e.nextId.length = 10 ∧ e.ok = true ∧ ∀ k, kind p q.cmd = some k →
    BodyComplete (Gosms.Cmpp.v3 e.ver) q.body p k ∧ (k = .loginResp → LoginOk (Gosms.Cmpp.v3 e.ver) q.body p) ∧
    k ≠ .terminate ∧ k ≠ .terminateResp ∧ ¬ Undecodable e.gbDec p k q.body

/-- The answer to a packet, if it asks for one. -/
def reply (p : Proto) (e : Env) (q : Packet) : Option Bytes :=
  (kind p q.cmd).bind fun k => answerTo (Gosms.Cmpp.v3 e.ver) e.nextId p k q.cmd q.seq q.body

/-- What it tells about a message sent, if anything. -/
def news (p : Proto) (e : Env) (q : Packet) : Option Client.Step :=
  (kind p q.cmd).bind fun k => effect (Gosms.Cmpp.v3 e.ver) p k q.seq q.body e.now

/-- The answers to packets, from number `k` on. -/
def replies (p : Proto) (env : Nat → Env) : Nat → List Packet → List Bytes
  | _, [] => []
  | k, q :: qs => (reply p (env k) q).toList ++ replies p env (k + 1) qs

/-- What happens to the results while they are handled: the other goroutines' steps and the packets' news, in order. -/
def story (p : Proto) (env : Nat → Env) (between : Nat → List Client.Step) : Nat → List Packet → List Client.Step
  | _, [] => []
  | k, q :: qs => between k ++ (news p (env k) q).toList ++ story p env between (k + 1) qs

/-- All of them are handled without closing the session. -/
def AllPlain (p : Proto) (env : Nat → Env) : Nat → List Packet → Prop
  | _, [] => True
  | k, q :: qs => Plain p (env k) q ∧ AllPlain p env (k + 1) qs

end Gosms.Spec.ClientStream
