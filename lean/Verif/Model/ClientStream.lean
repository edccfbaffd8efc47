import Verif.Model.ClientReceive
import Verif.Model.ClientTraffic

/-!
# The client's receiver, from the bytes that arrive

Model/ClientReceive.lean and Model/ClientTraffic.lean together: msc_client/session/session.go:104-165. The receiver reads a packet, handles it and goes
on; a packet that closes the session ends it at the next look at the cancel channel (lines 109-112). `between k` is what other goroutines do with the
results after packet number `k - 1` has been handled and before number `k` is; `env k` is what the handling of number `k` depends on. Left out: a session closed
by another goroutine (Model/ClientConc.lean), and the heartbeats of the health check (Model/ClientHeartbeat.lean).
-/

namespace Gosms.ClientStream
open Gosms.ClientReceive (Packet turn)

/-- Why the receiver ended: reading failed, a packet closed the session, or a panic (which ends the process).
msc_client/session/session.go:109-148 -/
inductive End where
  | read (e : ClientReceive.End)
  | closed
  | panic
deriving DecidableEq, Repr

/-- What the receiver leaves: the bytes written, the results, the packets handled, and why it ended (`none`: it has not).
msc_client/session/session.go:104-154 -/
structure Out where
  written : List Bytes := []
  st : Client.State
  handled : List Packet := []
  fin : Option End := none

/-- The loop, for at most `fuel` turns. msc_client/session/session.go:104-165 -/
def receiver (p : Proto) (env : Nat → ClientTraffic.Env) (between : Nat → List Client.Step) :
    Nat → Nat → Client.State → List Bytes → Out
  | 0, _, s, _ => { st := s }
  | fuel + 1, k, s, chunks =>
    match turn chunks with
    | .inl e => { st := s, fin := some (.read e) }
    | .inr (q, rest) =>
      let s := (between k).foldl Client.step s
      match ClientTraffic.onTraffic p (env k) s q.cmd q.seq q.body with
      | none => { st := s, handled := [q], fin := some .panic }
      | some o =>
        if o.closed then { written := o.written.toList, st := o.st, handled := [q], fin := some .closed }
        else
          let r := receiver p env between fuel (k + 1) o.st rest
          { r with written := o.written.toList ++ r.written, handled := q :: r.handled }

end Gosms.ClientStream
