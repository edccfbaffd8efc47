import Verif.Spec.Link
import Verif.Spec.ClientTraffic

/-!
# Specification: a session that is ended
-/

namespace Gosms.Spec.Link
open Gosms.Link (State)

/-- The confirmation of a termination: the same packet with the response's command. -/
def confirmation (p : Proto) (f : Bytes) : Bytes := f.take 4 ++ be32 (responseOf (Gosms.Spec.ServerTraffic.terminateCmd p)) ++ f.drop 8

/-- The server has asked for the connection to be closed. -/
def closeAsked (s : State) : Bool := s.srv.tk.closing || s.srv.tk.base.closing

/-- Why the client gives a session up when it has read the frame `f`: it is a termination or the confirmation of one; the answer to it cannot be written; it is a
text that cannot be decoded; or it ends the client's process, being a refused login or too short. -/
def GivesUp (p : Proto) (ce : Gosms.ClientTraffic.Env) (f : Bytes) : Prop :=
  Gosms.Spec.ServerTraffic.command f = be32 (Gosms.Spec.ServerTraffic.terminateCmd p) ∨
  Gosms.Spec.ServerTraffic.command f = be32 (responseOf (Gosms.Spec.ServerTraffic.terminateCmd p)) ∨
  ce.ok = false ∨
  ∃ k, Gosms.Spec.ClientTraffic.kind p (rd32 (Gosms.Spec.ServerTraffic.command f)) = some k ∧
    (Gosms.Spec.ClientTraffic.Undecodable ce.gbDec p k (f.drop 12) ∨
      ¬ Gosms.Spec.ClientTraffic.BodyComplete (Cmpp.v3 ce.ver) (f.drop 12) p k ∨
      k = .loginResp ∧ ¬ Gosms.Spec.ClientTraffic.LoginOk (Cmpp.v3 ce.ver) (f.drop 12) p)

end Gosms.Spec.Link
