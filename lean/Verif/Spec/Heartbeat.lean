import Verif.Model.Heartbeat

/-!
# Specification: heartbeats in a row without an answer, and the last activity
-/

namespace Gosms.Spec
open Heartbeat

/-- Heartbeats since the last answer, reading the history from its start. -/
def unansweredFrom (n : Nat) : List Ev → Nat
  | [] => n
  | .beat _ :: l => unansweredFrom (n + 1) l
  | .answer _ :: l => unansweredFrom 0 l
  | _ :: l => unansweredFrom n l

def unanswered (log : List Ev) : Nat := unansweredFrom 0 log

/-- Time of the last activity of the peer: an answer, other traffic or a login. -/
def lastActivity (t0 : Int) : List Ev → Int
  | [] => t0
  | .answer t :: l => lastActivity t l
  | .use t :: l => lastActivity t l
  | _ :: l => lastActivity t0 l

end Gosms.Spec
