import Verif.Spec.ServerTraffic
import Verif.Model.Farm

/-!
# Specification: message ids over all connections (C127)
-/

namespace Gosms.Spec.Farm
open Gosms.Spec.ServerTraffic
open Gosms.ServerTraffic (Env Draw)

/-- The length of a message id. SGIP has none: a message is known by the sequence number the client chose. -/
def idLength : Proto → Nat | .cmpp => 8 | .smgp => 10 | .sgip => 0

/-- A submit response that says the message was accepted: after the id the result, one byte or four, is 0. -/
def accepting (p : Proto) (f : Bytes) : Bool :=
  p != .sgip && command f == be32 (Spec.responseOf (submitCmd p)) && (f.drop (12 + idLength p)).all (· == 0)

/-- The message ids given to the client with the frames. -/
def given (p : Proto) (fs : List Bytes) : List Bytes :=
  (fs.filter (accepting p)).map fun f => (f.drop 12).take (idLength p)

/-- The submit was neither over the limit nor refused. -/
def takes (d : Draw) : Bool := d.allow && !d.fail

/-- The ids the accepted CMPP submits of all connections got from `B64Seq`, and the SMGP ones from `BcdSeq`. -/
def cmppIds (envs : Nat → Env) (steps : List (Nat × ServerTicks.Step)) : List UInt64 :=
  steps.filterMap fun
    | (i, .base (.packet cmd _ _ d) _) => if (envs i).proto = .cmpp ∧ cmd = 4 ∧ takes d then some d.id else none
    | _ => none
def smgpIds (envs : Nat → Env) (steps : List (Nat × ServerTicks.Step)) : List Bytes :=
  steps.filterMap fun
    | (i, .base (.packet cmd _ _ d) _) => if (envs i).proto = .smgp ∧ cmd = 2 ∧ takes d then some d.bcd else none
    | _ => none

/-- What happened on connection `i`. -/
def mine (i : Nat) (steps : List (Nat × ServerTicks.Step)) : List ServerTicks.Step :=
  steps.filterMap fun x => if x.1 = i then some x.2 else none

end Gosms.Spec.Farm
