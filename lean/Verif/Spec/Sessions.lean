import Verif.Model.Sessions

/-!
# Specification: sessions and logins
-/

namespace Gosms.Spec
open Sessions

/-- The commands the server serves besides logins: submit, heartbeat and its response, response to a delivery,
termination and its response (SGIP: submit, unbind and its response). -/
def serviceCommands : Proto → List UInt32
  | .cmpp => [4, 8, 0x80000008, 0x80000005, 2, 0x80000002]
  | .sgip => [3, 2, 0x80000002]
  | .smgp => [2, 4, 0x80000004, 0x80000003, 6, 0x80000006]

/-- How many open connections are logged in as `client`. -/
def loggedIn (s : State) (client : Bytes) : Nat :=
  (s.live.filter fun n => (s.obj n).stat = .login ∧ (s.obj n).clientId = client).length

/-- How many connections were opened, and how many closed. -/
def openedCount (log : List Ev) : Nat := log.countP fun | .opened _ => true | _ => false
def closedCount (log : List Ev) : Nat := log.countP fun | .closed _ => true | _ => false

/-- Events in which no login is checked while another checked login is not yet complete. -/
inductive Block where
  | «open» (n : Nat)
  | packet (n : Nat) (cmd seq : UInt32) (body : Bytes)
  | login (i : Nat)
  | close (n : Nat)
deriving DecidableEq, Repr

def Block.steps : Block → List Step
  | .open n => [.open n]
  | .packet n cmd seq body => [.packet n cmd seq body]
  | .login i => [.loginCheck i, .loginDone 0]
  | .close n => [.close n]

end Gosms.Spec
