import Verif.Spec.ServerIdle
import Verif.Spec.ServerAlone
import Verif.Model.Link

/-!
# Specification: a connection with both its ends
-/

namespace Gosms.Spec.Link
open Gosms.Link (Step State)
open Gosms.Spec.ServerLife (written)

/-- Everything is quiet: the client's session is open, it has read all that the server has written, all that it has written has arrived, and the server has
read it and has nothing left to do. -/
structure Quiet (s : State) : Prop where
  up : s.up = true
  read : s.read = (written s.srv).length
  arrived : s.gone = s.sent.length
  taken : s.srv.buffer = []
  idle : s.srv.tk.own = [] ∧ s.srv.tk.queue = [] ∧ s.srv.tk.base.tasks = []

/-- The clock at a step, where it matters. -/
def clock : Step → Option Int
  | .server x => some (Gosms.Spec.ServerLife.clock x)
  | .arrive _ _ now => some now
  | _ => none

/-- The clock does not go back. -/
def Ordered (t0 : Int) (steps : List Step) : Prop := (t0 :: steps.filterMap clock).Pairwise (· ≤ ·)

/-- Each tick comes at most `T` after an earlier one, or after the opening of the connection. -/
def TicksWithin (T t0 : Int) (steps : List Step) : Prop :=
  ∀ a d b, steps = a ++ .server (.tick d) :: b → d.now ≤ t0 + T ∨ ∃ a1 d1 a2, a = a1 ++ .server (.tick d1) :: a2 ∧ d.now ≤ d1.now + T

end Gosms.Spec.Link
