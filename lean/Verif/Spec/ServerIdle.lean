import Verif.Spec.ServerLife

/-!
# Specification: the times at which things happen on a connection
-/

namespace Gosms.Spec.ServerLife

/-- The clock at a step. -/
def clock : Gosms.ServerLife.Step → Int
  | .data _ _ now => now
  | .run _ now => now
  | .drop _ now => now
  | .loop now => now
  | .close now => now
  | .tick d => d.now
  | .task _ d => d.now

/-- The clock does not go back, from the opening of the connection at `t0` on. -/
def Ordered (t0 : Int) (steps : List Gosms.ServerLife.Step) : Prop := (t0 :: steps.map clock).Pairwise (· ≤ ·)

/-- Each tick comes at most `T` after an earlier one, or after the opening of the connection. -/
def TicksWithin (T t0 : Int) (steps : List Gosms.ServerLife.Step) : Prop :=
  ∀ a d b, steps = a ++ .tick d :: b → d.now ≤ t0 + T ∨ ∃ a1 d1 a2, a = a1 ++ .tick d1 :: a2 ∧ d.now ≤ d1.now + T

end Gosms.Spec.ServerLife
