import Verif.Model.IdLock

/-!
# What a generator used by several goroutines must look like (C117)
-/

namespace Gosms.Spec.IdLock
open Gosms.IdLock (Ev)

variable {R : Type}

/-- The values in the order in which they were taken from the generator. -/
def taken (log : List (Ev R)) : List R := log.filterMap fun | .take _ r => some r | _ => none

/-- The values the callers got, in the order in which they got them. -/
def returned (log : List (Ev R)) : List R := log.filterMap fun | .ret _ r => some r | _ => none

def who : Ev R → Nat
  | .call i => i
  | .take i _ => i
  | .ret i _ => i

/-- What goroutine `i` sees. -/
def of (i : Nat) (log : List (Ev R)) : List (Ev R) := log.filter fun e => who e == i

/-- Finished calls of one caller, one after the other: a call, then one value taken, then this value returned. -/
inductive Whole (i : Nat) : List (Ev R) → Prop
  | nil : Whole i []
  | more (l : List (Ev R)) (r : R) : Whole i l → Whole i (l ++ [.call i, .take i r, .ret i r])

/-- What one caller sees: finished calls, and perhaps one that is not finished. -/
def Calls (i : Nat) (l : List (Ev R)) : Prop :=
  ∃ w, Whole i w ∧ (l = w ∨ l = w ++ [.call i] ∨ ∃ r, l = w ++ [.call i, .take i r])

end Gosms.Spec.IdLock
