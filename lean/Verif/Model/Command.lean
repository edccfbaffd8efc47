import Verif.Go.Bytes

/-!
# The two commands: pid file and the client's sending loop
-/

namespace Gosms.Command

/-- msc_server/cmd/gosmc.go:38-54 `savePid`: `old` is the file before (`none`: it does not exist), `opens` whether it could be opened.
The file is opened without O_TRUNC and written from its start; `pid` is `fmt.Sprintf("%d", os.Getpid())`. Writing to a file that could
not be opened fails without effect. -/
def savePid (old : Option Bytes) (opens : Bool) (pid : Bytes) : Option Bytes :=
  if opens then some (pid ++ (old.getD []).drop pid.length) else old

/-! msc_client/cmd/client.go:29-44: the goroutine that sends. Go 1.18 (go.mod): each execution of the inner `for` statement has one variable `s`
that all closures created in it share. -/

/-- `P` is the type of telephone numbers. msc_client/cmd/client.go:29-44 -/
structure State (P : Type) where
  /-- `i`, line 30 -/
  rounds : Nat
  /-- what the inner loop has still to go through -/
  rest : List P := []
  /-- the variables `s`, one for each execution of the inner loop, the newest first -/
  cells : List (Option P) := []
  /-- `s` has been assigned and `Submit` not yet called -/
  assigned : Bool := false
  /-- the tasks submitted and not yet run: which variable each of them reads, counted from the oldest -/
  tasks : List Nat := []
  /-- the numbers messages were sent to -/
  sent : List P := []

/-- The loop goes on, or a task of the pool runs: msc_client/cmd/client.go:29-44. -/
inductive Step where
  | loop              -- the loop goes on
  | task (j : Nat)    -- the j-th waiting task runs
deriving DecidableEq, Repr

/-- client.go:32-43: the loop goes on. `Submit` (ants pool, blocking, `cap` goroutines) waits while all goroutines are busy. -/
def onLoop {P : Type} (arr : List P) (cap : Nat) (s : State P) : State P :=
  if s.assigned then
    if s.tasks.length < cap then { s with assigned := false, tasks := s.tasks ++ [s.cells.length - 1] } else s
  else match s.rest with
    | p :: rest => { s with rest := rest, cells := some p :: s.cells.tail, assigned := true }
    | [] => match s.rounds with
      | 0 => s
      | n + 1 => { s with rounds := n, rest := arr, cells := none :: s.cells }

/-- client.go:35: a task reads its variable and sends. -/
def onTask {P : Type} (s : State P) (j : Nat) : State P :=
  match s.tasks[j]? with
  | none => s
  | some v =>
    match s.cells.reverse[v]? with
    | some (some p) => { s with tasks := s.tasks.eraseIdx j, sent := s.sent ++ [p] }
    | _ => { s with tasks := s.tasks.eraseIdx j }

/-- msc_client/cmd/client.go:29-44 -/
def step {P : Type} (arr : List P) (cap : Nat) (s : State P) : Step → State P
  | .loop => onLoop arr cap s
  | .task j => onTask s j

/-- A schedule of msc_client/cmd/client.go:29-44 and of the tasks it submits. -/
def run {P : Type} (arr : List P) (cap iterates : Nat) (steps : List Step) : State P :=
  steps.foldl (step arr cap) { rounds := iterates }

/-- The loop has ended and all tasks have run. msc_client/cmd/client.go:32-44 -/
def Finished {P : Type} (s : State P) : Prop := s.rounds = 0 ∧ s.rest = [] ∧ s.assigned = false ∧ s.tasks = []

end Gosms.Command
