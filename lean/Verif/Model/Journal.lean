import Verif.Model.Client
import Verif.Model.Startup

/-!
# The journal of sent messages

msc_client/api.go:64-79 `PersistenceSmsJournal`: the cleaner of the query cache (Model/Client) hands batches of results to
a handler, which gives each batch to the goroutine pool; the task inserts the batch into a collection of the database.
The pool (msc_client/bootstrap.go:134-151) lets `Submit` wait for a free worker, and refuses only after `Release`, which
a shutdown hook calls. How long a batch waits is not modelled; a task may run at any time after its submission.
-/

namespace Gosms.Journal
open Gosms.Client (Result)

/-- `cl`: the client's results and caches. `tasks`: batches accepted by the pool and not yet inserted. `journal`: the documents
of the collection, each with the index of its result. `released`: `pool.Release` was called. msc_client/api.go:64-79 -/
structure State where
  cl : Client.State := {}
  released : Bool := false
  tasks : List (List Nat) := []
  journal : List (Nat × Result) := []

/-- `client`: a step of the client; `insert j stop`: the task of the `j`-th waiting batch runs, and `InsertMany` stores all of
the batch (`none`) or fails after some of its documents (`some n`); `release`: the shutdown hook. msc_client/api.go:64-79,
msc_client/bootstrap.go:134-151 -/
inductive Step where
  | client (x : Client.Step)
  | insert (j : Nat) (stop : Option Nat)
  | release
deriving DecidableEq, Repr

/-- What `InsertMany` stores of a batch: api.go:72. -/
def stored (batch : List Nat) : Option Nat → List Nat
  | none => batch
  | some n => batch.take n

/-- msc_client/api.go:68-78: the error of `Submit` is dropped, so is the error of `InsertMany`. A document is the result as
it is when it is inserted. -/
def step (s : State) : Step → State
  | .client x =>
    let cl := Client.step s.cl x
    let new := cl.handed.drop s.cl.handed.length
    { s with cl := cl, tasks := if s.released then s.tasks else s.tasks ++ new }
  | .insert j stop =>
    match s.tasks[j]? with
    | none => s
    | some batch =>
      { s with tasks := s.tasks.eraseIdx j,
               journal := s.journal ++ (stored batch stop).filterMap fun i => (s.cl.heap[i]?).map fun r => (i, r) }
  | .release => { s with released := true }

/-- A history of msc_client/api.go:64-79 beside the client. -/
def run (steps : List Step) : State := steps.foldl step {}

/-- msc_client/api.go:65-66: `InitDB` and `Collection`, which uses the variable Mongo without looking (mongo.go:33-35). `none` is
a panic. -/
def start (c : Startup.Config) (db : Startup.Db) : Option Unit :=
  match Startup.initDB c (ascii "Mongo") db with
  | some (true, _) => some ()
  | _ => none

end Gosms.Journal
