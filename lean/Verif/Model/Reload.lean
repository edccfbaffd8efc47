import Verif.Model.Auth

/-!
# Reloading the accounts of a running process

auth/client_store.go:52-68: a goroutine loads the store again at every tick, while event loops and senders look accounts up and an
operator changes the directory. Each access of the map is under its mutex (auth/yaml_store.go:53, 60), so the steps of a reload are:
listing the directory, reading one file, inserting one account; between any two of them the directory can change and lookups can
happen. A lookup changes nothing and is no step: it sees the map as it is (Model/Auth.lean `findByCid`).

`log.Fatalf` ends the process, a panic in the goroutine of the ticker too.
-/

namespace Gosms.Reload
open Gosms.Auth

/-- How the process ended. auth/yaml_store.go:22-25, 43-46, 68 -/
inductive End where
  | fatal  -- log.Fatalf
  | panic
deriving DecidableEq, Repr

/-- The directory, the map of auth/client_store.go:25-29, where the goroutine of auth/client_store.go:52-68 is, and whether the
process has ended. -/
structure State where
  /-- what is in the directory; `none`: it cannot be read -/
  disk : Option (List File) := some []
  cache : Cache := fun _ => none
  /-- the entries listed and not yet looked at, while a reload is under way: name, and whether it was a directory -/
  todo : Option (List (Bytes × Bool)) := none
  /-- key and content of the file just read, not yet inserted -/
  hand : Option (Bytes × Bytes) := none
  ended : Option End := none

/-- Changes of the directory, and the steps of auth/yaml_store.go:13-50 as run by auth/client_store.go:52-68. -/
inductive Step where
  | edit (d : Option (List File))  -- the operator changes the directory
  | list   -- the ticker fires, auth/client_store.go:63: auth/yaml_store.go:22-25
  | read   -- the next entry, auth/yaml_store.go:27-45
  | insert -- auth/yaml_store.go:47, 59-71
deriving DecidableEq, Repr

/-- `ioutil.ReadFile`: fails if there is no plain file of that name. Used at auth/yaml_store.go:43. -/
def readFile (d : Option (List File)) (name : Bytes) : Option Bytes :=
  (d.getD []).findSome? fun f => if f.name = name ∧ f.isDir = false then some f.data else none

/-- One step. A step of the process that is not next does nothing; an ended process does nothing. auth/yaml_store.go:13-50,
59-71 -/
def step (uni : Bytes → Bytes) (parse : Bytes → Option Client) (s : State) (x : Step) : State :=
  match x with
  | .edit d => { s with disk := d }
  | x => if s.ended.isSome then s else match x with
    | .edit _ => s
    | .list => match s.todo with
      | some _ => s
      | none => match s.disk with
        | none => { s with ended := some .fatal }
        | some fs => { s with todo := some (fs.map fun f => (f.name, f.isDir)) }
    | .read => match s.hand, s.todo with
      | none, some [] => { s with todo := none }
      | none, some ((name, isDir) :: rest) =>
        if isDir = true ∨ keyOf name = [] then { s with todo := some rest }
        else match readFile s.disk name with
          | none => { s with ended := some .fatal }
          | some data => { s with todo := some rest, hand := some (toLower uni (keyOf name), data) }
      | _, _ => s
    | .insert => match s.hand with
      | none => s
      | some (key, data) => match unmarshal parse data key s.cache with
        | none => { s with ended := some .panic }
        | some m => { s with cache := m, hand := none }

/-- A history of auth/client_store.go:52-68 beside an operator. -/
def run (uni : Bytes → Bytes) (parse : Bytes → Option Client) (steps : List Step) : State := steps.foldl (step uni parse) {}

/-! ## The database -/

/-- auth/mongo_store.go:20-42 `MongoStore.Load`. The context ends after `readTimeout` (zero if not configured): with none left `Find`
fails. `answer`: what the database gives, `none` if it cannot be reached; the cursor stops when the time is over, so the records are
those read until then. -/
def mongoReload (readTimeout : Int) (m : Cache) (answer : Option (List (Option Client))) : Cache :=
  if readTimeout ≤ 0 then m
  else match answer with
    | none => m
    | some docs => mongoLoad m docs

end Gosms.Reload
