import Verif.Model.Auth

/-!
# Looking accounts up while the database is read

auth/mongo_store.go:20-49 with the goroutine of auth/client_store.go:52-68: `Load` takes the store's mutex after the query was sent and keeps it
while it reads the records from the database one by one; `FindByCid` takes the same mutex. Model/Reload.lean has a load of the database as one
step; here every record is one, and the goroutines that look accounts up come in between.

From the documentation of sync: `Lock` waits while the mutex is held; who gets a free mutex is not specified. Of the database driver it is assumed that
`Next` gives a record or ends, and that it ends at once when the time of its context is over. `Find` and `Next` take any time.

Simplified: a lookup that has the mutex reads the map and gives the mutex back in one step (it waits for nothing in between).
-/

namespace Gosms.AuthLock
open Gosms.Auth

/-- Where the goroutine of auth/client_store.go:62-66 is. `deadline`: when the time of the context is over (auth/mongo_store.go:22-23). -/
inductive Loader where
  | idle                       -- waits for the ticker
  | finding (deadline : Int)   -- auth/mongo_store.go:26
  | locking (deadline : Int)   -- auth/mongo_store.go:32
  | reading (deadline : Int)   -- has the mutex, auth/mongo_store.go:34-41
deriving DecidableEq, Repr

/-- A goroutine that calls `FindByCid`. auth/mongo_store.go:44-49 -/
inductive Looker where
  | idle
  | waiting (isp cid : Bytes)  -- auth/mongo_store.go:45
  | got (c : Option Client)    -- returned
deriving DecidableEq, Repr

/-- The map of auth/client_store.go:25-29, the time, and where the goroutines are. The mutex is held exactly while the loader is at `reading`. -/
structure State where
  cache : Cache := fun _ => none
  now : Int := 0
  loader : Loader := .idle
  lookers : Nat → Looker := fun _ => .idle

/-- The steps of auth/mongo_store.go:20-49. -/
inductive Step where
  | pass (t : Int)                    -- time goes by, to `t`
  | tick                              -- the ticker fires: auth/client_store.go:63-65, auth/mongo_store.go:21-25
  | found (ok : Bool)                 -- `Find` returns, auth/mongo_store.go:26-30
  | lock                              -- auth/mongo_store.go:32
  | next (r : Option (Option Client)) -- `Next` returns, auth/mongo_store.go:34-41: the end, or a record (`none`: it does not decode)
  | ask (i : Nat) (isp cid : Bytes)   -- goroutine `i` calls `FindByCid`
  | take (i : Nat)                    -- it gets the mutex, if that is free, and returns
deriving DecidableEq, Repr

/-- Goroutine `i` is now at `x`. auth/mongo_store.go:44-49 -/
def State.put (s : State) (i : Nat) (x : Looker) : State := { s with lookers := fun j => if j = i then x else s.lookers j }

/-- auth/mongo_store.go:20-49. `rod` is `Mongo.ReadTimeout`. A step that is not next does nothing. -/
def step (uni : Bytes → Bytes) (rod : Int) (s : State) : Step → State
  | .pass t => if s.now ≤ t then { s with now := t } else s
  | .tick => match s.loader with
    | .idle => { s with loader := .finding (s.now + rod) }
    | _ => s
  | .found ok => match s.loader with
    | .finding d => if ok ∧ s.now < d then { s with loader := .locking d } else { s with loader := .idle }
    | _ => s
  | .lock => match s.loader with
    | .locking d => { s with loader := .reading d }
    | _ => s
  | .next r => match s.loader with
    | .reading d =>
      if s.now < d then
        match r with
        | some (some c) => { s with cache := s.cache.set (c.isp ++ ascii "_" ++ c.clientId) c }
        | some none => { s with loader := .idle }
        | none => { s with loader := .idle }
      else { s with loader := .idle }
    | _ => s
  | .ask i isp cid => match s.lookers i with
    | .waiting _ _ => s
    | _ => s.put i (.waiting isp cid)
  | .take i => match s.lookers i, s.loader with
    | .waiting _ _, .reading _ => s
    | .waiting isp cid, _ => s.put i (.got (findByCid uni s.cache isp cid))
    | _, _ => s

/-- A history of auth/mongo_store.go:20-49, the store loaded with `m` before (auth/client_store.go:46). -/
def run (uni : Bytes → Bytes) (rod : Int) (m : Cache) (steps : List Step) : State := steps.foldl (step uni rod) { cache := m }

end Gosms.AuthLock
