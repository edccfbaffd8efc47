import Verif.Go.Bytes

/-!
# The event manager

Model of event_manager/event_manage.go. `E` is the type of event functions, which are opaque: running one
is recorded by listing it. (A registered function that itself calls the event manager is outside the
model.) The package-level `sync.Map` is an association list; its methods are single atomic steps.
-/

namespace Gosms.Events

/-- event_manager/event_manage.go:20 `sMap`. The stored closure calls the functions of the list, each
once, in order, without arguments (lines 67-71), so the list stands for it. -/
abbrev Registry (E : Type) := List (Bytes × List E)

/-- `sync.Map.Load`. Used at event_manager/event_manage.go:84. -/
def load {E : Type} (m : Registry E) (k : Bytes) : Option (List E) :=
  (m.find? fun p => p.1 = k).map Prod.snd

/-- `sync.Map.Delete`. Used at event_manager/event_manage.go:111. -/
def del {E : Type} (m : Registry E) (k : Bytes) : Registry E := m.filter fun p => p.1 ≠ k

/-- `sync.Map.Store`. Used at event_manager/event_manage.go:67. -/
def store {E : Type} (m : Registry E) (k : Bytes) (v : List E) : Registry E := (k, v) :: del m k

/-- event_manager/event_manage.go:62-64, 81-83, 93-95, 108-110: the key used in the map. -/
def fullKey (pre key : Bytes) : Bytes := if pre.isPrefixOf key then key else pre ++ key

/-- event_manager/event_manage.go:80-89 `Get` (every stored value is an `Event`, so the type assertion
holds) -/
def get {E : Type} (m : Registry E) (pre key : Bytes) : Option (List E) := load m (fullKey pre key)

/-- event_manager/event_manage.go:58-77 `Register`, run without interruption -/
def register {E : Type} (m : Registry E) (pre key : Bytes) (events : List E) : Registry E × Bool :=
  if events.length < 1 then (m, false)
  else
    let key := fullKey pre key
    match get m pre key with
    | none => (store m key events, true)
    | some _ => (m, false)

/-- event_manager/event_manage.go:92-104 `Call`: the functions run. -/
def call {E : Type} (m : Registry E) (pre key : Bytes) : List E :=
  let key := fullKey pre key
  match get m pre key with
  | some fns => fns
  | none => []

/-- event_manager/event_manage.go:107-112 `Delete` -/
def delete {E : Type} (m : Registry E) (pre key : Bytes) : Registry E := del m (fullKey pre key)

/-- event_manager/event_manage.go:115-124 `FuzzyCall`: `order` is the order in which `sync.Map.Range`
visits the keys; the functions run. -/
def fuzzyCall {E : Type} (m : Registry E) (pre : Bytes) (order : List Bytes) : List E :=
  order.flatMap fun keyName => if pre.isPrefixOf keyName then call m pre keyName else []

/-- What `sync.Map.Range` guarantees of the order when nothing else uses the map meanwhile: every key of the map exactly once.
Used at event_manager/event_manage.go:116. -/
def RangeOrder {E : Type} (m : Registry E) (order : List Bytes) : Prop := order.Perm (m.map Prod.fst)

/-- The operations of the package. event_manager/event_manage.go:33-124 -/
inductive Op (E : Type) where
  | register (pre key : Bytes) (events : List E)
  | get (pre key : Bytes)
  | call (pre key : Bytes)
  | delete (pre key : Bytes)
  | fuzzyCall (pre : Bytes)

/-- What an operation returns, or the functions it runs. event_manager/event_manage.go:33-124 -/
inductive Out (E : Type) where
  | ok (b : Bool)
  | found (fns : Option (List E))
  | ran (fns : List E)
  | done
deriving DecidableEq

/-- One operation; a relation because of the visiting order. event_manager/event_manage.go:33-124 -/
inductive Step {E : Type} : Registry E → Op E → Out E → Registry E → Prop where
  | register (m pre key events) :
      Step m (.register pre key events) (.ok (register m pre key events).2) (register m pre key events).1
  | get (m pre key) : Step m (.get pre key) (.found (get m pre key)) m
  | call (m pre key) : Step m (.call pre key) (.ran (call m pre key)) m
  | delete (m pre key) : Step m (.delete pre key) .done (delete m pre key)
  | fuzzyCall (m pre order) (h : RangeOrder m order) :
      Step m (.fuzzyCall pre) (.ran (fuzzyCall m pre order)) m

/-- Histories of operations. event_manager/event_manage.go:33-124 -/
inductive Run {E : Type} : Registry E → List (Op E × Out E) → Registry E → Prop where
  | nil (m) : Run m [] m
  | cons {m op out m1 h m2} : Step m op out m1 → Run m1 h m2 → Run m ((op, out) :: h) m2

/-! ## Concurrent registration -/

/-- Where a goroutine in `Register` stands: before the `Load` of line 66, between it and the `Store` of line 67 (with what it
saw), or returned. event_manager/event_manage.go:58-77 -/
inductive Pc where
  | start
  | looked (exists_ : Bool)
  | returned (ok : Bool)
deriving DecidableEq, Repr

/-- The map and the goroutines, numbered. event_manager/event_manage.go:20, 58-77 -/
structure Conc (E : Type) where
  map : Registry E
  pc : Nat → Pc

/-- event_manager/event_manage.go:58-77 as the two atomic map operations it consists of; goroutine `i`
registers `events i` under `key i` with prefix `pre i`. -/
def concStep {E : Type} (pre key : Nat → Bytes) (events : Nat → List E) (s : Conc E) (i : Nat) : Conc E :=
  let set (p : Pc) (j : Nat) := if j = i then p else s.pc j
  match s.pc i with
  | .start =>
    if (events i).length < 1 then { s with pc := set (.returned false) }
    else { s with pc := set (.looked (get s.map (pre i) (fullKey (pre i) (key i))).isSome) }
  | .looked true => { s with pc := set (.returned false) }
  | .looked false => ⟨store s.map (fullKey (pre i) (key i)) (events i), set (.returned true)⟩
  | .returned _ => s

/-- A schedule: which goroutine takes each step. event_manager/event_manage.go:58-77 -/
def concRun {E : Type} (pre key : Nat → Bytes) (events : Nat → List E) (s : Conc E) (sched : List Nat) :
    Conc E := sched.foldl (concStep pre key events) s

/-! ## Shutdown hooks -/

/-- event_manager/event_manage.go:13 -/
def shutdownPrefix : Bytes := "graceful_shutdown_hooker_".toList.map fun c => UInt8.ofNat c.toNat

/-- event_manager/event_manage.go:33-35 `RegisterShutdownHooker` -/
def registerShutdownHooker {E : Type} (m : Registry E) (key : Bytes) (hookers : List E) :
    Registry E × Bool := register m shutdownPrefix key hookers

/-- event_manager/event_manage.go:39-50 `RegisterShutdownHookerAddChan`; `signal` is the function that
sends on the new channel. The result is that channel (named by its signal) or nil. -/
def registerShutdownHookerAddChan {E : Type} (m : Registry E) (key : Bytes) (events : List E) (signal : E) :
    Registry E × Option E :=
  let r := registerShutdownHooker m key (events ++ [signal])
  if r.2 then (r.1, some signal) else (r.1, none)

/-- event_manager/event_manage.go:53-55 `GracefullyShutdown` -/
def gracefullyShutdown {E : Type} (m : Registry E) (order : List Bytes) : List E :=
  fuzzyCall m shutdownPrefix order

end Gosms.Events
