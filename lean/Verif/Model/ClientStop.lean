import Verif.Go.Bytes

/-!
# A carrier's pool while the client shuts down

msc_client/session_factory.go:262-279 `startLruSortTicker`, 281-314 `lruSort`, 334-347 `newConnect`, 349-357 `RegCloseSessionsHooker`, with
msc_client/session/session.go:48-60 `NewSession`, 86-101 `Close` and event_manager/event_manage.go:38-50 `RegisterShutdownHookerAddChan`. Three
parties interleave: the goroutine of the pool's ticker, the goroutine that runs the hooks after a signal (msc_client/destory.go:15-34,
Model/Shutdown.lean), and the receivers of the sessions, which close them when the connection breaks. The hooks run in the order `sync.Map.Range`
visits them, which is not specified: a parameter.

Connections are numbered in the order they are opened; a session bears the number of its connection. From the documentation of time (before
Go 1.23; go.mod says 1.18): a ticker's channel has room for one tick; `Stop` takes no tick out of it and does not close it.

Left out: two goroutines in `Close` of one session at the same time (Model/ClientConc.lean).
-/

namespace Gosms.ClientStop

/-- One of the functions run at shutdown. msc_client/session_factory.go:271-273, 349-357 -/
inductive Hook where
  | stopTicker   -- session_factory.go:271-273 with event_manage.go:41-43
  | closeAll     -- session_factory.go:350-356
  | other        -- those of the other carriers and bootstrap.go:148-150
deriving DecidableEq, Repr

/-- Where the goroutine running the hooks is. event_manager/event_manage.go:38-50, msc_client/session_factory.go:349-357 -/
inductive HookPc where
  | before                      -- no signal yet
  | between                     -- before the next hook
  | telling                     -- the ticker is stopped, event_manage.go:42 comes next
  | closing (rest : List Nat)   -- in the loop of session_factory.go:352-355
deriving DecidableEq, Repr

/-- Where the goroutine of the ticker is. msc_client/session_factory.go:274-277, 281-314 -/
inductive Pc where
  | idle            -- session_factory.go:275
  | sorting         -- 282-301
  | filling         -- 303-306
  | dialing         -- 336
  | login (i : Nat) -- 337-344: connection `i` is open
  | sleeping        -- 312
deriving DecidableEq, Repr

/-- The ticker, the channel `cancel` and the sessions (msc_client/session_factory.go:35-44, 262-279), the connections, and where
the goroutines are. -/
structure State where
  /-- how many connections were opened -/
  opened : Nat := 0
  /-- the connections that are open -/
  alive : List Nat := []
  /-- the sessions with status `StatClosing` -/
  shut : List Nat := []
  /-- the sessions that never logged in (C60) -/
  unwell : List Nat := []
  /-- `f.sessions` -/
  pool : List Nat := []
  pc : Pc := .idle
  /-- a tick is in the ticker's channel -/
  pending : Bool := false
  ticking : Bool := true
  /-- a value is in the channel `cancel` -/
  told : Bool := false
  hook : HookPc := .before
  todo : List Hook := []
  exited : Bool := false
deriving DecidableEq, Repr

/-- msc_client/session_factory.go:262-314, 334-347, 349-357, msc_client/session/session.go:86-101 -/
inductive Step where
  | tick                          -- time passes: the ticker fires
  | sorter (r : Option Bool)      -- the ticker's goroutine goes on. `r` matters when it dials and logs in: `none` if that fails, else whether logged in
  | lost (i : Nat)                -- the receiver of session `i` closes it, session.go:118-146
  | collect (i : Nat)             -- Go's garbage collector closes a connection nobody refers to
  | signal                        -- the process receives a signal
  | hook                          -- the hooks go on
  | exit                          -- destory.go:18, cmd/client.go:46-50
deriving DecidableEq, Repr

/-- session.go:86-101 `Close` -/
def close (s : State) (i : Nat) : State :=
  if i ∈ s.shut then s else { s with shut := i :: s.shut, alive := s.alive.filter (· ≠ i) }

/-- session.go:263-274 `HealthCheck` -/
def healthy (s : State) (i : Nat) : Bool := decide (i ∉ s.shut) && decide (i ∉ s.unwell)

/-- session_factory.go:275-314: the ticker's goroutine goes on. `want` is the number of connections wanted. What happens under the lock (289-301) is
one step; the order of the sessions plays no role here. -/
def onSorter (want : Nat) (s : State) (r : Option Bool) : State :=
  match s.pc with
  | .idle => if s.pending then { s with pending := false, pc := .sorting } else s
  | .sorting =>
    { (s.pool.filter fun i => !healthy s i).foldl close s with pool := s.pool.filter (healthy s), pc := .filling }
  | .filling =>
    if s.pool.length < want then
      if s.told then { s with told := false, pc := .idle } else { s with pc := .dialing }
    else { s with pc := .idle }
  | .dialing =>
    match r with
    | none => { s with pc := .sleeping }
    | some _ => { s with opened := s.opened + 1, alive := s.opened :: s.alive, pc := .login s.opened }
  | .login i =>
    match r with
    | none => { s with pc := .sleeping }
    | some true => { s with pool := s.pool ++ [i], pc := .sleeping }
    | some false => { s with pool := s.pool ++ [i], unwell := i :: s.unwell, pc := .sleeping }
  | .sleeping => { s with pc := .filling }

/-- The hooks go on. The channel `cancel` has room for one value: sending a second one waits.
event_manager/event_manage.go:38-50, msc_client/session_factory.go:271-273, 349-357 -/
def onHook (s : State) : State :=
  match s.hook with
  | .before => s
  | .between =>
    match s.todo with
    | [] => s
    | .stopTicker :: r => { s with todo := r, ticking := false, hook := .telling }
    | .closeAll :: r => { s with todo := r, hook := .closing s.pool }
    | .other :: r => { s with todo := r }
  | .telling => if s.told then s else { s with told := true, hook := .between }
  | .closing (i :: r) => { close s i with hook := .closing r }
  | .closing [] => { s with hook := .between }

/-- Whether the process still refers to connection `i`. msc_client/session_factory.go:35-44, 334-347 -/
def referred (s : State) (i : Nat) : Bool :=
  decide (i ∈ s.pool) || decide (s.pc = .login i) || (match s.hook with | .closing rest => decide (i ∈ rest) | _ => false)

/-- One step; `order` are the hooks in the order they will be run. msc_client/session_factory.go:262-314, 334-347, 349-357 -/
def step (want : Nat) (order : List Hook) (s : State) (x : Step) : State :=
  if s.exited then s
  else match x with
    | .tick => if s.ticking then { s with pending := true } else s
    | .sorter r => onSorter want s r
    | .lost i => if i ∈ s.pool then close s i else s
    | .collect i => if referred s i then s else { s with alive := s.alive.filter (· ≠ i) }
    | .signal => if s.hook = .before then { s with hook := .between, todo := order } else s
    | .hook => onHook s
    | .exit => if s.hook = .between ∧ s.todo = [] then { s with exited := true } else s

/-- A schedule of msc_client/session_factory.go:262-314 and of the hooks registered at lines 271-273 and 349-357. -/
def run (want : Nat) (order : List Hook) (steps : List Step) : State := steps.foldl (step want order) {}

end Gosms.ClientStop
