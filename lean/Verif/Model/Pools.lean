/-!
# Goroutine pools of the server

Two kinds of pool (github.com/panjf2000/ants) run the server's tasks.

* The server's pool, one for all connections of a protocol: msc_server/server/server.go:59-70, as many workers as CPUs, `Nonblocking`:
  a task for which no worker is free is refused. It runs the logins (cmpp_connect.go:27-34: a refused login closes the
  connection) and what a tick starts for a session (on_tick.go:75, 139, 168: the error is thrown away).
* A session's pool: session.go:58-70, 82, twice as many workers as the window, blocking: the submitting goroutine, which
  is the event loop, waits for a worker. At most `MaxBlockingTasks` goroutines may wait; only one does. A size of 0 means no
  limit (library).

An event loop (gnet) serves many connections, one after the other: packets, queued writes and their callbacks. The callback of
a termination sleeps one second in it (on_tick.go:181-186).
-/

namespace Gosms.Pools

/-! ## The server's pool -/

/-- A task of the server's pool: a login received on a connection, or something a tick starts for the session of a connection (a
heartbeat, a termination, a simulated text). msc_server/server/cmpp_connect.go:27-34, on_tick.go:75, 139, 168 -/
inductive Job where
  | login (conn : Nat)
  | own (conn : Nat)
deriving DecidableEq, Repr

/-- The tasks being run, those taken so far, and those refused. msc_server/server/server.go:57-79 -/
structure Server where
  running : List Job := []
  taken : List Job := []
  refused : List Job := []
deriving DecidableEq, Repr

/-- A task is submitted to the server's pool (msc_server/server/cmpp_connect.go:27, on_tick.go:75, 139, 168) or ends. -/
inductive Op where
  | submit (j : Job)
  | finish (i : Nat)  -- the worker of running task number `i` is free again
deriving DecidableEq, Repr

/-- `ants.Pool.Submit` with `Nonblocking`, server.go:59-70; `n` is `runtime.NumCPU()`. -/
def Server.step (n : Nat) (s : Server) : Op → Server
  | .submit j =>
    if s.running.length < n then { s with running := s.running ++ [j], taken := s.taken ++ [j] }
    else { s with refused := s.refused ++ [j] }
  | .finish i => { s with running := s.running.eraseIdx i }

/-- A history of the pool made at msc_server/server/server.go:57-79. -/
def Server.run (n : Nat) (ops : List Op) : Server := ops.foldl (Server.step n) {}

/-- cmpp_connect.go:27-34, smgp_login.go:27-34, sgip_bind.go:27-34: the connections closed because the pool refused their
login (`gnet.Close`, no response). -/
def Server.closed (s : Server) : List Nat :=
  s.refused.filterMap fun
    | .login c => some c
    | .own _ => none

/-! ## An event loop and the pools of its sessions -/

/-- Where a task is: at `sc.window <-` (cmpp_submit.go:56), past it, or in no need of the window
(on_traffic.go:114-116, the response to a submit over the rate). -/
inductive Phase where
  | waiting | inside | free
deriving DecidableEq, Repr

/-- A logged-in session: its window and the tasks that have a worker. msc_server/server/session.go:18-33, 58-84 -/
structure Sess where
  win : Nat
  tasks : List Phase := []
deriving DecidableEq, Repr

/-- What the event loop is doing: nothing, waiting in `Submit` of a session's pool for a worker (with the task to start), or
sleeping in the callback of a termination. msc_server/server/cmpp_submit.go:17-52, on_tick.go:181-186 -/
inductive Busy where
  | no
  | submit (i : Nat) (ph : Phase)
  | sleep
deriving DecidableEq, Repr

/-- `queue`: frames given to `AsyncWrite`, with the connection and whether it is a termination of the server's; `wire`: the
frames written, in order. msc_server/server/server.go:42-55 -/
structure Loop where
  sess : List Sess
  busy : Busy := .no
  queue : List (Nat × Bool) := []
  wire : List (Nat × Bool) := []
deriving DecidableEq, Repr

/-- What comes to an event loop: a packet whose handler uses the session's pool (msc_server/server/cmpp_submit.go:17-52), the
progress of its tasks (cmpp_submit.go:54-89), a write and its callback (on_tick.go:181-186). -/
inductive Step where
  | packet (i : Nat) (over : Bool) -- the loop takes a packet of session `i` for which a task is to be started; `over`: over the rate
  | enter (i k : Nat)              -- task number `k` of session `i` gets a slot of the window
  | send (i k : Nat)               -- the task gives a frame to `AsyncWrite`
  | done (i k : Nat)               -- the task ends
  | terminate (i : Nat)            -- a tick's task gives a termination to `AsyncWrite` (on_tick.go:181)
  | write                          -- the loop writes the next frame
  | wake                           -- the second is over (on_tick.go:184-186)
deriving DecidableEq, Repr

/-- Whether the pool of a session has a free worker: session.go:82 (`MtWindowSize * 2`). -/
def Sess.hasWorker (s : Sess) : Bool := s.win = 0 ∨ s.tasks.length < 2 * s.win

/-- How many tasks are past the window. msc_server/server/cmpp_submit.go:54-89 -/
def Sess.inside (s : Sess) : Nat := s.tasks.count .inside

/-- A worker of the pool of msc_server/server/session.go:58-70 takes a task. -/
def Sess.start (s : Sess) (ph : Phase) : Sess := { s with tasks := s.tasks ++ [ph] }

/-- Where a task begins: msc_server/server/on_traffic.go:109-121 if the submit is over the limit, otherwise
cmpp_submit.go:54-89. -/
def firstPhase (over : Bool) : Phase := if over then .free else .waiting

/-- A worker of session `i` has become free: the waiting loop goes on. msc_server/server/session.go:58-70 -/
def Loop.resume (l : Loop) (i : Nat) : Loop :=
  match l.busy with
  | .submit j ph => if j = i then { l with busy := .no, sess := l.sess.modify i (·.start ph) } else l
  | _ => l

/-- One step; a step that is not possible changes nothing. msc_server/server/on_traffic.go:19-53, cmpp_submit.go:17-89,
on_tick.go:167-194 -/
def Loop.step (l : Loop) : Step → Loop
  | .packet i over =>
    match l.busy, l.sess[i]? with
    | .no, some s =>
      if s.hasWorker then { l with sess := l.sess.set i (s.start (firstPhase over)) }
      else { l with busy := .submit i (firstPhase over) }
    | _, _ => l
  | .enter i k =>
    match l.sess[i]? with
    | some s =>
      if s.tasks[k]? = some .waiting ∧ s.inside < s.win then { l with sess := l.sess.set i { s with tasks := s.tasks.set k .inside } }
      else l
    | none => l
  | .send i k =>
    match l.sess[i]? with
    | some s => if s.tasks[k]? = some .inside ∨ s.tasks[k]? = some .free then { l with queue := l.queue ++ [(i, false)] } else l
    | none => l
  | .done i k =>
    match l.sess[i]? with
    | some s =>
      if s.tasks[k]? = some .inside ∨ s.tasks[k]? = some .free then
        Loop.resume { l with sess := l.sess.set i { s with tasks := s.tasks.eraseIdx k } } i
      else l
    | none => l
  | .terminate i => { l with queue := l.queue ++ [(i, true)] }
  | .write =>
    match l.busy, l.queue with
    | .no, f :: q => { l with queue := q, wire := l.wire ++ [f], busy := if f.2 then .sleep else .no }
    | _, _ => l
  | .wake => if l.busy = .sleep then { l with busy := .no } else l

/-- A history of an event loop of msc_server/server/server.go:42-55 with sessions of the given windows. -/
def Loop.run (wins : List Nat) (steps : List Step) : Loop := steps.foldl Loop.step { sess := wins.map fun w => { win := w } }

end Gosms.Pools
