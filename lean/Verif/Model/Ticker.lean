/-!
# The server's ticker while connections close

Model of the parts of msc_server/server that read a session's connection and goroutine pool from other goroutines than the
event loop that closes it: the ticker goroutine (on_tick.go:19-47), the tasks that send terminations (on_tick.go:167-194), the
event loops (on_close.go:14-35, session.go:72-84). Sessions are numbered. Each step is one access to a shared field; steps of the
ticker, of tasks and of event loops interleave in any order. A panic in a task is recovered by the goroutine pool (server.go:65-67), one
in the ticker or in an event loop ends the process.

Left out: everything else a tick does (Model/ServerTicks.lean), log lines themselves.
-/

namespace Gosms.Ticker

/-- msc_server/server/session.go:18-33: `conn` and `pool` are not nil; the session is in the server's map; how far
its closing is (on_close.go:26-34: resources released, removed from the map, connection unset); a second login is between releasing the old
pool and making the new one (session.go:80-82). -/
structure Sess where
  conn : Bool := false
  pool : Bool := false
  stored : Bool := false
  stage : Nat := 3
  renewing : Bool := false
deriving DecidableEq, Repr

/-- What the ticker does next with the session it visits: session.go:176 (`s.conn != nil`), 177 (`s.conn.RemoteAddr()`),
199 (`s.pool != nil`), 200-201 (`s.pool.Free()`, `s.pool.Cap()`). -/
inductive Instr where
  | checkConn | useConn | checkPool | usePool
deriving DecidableEq, Repr

/-- The ticker: between two visits, or visiting session `n`. msc_server/server/on_tick.go:19-47 -/
inductive Pc where
  | idle
  | visit (n : Nat) (todo : List Instr)
deriving DecidableEq, Repr

/-- The sessions of the pool (msc_server/server/server.go:37), the ticker (on_tick.go:19-47), the tasks it started, and whether
the process has ended. -/
structure State where
  sess : Nat → Sess := fun _ => {}
  pc : Pc := .idle
  tasks : List Nat := []      -- terminations waiting for the goroutine pool
  queue : List Nat := []      -- terminations waiting for their event loop
  failed : List Nat := []     -- terminations whose write failed, callback still to come
  crashed : Bool := false

/-- The accesses of msc_server/server/on_tick.go:19-47, 167-194, on_open.go:12-24, on_close.go:14-35 and session.go:72-84,
98-112. -/
inductive Step where
  | «open» (n : Nat)               -- a connection is opened (server.go:81-90)
  | login (n : Nat)                -- `completeLogin` releases the old pool (session.go:80)
  | renew (n : Nat)                -- and makes a new one (session.go:82)
  | visit (n : Nat) (pass : Bool)  -- the ticker comes to session `n` of the map; `pass`: neither silent too long nor heartbeats unanswered
  | tick                           -- the ticker goes on
  | task (i : Nat)                 -- a task of the goroutine pool runs
  | write (i : Nat) (ok : Bool)    -- an event loop writes a termination; if it fails the library closes the connection
  | close (n : Nat)                -- an event loop starts to close a connection
  | closing (n : Nat)              -- and goes on
  | callback (i : Nat)             -- the callback of a failed write, if the library still runs it
deriving DecidableEq, Repr

/-- A table with one entry changed: one session of msc_server/server/server.go:37 (no code of its own). -/
def set (f : Nat → Sess) (n : Nat) (x : Sess) : Nat → Sess := fun m => if m = n then x else f m

/-- on_tick.go:54, 67 (`LogSession`) or 33 (`LogSession` and `LogCounter`). -/
def program (pass : Bool) : List Instr :=
  if pass then [.checkConn, .useConn, .checkPool, .usePool, .usePool] else [.checkConn, .useConn]

/-- The next access of the ticker. A check that finds nil skips the uses. msc_server/server/on_tick.go:19-47 -/
def onTick (s : State) : State :=
  match s.pc with
  | .idle => s
  | .visit _ [] => { s with pc := .idle }
  | .visit n (.checkConn :: todo) =>
    { s with pc := .visit n (if (s.sess n).conn then todo else todo.drop 1) }
  | .visit n (.useConn :: todo) => if (s.sess n).conn then { s with pc := .visit n todo } else { s with crashed := true }
  | .visit n (.checkPool :: todo) =>
    { s with pc := .visit n (if (s.sess n).pool then todo else todo.drop 2) }
  | .visit n (.usePool :: todo) => if (s.sess n).pool then { s with pc := .visit n todo } else { s with crashed := true }

/-- on_close.go:26-34 `deferFunc`, one access after the other. -/
def onClosing (s : State) (n : Nat) : State :=
  let x := s.sess n
  match x.stage with
  | 0 => { s with sess := set s.sess n { x with pool := false, stage := 1 } }
  | 1 => { s with sess := set s.sess n { x with stored := false, stage := 2 } }
  | 2 => { s with sess := set s.sess n { x with conn := false, stage := 3 } }
  | _ => s

/-- One step. `late`: the network library runs the callback of a write that failed (and closed the connection).
msc_server/server/on_tick.go:19-47, 167-194, on_close.go:14-35, session.go:72-84, 98-112 -/
def step (late : Bool) (s : State) (x : Step) : State :=
  if s.crashed then s
  else match x with
    | .open n => if (s.sess n).stage = 3 ∧ (s.sess n).stored = false then
        { s with sess := set s.sess n { conn := true, stored := true, stage := 0 } } else s
    | .login n => if (s.sess n).stage = 0 ∧ (s.sess n).renewing = false then
        { s with sess := set s.sess n { s.sess n with pool := false, renewing := true } } else s
    | .renew n => if (s.sess n).stage = 0 ∧ (s.sess n).renewing = true then
        { s with sess := set s.sess n { s.sess n with pool := true, renewing := false } } else s
    | .visit n pass => if s.pc = .idle ∧ (s.sess n).stored = true then
        { s with pc := .visit n (program pass), tasks := s.tasks ++ if pass then [] else [n] } else s
    | .tick => onTick s
    | .task i => match s.tasks[i]? with
      | none => s
      | some n => { s with tasks := s.tasks.eraseIdx i, queue := s.queue ++ if (s.sess n).conn then [n] else [] }
    | .write i ok => match s.queue[i]? with
      | none => s
      | some n =>
        if (s.sess n).stage = 0 ∧ (s.sess n).renewing = false then
          onClosing { s with queue := s.queue.eraseIdx i, failed := s.failed ++ if ok then [] else [n] } n
        else if (s.sess n).stage = 0 then s
        else { s with queue := s.queue.eraseIdx i }
    | .close n => if (s.sess n).stage = 0 ∧ (s.sess n).renewing = false then onClosing s n else s
    | .closing n => if (s.sess n).stage = 0 then s else onClosing s n
    | .callback i => match s.failed[i]? with
      | none => s
      | some n => if (s.sess n).stage = 3 then { s with failed := s.failed.eraseIdx i, crashed := late } else s

/-- A history of the accesses at msc_server/server/on_tick.go:19-47, 167-194 and on_close.go:14-35. -/
def run (late : Bool) (steps : List Step) : State := steps.foldl (step late) {}

end Gosms.Ticker
