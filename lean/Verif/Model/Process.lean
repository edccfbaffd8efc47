import Verif.Model.Names

/-!
# The server process: three servers and a debugging port

msc_server/cmd/gosmc.go:19-35 `main`, 57-67 `pprofDebug`, msc_server/server/server.go:43-56 `Start`, 58-80 `New`. The main goroutine starts one
goroutine per listener; each of them binds its port (in `http.ListenAndServe` or `gnet.Run`) and then serves. When one of these functions
returns - because the port cannot be bound, or the engine stops - `log.Fatalf` ends the process.

From the documentation of the operating system: a port is bound at most once on the machine (none of the libraries sets SO_REUSEPORT here);
port 0 means any free port; numbers outside 0..65535 are refused.
-/

namespace Gosms.Process

/-- A listener: one of the servers, or the debugging port. msc_server/cmd/gosmc.go:24-28 -/
inductive Who where
  | pprof
  | server (p : Proto)
deriving DecidableEq, Repr

/-- The configured ports: msc_server/cmd/gosmc.go:58-60, msc_server/server/server.go:57-79. -/
structure Conf where
  /-- `Server.<name>.Port`, 0 if not configured -/
  port : Proto → Int
  /-- `Server.Pprof.Enable` -/
  pprof : Bool
  /-- `Server.Pprof.Port` -/
  pprofPort : Int

/-- msc_server/cmd/gosmc.go:60, msc_server/server/server.go:57-79 -/
def Conf.portOf (c : Conf) : Who → Int
  | .pprof => c.pprofPort
  | .server p => c.port p

/-- gosmc.go:24-28: what the main goroutine starts, in this order. -/
def order (c : Conf) : List Who := (if c.pprof then [.pprof] else []) ++ [.server .cmpp, .server .smgp, .server .sgip]

/-- What the main goroutine of msc_server/cmd/gosmc.go:19-35 has still to start, the listeners on their way and at work, and
whether the process has ended. -/
structure State where
  /-- the goroutines the main goroutine has still to start -/
  todo : List Who
  started : List Who := []
  /-- the listeners that serve, with their ports -/
  serving : List (Who × Int) := []
  fatal : Bool := false

/-- The main goroutine goes on (msc_server/cmd/gosmc.go:24-28), a listener binds its port, or an engine returns
(msc_server/server/server.go:42-55). -/
inductive Step where
  | main                         -- the main goroutine starts the next
  | bind (w : Who) (any : Int)   -- a goroutine binds its port; `any` is the port the system picks if it is 0
  | stops (w : Who)              -- the engine of a server that serves stops with an error
deriving DecidableEq, Repr

/-- Whether a port can be bound: `taken` are the ports of other processes. As for msc_server/server/server.go:46,
msc_server/cmd/gosmc.go:62. -/
def free (taken : List Int) (s : State) (q : Int) : Bool := decide (1 ≤ q ∧ q ≤ 65535) && !taken.contains q && !(s.serving.map Prod.snd).contains q

/-- msc_server/cmd/gosmc.go:19-35, 57-67, msc_server/server/server.go:42-55 -/
def step (taken : List Int) (c : Conf) (s : State) (x : Step) : State :=
  if s.fatal then s
  else match x with
    | .main => match s.todo with
      | w :: r => { s with todo := r, started := s.started ++ [w] }
      | [] => s
    | .bind w any =>
      if w ∈ s.started ∧ w ∉ s.serving.map Prod.fst then
        if c.portOf w = 0 then
          (if free taken s any then { s with serving := s.serving ++ [(w, any)] } else s)
        else if free taken s (c.portOf w) then { s with serving := s.serving ++ [(w, c.portOf w)] }
        else { s with fatal := true }
      else s
    | .stops w => if w ∈ s.serving.map Prod.fst then { s with fatal := true } else s

/-- A history of the process of msc_server/cmd/gosmc.go:19-35. -/
def run (taken : List Int) (c : Conf) (steps : List Step) : State := steps.foldl (step taken c) { todo := order c }

end Gosms.Process
