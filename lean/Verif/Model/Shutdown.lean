import Verif.Model.Events

/-!
# Shutting down

Model of msc_server/destory.go:15-33 (msc_client/destory.go:15-34 is the same) with the end of the main functions,
msc_server/cmd/gosmc.go:32-36 and msc_client/cmd/client.go:46-50. Three parties interleave: the operating system (signals), the
goroutine started by `init`, and the main goroutine.

From the documentation of os/signal: before `Notify` a signal ends the process; afterwards it is sent on the channel without
waiting, so it is lost unless somebody is receiving (the channel has no buffer). Sending on a closed channel panics. The hooks run
by `GracefullyShutdown` are a list `hooks` (Model/Events.lean `gracefullyShutdown`); some may panic.
-/

namespace Gosms.Shutdown

/-- Where the goroutine of destory.go:16-31 is. -/
inductive Pc (E : Type) where
  | start                       -- before signal.Notify, line 24
  | ready                       -- before the receive, line 26
  | waiting                     -- at the receive
  | hooks (rest : List E)       -- in GracefullyShutdown, line 31
  | leaving (panicked : Bool)   -- the deferred close(c), line 21
  | telling (panicked : Bool)   -- the deferred send on statChan, line 18
  | done (panicked : Bool)
deriving DecidableEq, Repr

/-- Where the main goroutine is: before `<-StatChan()`, at it, after it. msc_server/cmd/gosmc.go:30-35 -/
inductive Main where
  | busy | waiting | leaving
deriving DecidableEq, Repr

/-- How the process ended: os.Exit(0), by the default action of a signal, by a panic. msc_server/cmd/gosmc.go:34,
msc_server/destory.go:15-33 -/
inductive End where
  | exit | killed | panic
deriving DecidableEq, Repr

/-- Where the goroutine of msc_server/destory.go:15-33 and the main goroutine (msc_server/cmd/gosmc.go:19-35) are, the hooks run
so far, and how the process ended. -/
structure State (E : Type) where
  g : Pc E := .start
  main : Main := .busy
  ran : List E := []
  ended : Option End := none

/-- A signal arrives, the goroutine of msc_server/destory.go:15-33 goes on, or the main goroutine
(msc_server/cmd/gosmc.go:30-35) does. -/
inductive Step where
  | signal  -- one of the signals of line 24 arrives
  | g       -- the goroutine goes on
  | main    -- the main goroutine goes on
deriving DecidableEq, Repr

/-- A signal arrives. msc_server/destory.go:23-25 -/
def onSignal {E : Type} (hooks : List E) (s : State E) : State E :=
  match s.g with
  | .start => { s with ended := some .killed }
  | .ready => s
  | .waiting => { s with g := .hooks hooks }
  | .hooks _ => s
  | .leaving _ => s
  | .telling _ => { s with ended := some .panic }
  | .done _ => { s with ended := some .panic }

/-- The goroutine goes on. A panicking hook runs the deferred functions; the panic then ends the process.
msc_server/destory.go:15-33 -/
def onG {E : Type} (panics : E → Bool) (s : State E) : State E :=
  match s.g with
  | .start => { s with g := .ready }
  | .ready => { s with g := .waiting }
  | .waiting => s
  | .hooks (h :: rest) => { s with ran := s.ran ++ [h], g := if panics h then .leaving true else .hooks rest }
  | .hooks [] => { s with g := .leaving false }
  | .leaving p => { s with g := .telling p }
  | .telling p => if s.main = .waiting then { s with g := .done p, main := .leaving } else s
  | .done true => { s with ended := some .panic }
  | .done false => s

/-- The main goroutine goes on. msc_server/cmd/gosmc.go:30-35 -/
def onMain {E : Type} (s : State E) : State E :=
  match s.main with
  | .busy => { s with main := .waiting }
  | .waiting => s
  | .leaving => { s with ended := some .exit }

/-- msc_server/destory.go:15-33, msc_server/cmd/gosmc.go:30-35 -/
def step {E : Type} (hooks : List E) (panics : E → Bool) (s : State E) (x : Step) : State E :=
  if s.ended.isSome then s
  else match x with
    | .signal => onSignal hooks s
    | .g => onG panics s
    | .main => onMain s

/-- A history of msc_server/destory.go:15-33 and msc_server/cmd/gosmc.go:19-35. -/
def run {E : Type} (hooks : List E) (panics : E → Bool) (steps : List Step) : State E :=
  steps.foldl (step hooks panics) {}

end Gosms.Shutdown
