import Verif.Model.Shutdown
import Verif.Model.ServerTicks

/-!
# The server process and its end

The whole server process: its connections (Model/ServerTicks.lean), each in one of the three servers of msc_server/cmd/gosmc.go:26-28, beside the
goroutine that waits for signals and the main goroutine (Model/Shutdown.lean). `os.Exit` (gosmc.go:35), the default action of a signal and a panic
end all goroutines where they are.

Nothing in msc_server registers a function for the shutdown (`event_manager.Register…` is called in msc_client only), so `GracefullyShutdown`
(msc_server/destory.go:31) runs none. Nothing stops the engine either (no `Stop`, no handler returns `gnet.Shutdown`), so
msc_server/server/on_shutdown.go:10-17, which waits until all connections are closed, is not reached.

Simplified: a panic on one connection that ends the process is seen on that connection only (`crashed`, Model/ServerTraffic.lean).
-/

namespace Gosms.ServerStop

/-- What is run at the shutdown: nothing is registered. msc_server/destory.go:31 with event_manager/event_manage.go:53-55 -/
def hooks : List Unit := []

/-- The process of msc_server/cmd/gosmc.go:19-35: its connections, and how far its end has come. -/
structure State where
  proc : Shutdown.State Unit := {}
  conns : Nat → ServerTicks.State

/-- Something happens on a connection (msc_server/server/on_traffic.go:19-32, on_tick.go:19-47), or in the goroutines of
msc_server/destory.go:15-33 and msc_server/cmd/gosmc.go:19-35. -/
inductive Step where
  | sys (x : Shutdown.Step)                  -- signals, the goroutine of destory.go, the main goroutine
  | conn (c : Nat) (x : ServerTicks.Step)    -- something happens on connection number `c`

/-- One step of the process; when it has ended nothing happens any more. msc_server/destory.go:15-33,
msc_server/cmd/gosmc.go:30-35, msc_server/server/on_traffic.go:19-32 -/
def step (gbEnc : Bytes → Option Bytes) (env : Nat → ServerTraffic.Env) (s : State) : Step → State
  | .sys x => { s with proc := Shutdown.step hooks (fun _ => false) s.proc x }
  | .conn c x =>
    if s.proc.ended.isSome then s
    else { s with conns := fun c' => if c' = c then ServerTicks.step gbEnc (env c) (s.conns c) x else s.conns c' }

/-- A run; connection number `c` is opened at `t0 c`. A history of the process of msc_server/cmd/gosmc.go:19-35. -/
def run (gbEnc : Bytes → Option Bytes) (env : Nat → ServerTraffic.Env) (t0 : Nat → Int) (steps : List Step) : State :=
  steps.foldl (step gbEnc env) { conns := fun c => { lastUse := t0 c } }

end Gosms.ServerStop
