import Verif.Go.Bytes

/-!
# Connections arriving at several event loops

msc_server/server/on_open.go:12-24 `OnOpen`, server.go:81-90 `CreateSession`, on_close.go:26-35 `deferFunc`, with `Multicore` (server.go:61, 50; set
in the shipped configuration): the callbacks of one event loop follow each other, those of different loops interleave. The number of
sessions `activeSessions` is read by the check of `OnOpen` without the lock, increased in `CreateSession` under it, and decreased in
`deferFunc` without it; `+= 1` and `-= 1` are a load and a store. (Model/Sessions.lean has one event loop.)

Loops are numbered. Only the number of sessions of each loop is kept, not which they are.
-/

namespace Gosms.Accept

/-- Where an event loop is. msc_server/server/on_open.go:12-24, server.go:81-90, on_close.go:26-35 -/
inductive Pc where
  | idle
  | passed               -- between the check (on_open.go:15) and the load in `CreateSession`
  | adding (v : Int)     -- holds the lock, has read `v` (server.go:88)
  | removing (v : Int)   -- in deferFunc, has read `v` (on_close.go:29)
deriving DecidableEq, Repr

/-- The counter `activeSessions` (msc_server/server/server.go:39, 88), where each loop is and how many sessions it has;
`crashed`: the process has ended (on_open.go:15-18). -/
structure State where
  active : Int := 0
  pc : Nat → Pc := fun _ => .idle
  /-- sessions of each loop -/
  live : Nat → Nat := fun _ => 0
  crashed : Bool := false

/-- The steps of the loops (msc_server/server/on_open.go:15, server.go:88, on_close.go:28-29). -/
inductive Step where
  | check (i : Nat)    -- a connection arrives at loop `i`, on_open.go:15
  | load (i : Nat)     -- server.go:88, the load
  | store (i : Nat)    -- server.go:88, the store; the session is there
  | drop (i : Nat)     -- a connection of loop `i` is closed; on_close.go:28-29 up to the load
  | write (i : Nat)    -- on_close.go:29, the store
deriving DecidableEq, Repr

/-- A table with one entry changed: what one loop has of msc_server/server/server.go:28-40 (no code of its own). -/
def setAt {α : Type} (f : Nat → α) (i : Nat) (x : α) : Nat → α := fun j => if j = i then x else f j

/-- Whether some loop of the `n` loops holds the lock. msc_server/server/server.go:82-83 (`s.Lock`, `defer s.Unlock` in
`CreateSession`). -/
def locked (n : Nat) (s : State) : Bool := (List.range n).any fun i => match s.pc i with | .adding _ => true | _ => false

/-- One step of a server with `n` event loops and room for `cap` sessions (`MaxSessions`). A connection over the limit is
refused, and refusing it ends the process (Model/Sessions.lean `onOpen`). msc_server/server/on_open.go:12-24, server.go:81-90,
on_close.go:26-35 -/
def step (n : Nat) (cap : Int) (s : State) (x : Step) : State :=
  if s.crashed then s
  else match x with
    | .check i =>
      if i < n ∧ s.pc i = .idle then
        (if s.active ≥ cap then { s with crashed := true } else { s with pc := setAt s.pc i .passed })
      else s
    | .load i => if s.pc i = .passed ∧ locked n s = false then { s with pc := setAt s.pc i (.adding s.active) } else s
    | .store i => match s.pc i with
      | .adding v => { s with active := v + 1, pc := setAt s.pc i .idle, live := setAt s.live i (s.live i + 1) }
      | _ => s
    | .drop i =>
      if s.pc i = .idle ∧ 0 < s.live i then
        { s with pc := setAt s.pc i (.removing s.active), live := setAt s.live i (s.live i - 1) }
      else s
    | .write i => match s.pc i with
      | .removing v => { s with active := v - 1, pc := setAt s.pc i .idle }
      | _ => s

/-- A history of msc_server/server/on_open.go:12-24, server.go:81-90 and on_close.go:26-35 from the start of the server. -/
def run (n : Nat) (cap : Int) (steps : List Step) : State := steps.foldl (step n cap) {}

end Gosms.Accept
