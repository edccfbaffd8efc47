import Verif.Model.Events

/-!
# What is run when an event is called

Model of event_manager/event_manage.go once more, at the level of Model/Events.lean it abstracts from: the functions registered are a *slice*,
which the package keeps without copying it; they have arguments; and the functions made by `RegisterShutdownHookerAddChan` send on a channel with
room for one signal, which blocks while the channel is full and panics once it is closed.

`A` is the type of arguments. Functions of the user are numbered; running one is recorded with the arguments it got. Left out: functions that
panic (Model/Shutdown.lean), that use the event manager themselves or that change slices, and calls running at the same time.

From the language specification: `f(a, b)` passes a new slice of exactly the arguments, which the caller cannot name; `f(s...)` passes the slice `s`
itself. `append` writes to the array of the slice if there is room behind it, and to a new array otherwise.
-/

namespace Gosms.EventCalls

open Gosms.Events (fullKey shutdownPrefix)

/-- A function in a registered slice: one of the user's, or the one of event_manage.go:41-43, which sends on channel `c`. -/
inductive Fn where
  | user (n : Nat)
  | tell (c : Nat)
deriving DecidableEq, Repr

/-- A slice of one of the caller's arrays. The variadic argument at event_manager/event_manage.go:58, 39. -/
structure Slice where
  arr : Nat
  off : Nat
  len : Nat
deriving DecidableEq, Repr

/-- The variadic argument: functions given one by one, or a slice given with dots. event_manager/event_manage.go:58, 39 -/
inductive Given where
  | each (fns : List Fn)
  | dots (sl : Slice)
deriving DecidableEq, Repr

/-- A channel made in event_manage.go:40, with room for one. -/
inductive Chan where
  | empty | full | closed
deriving DecidableEq, Repr

/-- How a call of an event ends: it returns, it waits (for somebody to receive), it panics. event_manager/event_manage.go:92-104
-/
inductive End where
  | done | waits | panics
deriving DecidableEq, Repr

/-- The map of event_manager/event_manage.go:20, the caller's slices, the channels of lines 39-50, and what was run. -/
structure State (A : Type) where
  /-- the caller's arrays -/
  arrays : List (List Fn) := []
  /-- event_manage.go:20 `sMap`: the slice each stored function ranges over -/
  reg : Bytes → Option Given := fun _ => none
  chans : List Chan := []
  /-- what has been run, with the arguments given to it -/
  ran : List (Fn × List A) := []

/-- The elements of a slice, now. As ranged over at event_manager/event_manage.go:68. -/
def elems {A : Type} (s : State A) : Given → List Fn
  | .each fns => fns
  | .dots sl => ((s.arrays.getD sl.arr []).drop sl.off).take sl.len

/-- event_manage.go:41 `append(events, ...)` -/
def append {A : Type} (s : State A) (g : Given) (f : Fn) : State A × Given :=
  match g with
  | .each fns => (s, .each (fns ++ [f]))
  | .dots sl =>
    if sl.off + sl.len < (s.arrays.getD sl.arr []).length then
      ({ s with arrays := s.arrays.set sl.arr ((s.arrays.getD sl.arr []).set (sl.off + sl.len) f) },
        .dots { sl with len := sl.len + 1 })
    else (s, .each (elems s g ++ [f]))

/-- `len(events)`. event_manager/event_manage.go:59 -/
def size : Given → Nat
  | .each fns => fns.length
  | .dots sl => sl.len

/-- event_manage.go:58-77 `Register` -/
def register {A : Type} (s : State A) (pre key : Bytes) (g : Given) : State A × Bool :=
  if size g < 1 then (s, false)
  else match s.reg (fullKey pre key) with
    | none => ({ s with reg := fun k => if k = fullKey pre key then some g else s.reg k }, true)
    | some _ => (s, false)

/-- event_manage.go:39-50 `RegisterShutdownHookerAddChan`: the channel returned, or nil. -/
def addChan {A : Type} (s : State A) (key : Bytes) (g : Given) : State A × Option Nat :=
  let c := s.chans.length
  let s := { s with chans := s.chans ++ [.empty] }
  let (s, g) := append s g (.tell c)
  let (s, ok) := register s shutdownPrefix key g
  if ok then (s, some c) else ({ s with chans := s.chans.set c .closed }, none)

/-- The stored function, event_manage.go:67-71: it has a parameter `args` but calls `fn()`. A send on the channel puts the signal in, waits, or
panics. -/
def runFns {A : Type} : List Chan → List Fn → List Chan × List (Fn × List A) × End
  | ch, [] => (ch, [], .done)
  | ch, .user n :: fns =>
    let (ch', ran, e) := runFns ch fns
    (ch', (.user n, []) :: ran, e)
  | ch, .tell c :: fns =>
    match ch.getD c .closed with
    | .empty =>
      let (ch', ran, e) := runFns (ch.set c .full) fns
      (ch', (.tell c, []) :: ran, e)
    | .full => (ch, [(.tell c, [])], .waits)
    | .closed => (ch, [(.tell c, [])], .panics)

/-- event_manage.go:92-104 `Call`. Line 98 hands the slice `args` over as one argument; the stored function does not look at it. -/
def call {A : Type} (s : State A) (pre key : Bytes) (_args : List A) : State A × End :=
  match s.reg (fullKey pre key) with
  | none => (s, .done)
  | some g =>
    let (ch, ran, e) := runFns s.chans (elems s g)
    ({ s with chans := ch, ran := s.ran ++ ran }, e)

/-- event_manage.go:53-55 `GracefullyShutdown` with 115-124 `FuzzyCall`: `order` is the order in which the keys are visited. A call that waits or
panics is the last. -/
def shutdown {A : Type} (s : State A) : List Bytes → State A × End
  | [] => (s, .done)
  | k :: order =>
    if shutdownPrefix.isPrefixOf k then
      match call s shutdownPrefix k [] with
      | (s, .done) => shutdown s order
      | r => r
    else shutdown s order

/-- What a program can do. The functions of event_manager/event_manage.go:33-124 and what callers do to their slices and
channels. -/
inductive Op (A : Type) where
  | make (fns : List Fn)                      -- make an array
  | write (arr i : Nat) (f : Fn)              -- change an element of an array of its own
  | register (pre key : Bytes) (g : Given)
  | addChan (key : Bytes) (g : Given)
  | delete (pre key : Bytes)                  -- event_manage.go:107-112
  | call (pre key : Bytes) (args : List A)
  | shutdown (order : List Bytes)
  | receive (c : Nat)                         -- take the signal out of a channel

/-- event_manager/event_manage.go:33-124 -/
def step {A : Type} (s : State A) : Op A → State A
  | .make fns => { s with arrays := s.arrays ++ [fns] }
  | .write a i f => { s with arrays := s.arrays.set a ((s.arrays.getD a []).set i f) }
  | .register pre key g => (register s pre key g).1
  | .addChan key g => (addChan s key g).1
  | .delete pre key => { s with reg := fun k => if k = fullKey pre key then none else s.reg k }
  | .call pre key args => (call s pre key args).1
  | .shutdown order => (shutdown s order).1
  | .receive c => if s.chans[c]? = some .full then { s with chans := s.chans.set c .empty } else s

/-- A history of calls of event_manager/event_manage.go:33-124. -/
def run {A : Type} (s : State A) (ops : List (Op A)) : State A := ops.foldl step s

end Gosms.EventCalls
