import Verif.Model.ServerTraffic

/-!
# What the server sends on its own account

Model of msc_server/server/on_tick.go for one connection, together with Model/ServerTraffic.lean: the periodic tick starts tasks that send
heartbeats, simulated texts from handsets and terminations. Their frames share the event loop's queue with the answers. `lastUseTime` and `nAt`
are kept here, with every place that changes them.

Left out: logging, failing writes (which close the connection), the second the callback of a termination sleeps (nothing else happens on
the connection meanwhile: it is the event loop that sleeps). Times are integers (nanoseconds); every step carries the clock reading.
-/

namespace Gosms.ServerTicks
open ServerTraffic (Env After)
open Handlers (Stat Kind)

/-- Go's `strings.Split(s, sep)` for a non-empty `sep`, up to its second element: `none` if `sep` does not occur. Used at
msc_server/server/on_tick.go:133. -/
def splitFirst (sep : Bytes) : Bytes → Option (Bytes × Bytes)
  | [] => if sep.isPrefixOf [] then some ([], []) else none
  | c :: cs => if sep.isPrefixOf (c :: cs) then some ([], (c :: cs).drop sep.length)
      else (splitFirst sep cs).map fun (a, b) => (c :: a, b)

/-- The separator of on_tick.go:133. -/
def separator : Bytes := ascii "_,_"

/-- msc_server/server/on_tick.go:133-138: number and text of an entry of `Server.Mock.Delivery.Contents`; `none` if it is not used. -/
def mockText (content : Bytes) : Option (Bytes × Bytes) :=
  (splitFirst separator content).map fun (subNo, rest) =>
    (subNo, ((splitFirst separator rest).map (·.1)).getD rest)

/-- What the callback of a frame sent on the server's own account does. msc_server/server/on_tick.go:93-100, 155-158, 181-187 -/
inductive OwnAfter where
  | beat    -- nAt += 1, on_tick.go:98
  | dly     -- CounterAddDly, on_tick.go:156
  | close   -- Close, on_tick.go:185
deriving DecidableEq, Repr

/-- A frame in the queue or on the wire: an answer (Model/ServerTraffic.lean) or the server's own.
msc_server/server/on_tick.go:93, 155, 181 and the writes of Model/ServerTraffic.lean. -/
inductive Item where
  | reply (x : Nat × Bytes × After)
  | own (frame : Bytes) (after : OwnAfter)
deriving DecidableEq, Repr

/-- A task started by a tick. msc_server/server/on_tick.go:75, 139, 168 -/
inductive Own where
  | active                                               -- on_tick.go:75-108
  | deliver (cli : AuthConf) (subNo text : Bytes)        -- on_tick.go:139-165
  | terminate                                            -- on_tick.go:168-194
deriving DecidableEq, Repr

/-- What a tick reads and draws for the session: the clock, `Server.ForceCloseConnTime`, whether the server's goroutine pool
takes the tasks (a full one refuses), `Server.Mock.Delivery.Enable`, the outcome of `DiceCheck`, the account (`FindAuthConf`),
the configured contents and a random number. msc_server/server/on_tick.go:19-72, 111-139 -/
structure TickDraw where
  now : Int
  force : Int
  pool1 : Bool := true
  pool2 : Bool := true
  enable : Bool := false
  dice : Bool := false
  account : Option AuthConf := none
  contents : List Bytes := []
  random : Nat := 0

/-- What a task reads and draws: the clock, sequence numbers, the id of a delivery, the reference of `MsgSlices`, the wall
clock. msc_server/server/on_tick.go:75-108, 139-165, 168-194 -/
structure TaskDraw where
  now : Int
  seq : UInt32 := 0
  seq3 : Sgip.Seq3 := (0, 0, 0)
  id : UInt64 := 0
  bcd : Bytes := []
  g : UInt8 := 0
  clock : Clock := ⟨0, 1, 1, 0, 0, 0⟩

/-- The connection: the answering part, the session's fields the ticks use, waiting tasks, the event loop's queue, and
everything written. msc_server/server/session.go:18-33 -/
structure State where
  base : ServerTraffic.State := {}
  nAt : UInt8 := 0
  lastUse : Int
  dly : UInt64 := 0
  closing : Bool := false
  own : List Own := []
  queue : List Item := []
  wire : List Item := []

/-- A tick (msc_server/server/on_tick.go:19-47), a task started by one runs (lines 75-108, 139-165, 168-194), the event loop
writes a frame and runs its callback, or something of Model/ServerTraffic.lean. -/
inductive Step where
  | base (x : ServerTraffic.Step) (now : Int)   -- a step of Model/ServerTraffic.lean; `loop` writes the next frame of either kind
  | tick (d : TickDraw)
  | task (i : Nat) (d : TaskDraw)               -- task number `i` of the ticks runs

/-- msc_server/server/on_tick.go:111-139 `mockDelivery`: the task it starts. `RandNum(0, len)` is below the length (Model/Random.lean). -/
def mockDelivery (d : TickDraw) : List Own :=
  if d.enable = false ∨ d.dice = true then []
  else match d.account with
    | none => []
    | some cli => match (Random.randNum d.random 0 d.contents.length).bind fun i => d.contents[i.toNat]? with
      | none => []
      | some content => match mockText content with
        | none => []
        | some (subNo, text) => if d.pool2 then [.deliver cli subNo text] else []

/-- msc_server/server/on_tick.go:23-47 `OnTick` for this session: `closeCheck` (61-72), `activeTestNoneResponseCheck` (49-59),
`activeTest` (74-75), `mockDelivery`. -/
def onTick (s : State) (d : TickDraw) : State :=
  if s.lastUse + d.force < d.now then { s with own := s.own ++ if d.pool1 then [.terminate] else [] }
  else if s.nAt > 2 then { s with own := s.own ++ if d.pool1 then [.terminate] else [] }
  else if s.base.stat = .login then
    { s with own := s.own ++ (if d.pool1 then [.active] else []) ++ mockDelivery d }
  else s

/-- One minute, on_tick.go:77. -/
def minute : Int := 60000000000

/-- msc_server/server/on_tick.go:75-108, 139-165, 168-194: the frame a task sends, if any, and its callback. SGIP has neither heartbeats nor
deliveries on this connection. A panicking encoder is recovered by the pool. -/
def work (gbEnc : Bytes → Option Bytes) (p : Proto) (lastUse : Int) (d : TaskDraw) : Own → Option (Bytes × OwnAfter)
  | .active =>
    if lastUse + minute < d.now then
      match p with
      | .cmpp => (Cmpp.activeTestEncode (Cmpp.newActiveTest d.seq)).map fun f => (f, .beat)
      | .smgp => (Smgp.activeTestEncode (Smgp.newActiveTest d.seq)).map fun f => (f, .beat)
      | .sgip => none
    else none
  | .deliver cli subNo text =>
    match p with
    | .cmpp => ((Cmpp.newDelivery cli (ascii "18600001111") text subNo cli.serviceId d.seq d.id).encode d.g).map fun f => (f, .dly)
    | .smgp => (Smgp.newDeliver gbEnc cli (ascii "13300001111") subNo text d.seq d.bcd d.clock).encode.map fun f => (f, .dly)
    | .sgip => none
  | .terminate =>
    (match p with
      | .cmpp => Cmpp.terminateEncode (Cmpp.newTerminate d.seq)
      | .smgp => Smgp.exitEncode (Smgp.newExit d.seq)
      | .sgip => Sgip.unbindEncode (Sgip.newUnbind d.seq3)).map fun f => (f, .close)

/-- A task runs. msc_server/server/on_tick.go:75-108, 139-165, 168-194 -/
def onTask (gbEnc : Bytes → Option Bytes) (e : Env) (s : State) (i : Nat) (d : TaskDraw) : State :=
  match s.own[i]? with
  | none => s
  | some o =>
    { s with own := s.own.eraseIdx i
             queue := s.queue ++ ((work gbEnc e.proto s.lastUse d o).map fun (f, a) => Item.own f a).toList }

/-- What kind of request number `k` was. Which of the handlers of msc_server/server/chain_cmpp_handler.go:3-13 (and of the
others) has it. -/
def kindOf (s : State) (k : Nat) : Option Kind := (s.base.reqs[k]?).map (·.kind)

/-- The callback of an answer, as far as it concerns `lastUseTime`: cmpp_active.go:64, session.go:79, 224, 239. -/
def touches (s : State) (x : Nat × Bytes × After) : Bool :=
  match x.2.2 with
  | .mt => true
  | .rpt => true
  | .login _ => true
  | _ => kindOf s x.1 = some .active

/-- The event loop writes the next frame and runs its callback. The callbacks of msc_server/server/on_tick.go:93-100, 155-158,
181-187 and of Model/ServerTraffic.lean. -/
def onLoop (e : Env) (s : State) (now : Int) : State :=
  match s.queue with
  | [] => s
  | .reply x :: q =>
    { s with queue := q, wire := s.wire ++ [.reply x], base := ServerTraffic.step e s.base .loop
             lastUse := if touches s x then now else s.lastUse }
  | .own f a :: q =>
    let s := { s with queue := q, wire := s.wire ++ [Item.own f a] }
    match a with
    | .beat => { s with nAt := s.nAt + 1 }
    | .dly => { s with dly := s.dly + 1 }
    | .close => { s with closing := true }

/-- A task of Model/ServerTraffic.lean that has nothing (more) to send ends: the kind of packet it handled.
msc_server/server/cmpp_active_resp.go:43-57, cmpp_delivery_resp.go:43-54 and the others. -/
def ending (s : State) (i : Nat) : Option Kind :=
  match s.base.tasks[i]? with
  | some ⟨k, .free, []⟩ => kindOf s k
  | some ⟨k, .inside _, []⟩ => kindOf s k
  | _ => none

/-- A task of Model/ServerTraffic.lean goes on: cmpp_active_resp.go:53-56 (`nAt` and `lastUseTime`), cmpp_delivery_resp.go:52. -/
def onRun (s : State) (i : Nat) (now : Int) : State :=
  match ending s i with
  | some .activeResp => { s with nAt := 0, lastUse := now }
  | some .deliverResp => { s with lastUse := now }
  | _ => s

/-- A step of the answering part other than the loop; what it queues goes to the end of the common queue.
msc_server/server/on_traffic.go:19-53 -/
def onBase (e : Env) (s : State) (x : ServerTraffic.Step) : State :=
  let b := ServerTraffic.step e s.base x
  { s with base := b, queue := s.queue ++ (b.queue.drop s.base.queue.length).map .reply }

/-- One step. After the connection is closed or the process has ended nothing happens on it any more.
msc_server/server/on_tick.go:19-47, on_traffic.go:19-53 -/
def step (gbEnc : Bytes → Option Bytes) (e : Env) (s : State) (x : Step) : State :=
  if s.base.crashed ∨ s.base.isOpen = false then s
  else match x with
    | .base .loop now => onLoop e s now
    | .base (.run i) now => onBase e (onRun s i now) (.run i)
    | .base y _ => onBase e s y
    | .tick d => onTick s d
    | .task i d => onTask gbEnc e s i d

/-- A run of a connection opened at time `t0` (session.go:48-56). -/
def run (gbEnc : Bytes → Option Bytes) (e : Env) (t0 : Int) (steps : List Step) : State :=
  steps.foldl (step gbEnc e) { lastUse := t0 }

end Gosms.ServerTicks
