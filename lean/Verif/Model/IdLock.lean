import Verif.Model.Sequences

/-!
# The id generators, used by several goroutines

utils/bcd_sequence.go:37-53, utils/cycle_sequence.go:31-37, utils/snowflake/snowflake.go:35-62,
utils/snowflake32/snowflake32.go:36-58, codec/sgip/sequence.go:27-43: every `NextVal` takes the generator's mutex, works on
the generator's fields and gives the mutex back (`defer Unlock`). `Model/Sequences.lean` has each `NextVal` in one piece; here it
is a program of single accesses to the fields and to the clock, and any number of goroutines run it, their accesses
interleaved in any way (sequentially consistent). Nothing but the mutex keeps them apart.
-/

namespace Gosms.IdLock

/-- A `NextVal` body, the part between `Lock` and the return, as single accesses. `σ`: the fields of the generator, `κ`: a clock
reading, `R`: the value returned, `L`: where a goroutine is in the body, with its local variables. utils/cycle_sequence.go:31-37
and the four others. -/
structure Body (σ κ R L : Type) where
  start : L
  /-- The access made here is a reading of the clock. -/
  reads : L → Bool
  /-- One access; `Sum.inr r`: the body is at its end and `r` is to be returned. -/
  step : L → κ → σ → σ × (L ⊕ R)

/-- Where a goroutine is. utils/cycle_sequence.go:31-37 and the four others. -/
inductive Pc (L R : Type) where
  | idle                  -- not in `NextVal`
  | waiting               -- at `Lock()`
  | inside (l : L)        -- in the body
  | leaving (r : R)       -- at the deferred `Unlock()`
  | returning (r : R)     -- has unlocked, not yet back at the caller

/-- What happens, in order: goroutine `who` calls, `take`s its value (the last access of the body), gets it back.
utils/cycle_sequence.go:31-37 and the four others. -/
inductive Ev (R : Type) where
  | call (who : Nat)
  | take (who : Nat) (r : R)
  | ret (who : Nat) (r : R)
deriving DecidableEq, Repr

/-- The generator's mutex and fields (utils/cycle_sequence.go:11-16 and the four others), where the goroutines are, and what
happened. -/
structure State {σ κ R L : Type} (B : Body σ κ R L) where
  mem : σ
  holder : Option Nat := none
  pc : Nat → Pc L R := fun _ => .idle
  /-- the clock readings made so far -/
  seen : List κ := []
  log : List (Ev R) := []

/-- One step of one goroutine. utils/cycle_sequence.go:31-37 and the four others. -/
inductive Op (κ : Type) where
  | call (i : Nat)
  | lock (i : Nat)
  | access (i : Nat) (c : κ)   -- `c`: what the clock shows, used if this access reads it
  | unlock (i : Nat)
  | ret (i : Nat)
deriving Repr

variable {σ κ R L : Type} {B : Body σ κ R L}

/-- A goroutine goes on in utils/cycle_sequence.go:31-37 or one of the others. -/
def State.goto (s : State B) (i : Nat) (p : Pc L R) : State B := { s with pc := fun u => if u = i then p else s.pc u }

/-- A step that goroutine `i` cannot take now changes nothing. An access does not look at the mutex.
utils/cycle_sequence.go:31-37 and the four others. -/
def step (s : State B) : Op κ → State B
  | .call i => match s.pc i with
    | .idle => { s with log := s.log ++ [Ev.call i] }.goto i .waiting
    | _ => s
  | .lock i => match s.pc i with
    | .waiting => if s.holder = none then { s with holder := some i }.goto i (.inside B.start) else s
    | _ => s
  | .access i c => match s.pc i with
    | .inside l =>
      let seen := if B.reads l then s.seen ++ [c] else s.seen
      match B.step l c s.mem with
      | (m, .inl l') => { s with mem := m, seen := seen }.goto i (.inside l')
      | (m, .inr r) => { s with mem := m, seen := seen, log := s.log ++ [Ev.take i r] }.goto i (.leaving r)
    | _ => s
  | .unlock i => match s.pc i with
    | .leaving r => { s with holder := none }.goto i (.returning r)
    | _ => s
  | .ret i => match s.pc i with
    | .returning r => { s with log := s.log ++ [Ev.ret i r] }.goto i .idle
    | _ => s

/-- A generator with the fields `m` and any schedule of any number of goroutines. utils/cycle_sequence.go:31-37 and the four
others. -/
def run (B : Body σ κ R L) (m : σ) (ops : List (Op κ)) : State B := ops.foldl step { mem := m }

/-! ### The five bodies -/

/-- utils/cycle_sequence.go:34-36 -/
inductive CycleL where
  | ldSeq | stSeq (q : BitVec 32)                     -- 34
  | ldDc | ldWorker (d : BitVec 32) | ldRes (d w : BitVec 32)   -- 35
deriving Repr

/-- utils/cycle_sequence.go:31-37 `NextVal` -/
def cycleBody : Body CycleSeq Unit (BitVec 32) CycleL where
  start := .ldSeq
  reads _ := false
  step l _ m := match l with
    | .ldSeq => (m, .inl (.stSeq m.sequence))
    | .stSeq q => ({ m with sequence := (q + 1) &&& 0x03ffffff#32 }, .inl .ldDc)
    | .ldDc => (m, .inl (.ldWorker m.datacenter))
    | .ldWorker d => (m, .inl (.ldRes d m.worker))
    | .ldRes d w => (m, .inr ((d <<< 31) ||| (w <<< 28) ||| m.sequence))

/-- utils/bcd_sequence.go:40-52 -/
inductive BcdL where
  | now                                   -- 40
  | cmp (mi : Bytes)                      -- 41
  | ldSeq (mi : Bytes) | stSeq (mi : Bytes) (q : Nat)   -- 43
  | zero (mi : Bytes)                     -- 45
  | stTime (mi : Bytes)                   -- 47
  | ldWorker | ldTime (w : Bytes) | ldRes (w t : Bytes)   -- 49-51
deriving Repr

/-- utils/bcd_sequence.go:37-53 `NextVal` -/
def bcdBody : Body BcdSeq Bytes Bytes BcdL where
  start := .now
  reads l := match l with | .now => true | _ => false
  step l c m := match l with
    | .now => (m, .inl (.cmp c))
    | .cmp mi => (m, .inl (if m.timestamp = mi then .ldSeq mi else .zero mi))
    | .ldSeq mi => (m, .inl (.stSeq mi m.sequence))
    | .stSeq mi q => ({ m with sequence := (q + 1) % 1000000 }, .inl (.stTime mi))
    | .zero mi => ({ m with sequence := 0 }, .inl (.stTime mi))
    | .stTime mi => ({ m with timestamp := mi }, .inl .ldWorker)
    | .ldWorker => (m, .inl (.ldTime m.worker))
    | .ldTime w => (m, .inl (.ldRes w m.timestamp))
    | .ldRes w t => (m, .inr (pad 3 w ++ pad 4 (stoBcd t) ++ pad 3 (stoBcd (intToFixStr m.sequence 6))))

/-- utils/snowflake/snowflake.go:38-61 -/
inductive SnowL where
  | now                                   -- 38
  | cmp (now : Int)                       -- 39
  | ldSeq (now : Int) | stSeq (now : Int) (q : BitVec 64)   -- 41
  | chk (now : Int)                       -- 42
  | loop (now : Int)                      -- 45
  | again                                 -- 46-47
  | zero (now : Int)                      -- 52
  | stTime (now : Int)                    -- 54-59
  | ldDc (t : Int) | ldWorker (t : Int) (d : BitVec 64) | ldRes (t : Int) (d w : BitVec 64)   -- 60
deriving Repr

/-- utils/snowflake/snowflake.go:35-62 `NextVal` -/
def snowBody : Body Snowflake Int (BitVec 64) SnowL where
  start := .now
  reads l := match l with | .now => true | .again => true | _ => false
  step l c m := match l with
    | .now => (m, .inl (.cmp c))
    | .cmp now => (m, .inl (if m.timestamp = now then .ldSeq now else .zero now))
    | .ldSeq now => (m, .inl (.stSeq now m.sequence))
    | .stSeq now q => ({ m with sequence := (q + 1) &&& 0xfff#64 }, .inl (.chk now))
    | .chk now => (m, .inl (if m.sequence = 0 then .loop now else .stTime now))
    | .loop now => (m, .inl (if now ≤ m.timestamp then .again else .stTime now))
    | .again => (m, .inl (.loop c))
    | .zero now => ({ m with sequence := 0 }, .inl (.stTime now))
    | .stTime now =>
      if now - sfEpoch > sfTimestampMax then (m, .inr 0)
      else ({ m with timestamp := now }, .inl (.ldDc (now - sfEpoch)))
    | .ldDc t => (m, .inl (.ldWorker t m.datacenterId))
    | .ldWorker t d => (m, .inl (.ldRes t d m.workerId))
    | .ldRes t d w => (m, .inr (((BitVec.ofInt 64 t) <<< 22) ||| (d <<< 19) ||| (w <<< 12) ||| m.sequence))

/-- utils/snowflake32/snowflake32.go:39-57 -/
inductive Snow32L where
  | now                                   -- 39
  | cmp (now : Int)                       -- 40
  | ldSeq (now : Int) | stSeq (now : Int) (q : BitVec 32)   -- 42
  | chk (now : Int)                       -- 43
  | loop (now : Int)                      -- 46
  | again                                 -- 47-48
  | zero (now : Int)                      -- 53
  | stTime (now : Int)                    -- 55
  | ldTime | ldDc (t : Int) | ldWorker (t : Int) (d : BitVec 32) | ldRes (t : Int) (d w : BitVec 32)   -- 56
deriving Repr

/-- utils/snowflake32/snowflake32.go:36-58 `NextVal` -/
def snow32Body : Body Snowflake32 Int (BitVec 32) Snow32L where
  start := .now
  reads l := match l with | .now => true | .again => true | _ => false
  step l c m := match l with
    | .now => (m, .inl (.cmp c))
    | .cmp now => (m, .inl (if m.seconds = now then .ldSeq now else .zero now))
    | .ldSeq now => (m, .inl (.stSeq now m.sequence))
    | .stSeq now q => ({ m with sequence := (q + 1) &&& 0x1ff#32 }, .inl (.chk now))
    | .chk now => (m, .inl (if m.sequence = 0 then .loop now else .stTime now))
    | .loop now => (m, .inl (if now ≤ m.seconds then .again else .stTime now))
    | .again => (m, .inl (.loop c))
    | .zero now => ({ m with sequence := 0 }, .inl (.stTime now))
    | .stTime now => ({ m with seconds := now }, .inl .ldTime)
    | .ldTime => (m, .inl (.ldDc m.seconds))
    | .ldDc t => (m, .inl (.ldWorker t m.datacenter))
    | .ldWorker t d => (m, .inl (.ldRes t d m.worker))
    | .ldRes t d w => (m, .inr (((BitVec.ofInt 32 t) <<< 14) ||| (d <<< 12) ||| (w <<< 9) ||| m.sequence))

/-- codec/sgip/sequence.go:30-42. `x += e` is a reading and a writing. -/
inductive SgipL where
  | ldSeq | stSeq (q : UInt32)            -- 30
  | now                                   -- 31
  | ldNode (c : Clock)                    -- 34
  | month (c : Clock) (node : UInt32)     -- 35
  | ldDay (c : Clock) (node : UInt32) | day (c : Clock) (node t : UInt32)         -- 36
  | ldHour (c : Clock) (node : UInt32) | hour (c : Clock) (node t : UInt32)       -- 37
  | ldMinute (c : Clock) (node : UInt32) | minute (c : Clock) (node t : UInt32)   -- 38
  | ldSecond (c : Clock) (node : UInt32) | second (c : Clock) (node t : UInt32)   -- 39
  | ldTime (node : UInt32) | ldRes (node t : UInt32)                              -- 40-41

/-- codec/sgip/sequence.go:27-43 `NextVal` -/
def sgipBody : Body SgipSeq Clock (UInt32 × UInt32 × UInt32) SgipL where
  start := .ldSeq
  reads l := match l with | .now => true | _ => false
  step l k m := match l with
    | .ldSeq => (m, .inl (.stSeq m.sequence))
    | .stSeq q => ({ m with sequence := (q + 0x1f) &&& 0xffffffff }, .inl .now)
    | .now => (m, .inl (.ldNode k))
    | .ldNode c => (m, .inl (.month c m.node))
    | .month c n => ({ m with timestamp := UInt32.ofNat (c.month * 100000000) }, .inl (.ldDay c n))
    | .ldDay c n => (m, .inl (.day c n m.timestamp))
    | .day c n t => ({ m with timestamp := t + UInt32.ofNat (c.day * 1000000) }, .inl (.ldHour c n))
    | .ldHour c n => (m, .inl (.hour c n m.timestamp))
    | .hour c n t => ({ m with timestamp := t + UInt32.ofNat (c.hour * 10000) }, .inl (.ldMinute c n))
    | .ldMinute c n => (m, .inl (.minute c n m.timestamp))
    | .minute c n t => ({ m with timestamp := t + UInt32.ofNat (c.minute * 100) }, .inl (.ldSecond c n))
    | .ldSecond c n => (m, .inl (.second c n m.timestamp))
    | .second c n t => ({ m with timestamp := t + UInt32.ofNat c.second }, .inl (.ldTime n))
    | .ldTime n => (m, .inl (.ldRes n m.timestamp))
    | .ldRes n t => (m, .inr (n, t, m.sequence))

/-- codec/sgip/sequence.go:45-51 `CurVal`, which does not take the mutex: the three fields as they are. (It reads them one after
the other; here at one moment, which is one of the possibilities.) -/
def curVal (m : SgipSeq) : UInt32 × UInt32 × UInt32 := (m.node, m.timestamp, m.sequence)

end Gosms.IdLock
