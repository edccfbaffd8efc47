import Verif.Model.Utils

/-!
# Model of the id generators
utils/bcd_sequence.go, utils/cycle_sequence.go, utils/snowflake/snowflake.go,
utils/snowflake32/snowflake32.go, codec/sgip/sequence.go.

Every `NextVal` runs entirely under the generator's mutex, so concurrent calls are serialised: a
history of concurrent calls is a sequence of calls (proved in `Props/IdLock*` for `NextVal` cut into
single memory accesses). Clock readings are taken while the mutex is held
and are parameters.
-/

namespace Gosms

/-! ### utils/bcd_sequence.go -/

/-- `c - '0'`, replaced by 9 if that is above 9 (utils/bcd_sequence.go:77-80, 83-86). -/
def bcdNibble (c : UInt8) : UInt8 := if c - 0x30 > 9 then 9 else c - 0x30

/-- Loop of utils/bcd_sequence.go:74-93: `odd` is `i&1 == 1`, `h`, `l` the nibbles, `wb` the
bytes appended so far; returns `wb` and the final `h`. -/
def stoBcdLoop : Bytes → Bool → UInt8 → UInt8 → Bytes → Bytes × UInt8
  | [], _, h, _, wb => (wb, h)
  | c :: cs, false, _, l, wb => stoBcdLoop cs true (bcdNibble c) l wb
  | c :: cs, true, h, _, wb => stoBcdLoop cs false 0 0 (wb ++ [(h <<< 4) ||| bcdNibble c])

/-- utils/bcd_sequence.go:71-98 `StoBcd`. -/
def stoBcd (w : Bytes) : Bytes :=
  let (wb, h) := stoBcdLoop w false 0 0 []
  if h ≠ 0 then wb ++ [h <<< 4] else wb

/-- `c > 9` clamped to 9, plus `'0'` (utils/bcd_sequence.go:105-113). -/
def bcdChar (c : UInt8) : UInt8 := (if c > 9 then 9 else c) + 0x30

/-- utils/bcd_sequence.go:100-116 `BcdToString`. -/
def bcdToString (bcd : Bytes) : Bytes :=
  bcd.flatMap fun (b : UInt8) => [bcdChar (b >>> 4), bcdChar (b &&& 0x0f)]

/-- utils/bcd_sequence.go:55-69 `IntToFixStr` for `i ≥ 0` (only called with the counter). -/
def intToFixStr (i : Nat) (l : Nat) : Bytes :=
  let si := dec i
  if si.length = l then si
  else
    let s := List.replicate l 0x30 ++ si
    s.drop (s.length - l)

/-- utils/bcd_sequence.go:12-17 `BcdSequence`. -/
structure BcdSeq where
  worker : Bytes
  timestamp : Bytes
  sequence : Nat
deriving Repr, DecidableEq

/-- utils/bcd_sequence.go:21-35 `NewBcdSequence`. The check ranges over runes truncated to a byte
(line 24). -/
def newBcdSequence (w : Bytes) : BcdSeq :=
  let bad := (runes w).any fun r => (UInt8.ofNat r) > 0x39 || (UInt8.ofNat r) < 0x30
  let w := if bad then ascii "000000" else w
  let w := ascii "000000" ++ w
  let w := w.drop (w.length - 6)
  { worker := stoBcd w, timestamp := [], sequence := 0 }

/-- utils/bcd_sequence.go:37-53 `NextVal`, with `mi` the reading `time.Now().Format("01021504")`. -/
def BcdSeq.nextVal (tf : BcdSeq) (mi : Bytes) : Bytes × BcdSeq :=
  let sequence := if tf.timestamp = mi then (tf.sequence + 1) % 1000000 else 0
  let seq := pad 3 tf.worker ++ pad 4 (stoBcd mi) ++ pad 3 (stoBcd (intToFixStr sequence 6))
  (seq, { tf with timestamp := mi, sequence := sequence })

/-- A history of `NextVal` calls with the given minute readings: the returned ids. utils/bcd_sequence.go:37-53 -/
def BcdSeq.run (tf : BcdSeq) : List Bytes → List Bytes
  | [] => []
  | mi :: ms => (tf.nextVal mi).1 :: BcdSeq.run (tf.nextVal mi).2 ms

/-! ### utils/cycle_sequence.go -/

/-- utils/cycle_sequence.go:11-16 `CycleSequence` (int32 fields as 32-bit words). -/
structure CycleSeq where
  datacenter : BitVec 32
  worker : BitVec 32
  sequence : BitVec 32
deriving Repr, DecidableEq

/-- utils/cycle_sequence.go:27-29 `NewCycleSequence`. -/
def newCycleSequence (d w : BitVec 32) : CycleSeq := ⟨d, w, 0⟩

/-- utils/cycle_sequence.go:31-37 `NextVal` with `sequenceMask = 0x03ffffff`,
`workerShift = sequenceBits = 28`, `datacenterShift = 28+3 = 31` (lines 19-23). -/
def CycleSeq.nextVal (s : CycleSeq) : BitVec 32 × CycleSeq :=
  let sequence := (s.sequence + 1) &&& 0x03ffffff#32
  ((s.datacenter <<< 31) ||| (s.worker <<< 28) ||| sequence, { s with sequence := sequence })

/-- The `n`-th value (from 0) of a generator. utils/cycle_sequence.go:31-37 -/
def CycleSeq.nth (s : CycleSeq) : Nat → BitVec 32
  | 0 => s.nextVal.1
  | n + 1 => CycleSeq.nth s.nextVal.2 n

/-! ### utils/snowflake/snowflake.go -/

/-- utils/snowflake/snowflake.go:12 `epoch` -/
def sfEpoch : Int := 1577808000000
/-- utils/snowflake/snowflake.go:17 `timestampMax` = 2^41 - 1 -/
def sfTimestampMax : Int := 2199023255551

/-- utils/snowflake/snowflake.go:24-30 `Snowflake`. Timestamps are integers (milliseconds); 64-bit
overflow of the clock itself is not modelled. -/
structure Snowflake where
  timestamp : Int
  workerId : BitVec 64
  datacenterId : BitVec 64
  sequence : BitVec 64
deriving Repr, DecidableEq

/-- utils/snowflake/snowflake.go:32-34 `NewSnowflake`. -/
def newSnowflake (d w : BitVec 64) : Snowflake := ⟨0, w, d, 0⟩

/-- The waiting loops utils/snowflake/snowflake.go:45-48 and utils/snowflake32/snowflake32.go:46-49:
`for now <= ts { sleep; now = clock }`. Takes the remaining clock readings; returns the first
reading above `ts` and the readings after it, `none` if the loop is still waiting when the given
readings are used up. -/
def waitAfter (ts : Int) : List Int → Option (Int × List Int)
  | [] => none
  | now :: rest => if now ≤ ts then waitAfter ts rest else some (now, rest)

/-- The part of utils/snowflake/snowflake.go:54-61 after the clock has been read. -/
def Snowflake.finish (s : Snowflake) (now : Int) (sequence : BitVec 64) : BitVec 64 × Snowflake :=
  let t := now - sfEpoch
  if t > sfTimestampMax then (0, { s with sequence := sequence })
  else
    (((BitVec.ofInt 64 t) <<< 22) ||| (s.datacenterId <<< 19) ||| (s.workerId <<< 12) ||| sequence,
      { s with timestamp := now, sequence := sequence })

/-- utils/snowflake/snowflake.go:35-62 `NextVal`. `clock` is the list of clock readings still to come;
the result contains the readings not used. `none`: the call has not returned within these readings. -/
def Snowflake.nextVal (s : Snowflake) : List Int → Option ((BitVec 64 × Snowflake) × List Int)
  | [] => none
  | now :: rest =>
    if s.timestamp = now then
      let sequence := (s.sequence + 1) &&& 0xfff#64
      if sequence = 0 then
        (waitAfter s.timestamp rest).map fun (now', rest') => (s.finish now' sequence, rest')
      else some (s.finish now sequence, rest)
    else some (s.finish now 0, rest)

/-- A history of `n` calls: the ids returned. utils/snowflake/snowflake.go:35-62 -/
def Snowflake.run (s : Snowflake) (clock : List Int) : Nat → Option (List (BitVec 64))
  | 0 => some []
  | n + 1 =>
    (s.nextVal clock).bind fun ((id, s'), clock') => (Snowflake.run s' clock' n).map (id :: ·)

/-- utils/snowflake/snowflake.go:84-91 `Parse` (arithmetic shifts). -/
def snowflakeParse (seq : BitVec 64) : Snowflake :=
  { timestamp := (seq.sshiftRight 22).toInt + sfEpoch
    datacenterId := (seq.sshiftRight 19) &&& 0x07#64
    workerId := (seq.sshiftRight 12) &&& 0x7f#64
    sequence := seq &&& 0x0fff#64 }

/-! ### utils/snowflake32/snowflake32.go -/

/-- utils/snowflake32/snowflake32.go:13-19 `Snowflake`. -/
structure Snowflake32 where
  seconds : Int
  datacenter : BitVec 32
  worker : BitVec 32
  sequence : BitVec 32
deriving Repr, DecidableEq

/-- utils/snowflake32/snowflake32.go:32-34 `NewSnowflake`. -/
def newSnowflake32 (d w : BitVec 32) : Snowflake32 := ⟨0, d, w, 0⟩

/-- utils/snowflake32/snowflake32.go:55-57. -/
def Snowflake32.finish (s : Snowflake32) (now : Int) (sequence : BitVec 32) :
    BitVec 32 × Snowflake32 :=
  (((BitVec.ofInt 32 now) <<< 14) ||| (s.datacenter <<< 12) ||| (s.worker <<< 9) ||| sequence,
    { s with seconds := now, sequence := sequence })

/-- utils/snowflake32/snowflake32.go:36-58 `NextVal`; readings are seconds since midnight
(`passedSeconds`, lines 89-92). -/
def Snowflake32.nextVal (s : Snowflake32) : List Int → Option ((BitVec 32 × Snowflake32) × List Int)
  | [] => none
  | now :: rest =>
    if s.seconds = now then
      let sequence := (s.sequence + 1) &&& 0x1ff#32
      if sequence = 0 then
        (waitAfter s.seconds rest).map fun (now', rest') => (s.finish now' sequence, rest')
      else some (s.finish now sequence, rest)
    else some (s.finish now 0, rest)

/-- A history of `n` calls: the ids returned, the final state and the unused readings. utils/snowflake32/snowflake32.go:36-58 -/
def Snowflake32.run (s : Snowflake32) (clock : List Int) :
    Nat → Option (List (BitVec 32) × Snowflake32 × List Int)
  | 0 => some ([], s, clock)
  | n + 1 =>
    (s.nextVal clock).bind fun ((id, s'), clock') =>
      (Snowflake32.run s' clock' n).map fun (ids, s'', c'') => (id :: ids, s'', c'')

/-- utils/snowflake32/snowflake32.go:60-67 `Parse`. -/
def snowflake32Parse (seq : BitVec 32) : Snowflake32 :=
  { seconds := (seq.sshiftRight 14).toInt
    datacenter := (seq.sshiftRight 12) &&& 0x03#32
    worker := (seq.sshiftRight 9) &&& 0x07#32
    sequence := seq &&& 0x01ff#32 }

/-! ### codec/sgip/sequence.go -/

/-- codec/sgip/sequence.go:11-16 `sequence`. -/
structure SgipSeq where
  node : UInt32
  timestamp : UInt32
  sequence : UInt32
deriving Repr, DecidableEq

/-- codec/sgip/sequence.go:20-25 `NewSequencer` (first call; later calls return the same object). -/
def newSgipSequencer (node worker : UInt32) : SgipSeq := ⟨node, 0, worker⟩

/-- codec/sgip/sequence.go:27-43 `NextVal`. -/
def SgipSeq.nextVal (s : SgipSeq) (now : Clock) : (UInt32 × UInt32 × UInt32) × SgipSeq :=
  let sequence := (s.sequence + 0x1f) &&& 0xffffffff
  let ts := UInt32.ofNat (now.month * 100000000)
  let ts := ts + UInt32.ofNat (now.day * 1000000)
  let ts := ts + UInt32.ofNat (now.hour * 10000)
  let ts := ts + UInt32.ofNat (now.minute * 100)
  let ts := ts + UInt32.ofNat now.second
  ((s.node, ts, sequence), { s with timestamp := ts, sequence := sequence })

/-- A history of calls at the given times: the sequence numbers returned. codec/sgip/sequence.go:27-43 -/
def SgipSeq.run (s : SgipSeq) : List Clock → List (UInt32 × UInt32 × UInt32)
  | [] => []
  | c :: cs => (s.nextVal c).1 :: SgipSeq.run (s.nextVal c).2 cs

end Gosms
