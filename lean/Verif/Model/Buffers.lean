import Verif.Model.Traffic
import Verif.Model.Cmpp
import Verif.Model.Smgp
import Verif.Model.Sgip

/-!
# Who shares which memory

The other models treat a Go slice as its contents. Here slices are what they are, windows onto arrays, so that two of them may
show the same array: a write through one is then seen through the other.
-/

namespace Gosms.Buffers
open Gosms.Traffic

/-! ## Arrays and slices -/

/-- The arrays allocated so far, in the order of their allocation. An array is named by its position. Go's memory, as used by
the slices of msc_server/server/on_traffic.go:97-102. -/
abbrev Heap (α : Type) := List (List α)

/-- A slice: `len` elements from `off` of the array `arr`. Go's slices, as in msc_server/server/on_traffic.go:97-102 (capacities
are not modelled). -/
structure Slice where
  arr : Nat
  off : Nat
  len : Nat
deriving DecidableEq, Repr

/-- The elements a slice shows. Go's slices, as in msc_server/server/on_traffic.go:97-102. -/
def read {α : Type} (h : Heap α) (s : Slice) : List α := ((h.getD s.arr []).drop s.off).take s.len

/-- `make([]T, n)`, or any expression that makes a new slice with these elements (`[]byte(text)`, the result of a coder). As in
msc_server/server/on_traffic.go:101, codec/cmpp/header.go:21. -/
def make {α : Type} (h : Heap α) (xs : List α) : Heap α × Slice := (h ++ [xs], ⟨h.length, 0, xs.length⟩)

/-- `copy(dst, src)`: as many elements as fit. As in msc_server/server/on_traffic.go:102. -/
def copy {α : Type} (h : Heap α) (dst : Slice) (src : List α) : Heap α :=
  let a := h.getD dst.arr []
  let n := min dst.len src.length
  h.set dst.arr (a.take dst.off ++ src.take n ++ a.drop (dst.off + n))

/-- `s[i] = x`. As in codec/cmpp/submit.go:70-161 (the encoders) and by callers of the library. -/
def store {α : Type} (h : Heap α) (s : Slice) (i : Nat) (x : α) : Heap α :=
  h.set s.arr ((h.getD s.arr []).set (s.off + i) x)

/-- `s[i:i+n]`. As in codec/cmpp/submit.go:214, 225. -/
def Slice.sub (s : Slice) (i n : Nat) : Slice := ⟨s.arr, s.off + i, n⟩

/-- A slice as a decoder is given it: the array behind it up to its end, and the length. As at codec/cmpp/submit.go:163. -/
def Slice.buf (h : Heap UInt8) (s : Slice) : Buf := ⟨(h.getD s.arr []).drop s.off, s.len⟩

/-! ## The server -/

/-- A packet given to the handlers: `buff` is their argument. msc_server/server/on_traffic.go:39-53, 101-105 -/
structure Task where
  cmd : UInt32
  seq : UInt32
  buff : Slice
deriving DecidableEq, Repr

/-- The server's memory. Array 0 is the memory of gnet's event loop (one array here): sockets are read into it, and it is used
again for every connection. `queue` is what `AsyncWrite` was given and the event loop has not written yet; `seen` is what
handlers have read of their argument, with the number of the packet; `wire` is what went out.
msc_server/server/on_traffic.go:97-105, 126-128 -/
structure State where
  heap : Heap UInt8 := [[]]
  tasks : List Task := []
  queue : List Slice := []
  seen : List (Nat × Bytes) := []
  wire : List Bytes := []
deriving Repr

/-- What happens in the server's memory. msc_server/server/on_traffic.go:19-33, 97-106, 126-128 -/
inductive Op where
  /-- The event loop has read a socket: its memory holds `mem`, the bytes of the connection there are the `n` from `off`, and it
  calls `OnTraffic`. -/
  | traffic (mem : Bytes) (off n : Nat)
  /-- The event loop uses its memory for something else (msc_server/server/on_traffic.go:99-100). -/
  | reuse (mem : Bytes)
  /-- The handler of packet `k`, or a goroutine it has started, reads its argument: a `Decode`, an access to a field that a
  `Decode` has left in the argument, a log line. -/
  | look (k : Nat)
  /-- A goroutine encodes a packet to the bytes `frame` and hands it to `AsyncWrite` (msc_server/server/on_traffic.go:127-129,
  cmpp_submit.go:118, on_tick.go:93, 155, 181). `Encode` begins with `make` (codec/cmpp/header.go:21) and writes into nothing
  else. -/
  | write (frame : Bytes)
  /-- The event loop writes the first of the queue to its socket. -/
  | flush
deriving Repr

/-- msc_server/server/on_traffic.go:19-33 and 55-106: the bytes of the connection are seen where the event loop left them;
`Peek` (line 97) shows the body there, and lines 101-102 make the slice the handlers get and copy the body into it. When there is
no complete packet, or one that closes the connection, no handler is called. -/
def traffic (zeroAll : Bool) (p : Proto) (s : State) (mem : Bytes) (off n : Nat) : State :=
  let h := s.heap.set 0 mem
  match decodeAndCheckHeader zeroAll p (read h ⟨0, off, n⟩) with
  | some (.packet cmd seq body _) =>
    let buff : Slice := ⟨0, off + 12, body.length⟩
    let m := make h (zeros buff.len)
    { s with heap := copy m.1 m.2 (read m.1 buff), tasks := s.tasks ++ [⟨cmd, seq, m.2⟩] }
  | _ => { s with heap := h }

/-- One step. msc_server/server/on_traffic.go:19-33, 97-106, 126-128 -/
def step (zeroAll : Bool) (p : Proto) (s : State) : Op → State
  | .traffic mem off n => traffic zeroAll p s mem off n
  | .reuse mem => { s with heap := s.heap.set 0 mem }
  | .look k =>
    match s.tasks[k]? with
    | some t => { s with seen := s.seen ++ [(k, read s.heap t.buff)] }
    | none => s
  | .write frame =>
    let m := make s.heap frame
    { s with heap := m.1, queue := s.queue ++ [m.2] }
  | .flush =>
    match s.queue with
    | q :: rest => { s with queue := rest, wire := s.wire ++ [read s.heap q] }
    | [] => s

/-- A history. A sequence of calls of msc_server/server/on_traffic.go:19-33 and of what runs beside them. -/
def run (zeroAll : Bool) (p : Proto) (ops : List Op) : State := ops.foldl (step zeroAll p) {}

/-! ## What the decoders keep of their argument -/

/-- codec/cmpp/submit.go:163-235 `Submit.Decode` in memory: the values of the fields when it returns, where `termIds` lies in
the argument (line 214), and where `msgContent` does: in the argument (line 225), or, for a part of a long message, in an array
of its own made by the coder (line 228). The other fields are numbers and strings, which are copies. -/
structure CmppSubmit where
  pkt : Cmpp.Submit
  termIds : Slice
  content : Option Slice

/-- codec/cmpp/submit.go:226: whether the content begins like a part of a long message. -/
def isPart (content : Bytes) : Bool := content.take 3 == [5, 0, 3]

/-- codec/cmpp/submit.go:164-230: the recipients lie at 117 or, with protocol version 3, at 129 of the argument, and one or two
bytes behind them the content. -/
def cmppSubmit (v : UInt8) (seq : UInt32) (h : Heap UInt8) (frame : Slice) : Option CmppSubmit :=
  (Cmpp.Submit.decode v seq (frame.buf h)).map fun p =>
    let at0 := if Cmpp.v3 v then 129 else 117
    let at1 := at0 + p.termIds.length + (if Cmpp.v3 v then 2 else 1)
    let raw := frame.sub at1 p.msgLength.toNat
    { pkt := p, termIds := frame.sub at0 p.termIds.length
      content := if isPart (read h raw) then none else some raw }

/-- The packet as its accessors show it when the memory is `h` (codec/cmpp/submit.go:385-490). -/
def CmppSubmit.view (c : CmppSubmit) (h : Heap UInt8) : Cmpp.Submit :=
  { c.pkt with
    termIds := read h c.termIds
    msgContent := match c.content with
      | some s => read h s
      | none => c.pkt.msgContent }

/-- codec/sgip/submit.go:150-211 `Submit.Decode` in memory: `MessageContent` lies in the argument (line 204), or in an array of
its own (line 207). -/
structure SgipSubmit where
  pkt : Sgip.Submit
  content : Option Slice

/-- codec/sgip/submit.go:151-208: the content lies at 123 of the argument plus 21 bytes for each recipient. -/
def sgipSubmit (cid : UInt32) (h : Heap UInt8) (frame : Slice) : Option SgipSubmit :=
  (Sgip.Submit.decode cid (frame.buf h)).map fun p =>
    let raw := frame.sub (123 + 21 * p.userCount.toNat) p.messageLength.toNat
    { pkt := p, content := if isPart (read h raw) then none else some raw }

/-- The packet as its fields show it when the memory is `h`. The fields of codec/sgip/submit.go:15-38. -/
def SgipSubmit.view (c : SgipSubmit) (h : Heap UInt8) : Sgip.Submit :=
  { c.pkt with
    messageContent := match c.content with
      | some s => read h s
      | none => c.pkt.messageContent }

/-- codec/cmpp/connect.go:70-79 `Connect.Decode` in memory: `authenticatorSource` lies in the argument (line 75). -/
structure CmppConnect where
  pkt : Cmpp.Connect
  authenticator : Slice

/-- codec/cmpp/connect.go:70-79 -/
def cmppConnect (seq : UInt32) (h : Heap UInt8) (frame : Slice) : Option CmppConnect :=
  (Cmpp.Connect.decode seq (frame.buf h)).map fun p => { pkt := p, authenticator := frame.sub 6 16 }

/-- The packet when the memory is `h`. The fields of codec/cmpp/connect.go:18-27. -/
def CmppConnect.view (c : CmppConnect) (h : Heap UInt8) : Cmpp.Connect :=
  { c.pkt with authenticatorSource := read h c.authenticator }

/-- codec/smgp/login.go:72-82 `Login.Decode` in memory: `authenticatorClient` lies in the argument (line 77). -/
structure SmgpLogin where
  pkt : Smgp.Login
  authenticator : Slice

/-- codec/smgp/login.go:72-82 -/
def smgpLogin (seq : UInt32) (h : Heap UInt8) (frame : Slice) : Option SmgpLogin :=
  (Smgp.Login.decode seq (frame.buf h)).map fun p => { pkt := p, authenticator := frame.sub 8 16 }

/-- The packet when the memory is `h`. The fields of codec/smgp/login.go:21-31. -/
def SmgpLogin.view (c : SmgpLogin) (h : Heap UInt8) : Smgp.Login :=
  { c.pkt with authenticatorClient := read h c.authenticator }

/-! ## What `NewSubmit` keeps of its argument -/

/-- codec/smgp/submit.go:66 (`mt.destTermID = phones`, a slice line 83 copies as such): the packets and the caller's slice. -/
structure SmgpNew where
  pkts : List Smgp.Submit
  phones : Slice

/-- codec/smgp/submit.go:53-105 `NewSubmit` on the caller's slice of recipients. -/
def smgpNew (gbEnc : Bytes → Option Bytes) (ac : AuthConf) (h : Heap Bytes) (phones : Slice) (content : Bytes) (seq : UInt32)
    (opts : List OptionFunc) (groupId : UInt8) (clock : Clock) (seqs : Nat → UInt32) : Option SmgpNew :=
  (Smgp.newSubmit gbEnc ac (read h phones) content seq opts groupId clock seqs).map fun l => ⟨l, phones⟩

/-- codec/smgp/submit.go:107-144: what `Encode` makes of the packets when the memory is `h`. -/
def SmgpNew.frames (c : SmgpNew) (h : Heap Bytes) : List (Option Bytes) :=
  c.pkts.map fun m => { m with destTermID := read h c.phones }.encode

/-- codec/sgip/submit.go:71 (`mt.UserNumber = phones`, a slice line 85 copies as such): the packets and the caller's slice. -/
structure SgipNew where
  pkts : List Sgip.Submit
  phones : Slice

/-- codec/sgip/submit.go:64-97 `NewSubmit` on the caller's slice of recipients. -/
def sgipNew (ac : AuthConf) (h : Heap Bytes) (phones : Slice) (content : Bytes) (opts : List OptionFunc) (groupId : UInt8)
    (expiry : Clock) (seqs : Nat → Sgip.Seq3) : Option SgipNew :=
  (Sgip.newSubmit ac (read h phones) content opts groupId expiry seqs).map fun l => ⟨l, phones⟩

/-- codec/sgip/submit.go:99-148: what `Encode` makes of the packets when the memory is `h`. -/
def SgipNew.frames (c : SgipNew) (h : Heap Bytes) : List (Option Bytes) :=
  c.pkts.map fun m => { m with userNumber := read h c.phones }.encode

/-- codec/cmpp/submit.go:52-107 `NewSubmit` on the caller's slice of recipients: lines 64 and 69-74 copy them. -/
def cmppNew (ac : AuthConf) (h : Heap Bytes) (phones : Slice) (content : Bytes) (seq : UInt32) (opts : List OptionFunc)
    (groupId : UInt8) (expiry : Clock) (seqs : Nat → UInt32) : Option (List Cmpp.Submit) :=
  Cmpp.newSubmit ac (read h phones) content seq opts groupId expiry seqs

end Gosms.Buffers
