import Verif.Model.Codec
import Verif.Model.Names

/-!
# Packet framing in the server

Model of msc_server/server/on_traffic.go:19-106. A connection is its inbound buffer. gnet calls `OnTraffic`
once each time data has arrived, after appending it to the buffer. `zeroAll` is the behaviour of gnet's
`Peek(0)` and `Discard(0)`: with `true` they mean the whole buffer (as in gnet v2.1.0, which the module
requires), with `false` they mean nothing.
-/

namespace Gosms.Traffic

/-- gnet `Conn.Peek(n)` for `n` not above the buffered length. Used at msc_server/server/on_traffic.go:55-106. -/
def peek (zeroAll : Bool) (buf : Bytes) (n : Nat) : Bytes :=
  if n = 0 then (if zeroAll then buf else []) else buf.take n

/-- gnet `Conn.Discard(n)`: the buffer afterwards. Used at msc_server/server/on_traffic.go:55-106. -/
def discard (zeroAll : Bool) (buf : Bytes) (n : Nat) : Bytes :=
  if n = 0 then (if zeroAll then [] else buf) else buf.drop n

/-- What `DecodeAndCheckHeader` says: nothing to do yet, close the connection, or a packet for the handlers, with the buffer
afterwards. msc_server/server/on_traffic.go:55-106 -/
inductive Head where
  | wait
  | close
  | packet (cmd seq : UInt32) (body rest : Bytes)
deriving DecidableEq, Repr

/-- msc_server/server/on_traffic.go:55-106 `DecodeAndCheckHeader`. The body is copied into a new slice of its
own length (lines 101-102). -/
def decodeAndCheckHeader (zeroAll : Bool) (p : Proto) (buf : Bytes) : Option Head :=
  if buf.length < 12 then some .wait
  else
    let h := unpackHead (peek zeroAll buf 12)
    let pkl := h.1.toNat
    if pkl > 5120 ∨ pkl < 12 then some .close
    else (commandName p h.2.1).map fun name =>
      if (ascii "UNKNOWN").isSuffixOf name then .close
      else if pkl > buf.length then .wait
      else
        let buf := discard zeroAll buf 12
        .packet h.2.1 h.2.2 (peek zeroAll buf (pkl - 12)) (discard zeroAll buf (pkl - 12))

/-- A packet given to the handlers: command, sequence number and body. msc_server/server/on_traffic.go:39 -/
structure Packet where
  cmd : UInt32
  seq : UInt32
  body : Bytes
deriving DecidableEq, Repr

/-- A connection: inbound buffer, packets given to the handlers so far, and whether it is open.
msc_server/server/on_traffic.go:19-32 -/
structure Conn where
  buffer : Bytes := []
  handed : List Packet := []
  isOpen : Bool := true
deriving DecidableEq, Repr

/-- msc_server/server/on_traffic.go:19-32 `OnTraffic`, called after `data` has arrived. `closes` is what the
handlers answer to a packet after the packets given before: whether to close the connection. After the
connection is closed nothing arrives any more. -/
def onTraffic (zeroAll : Bool) (p : Proto) (closes : List Packet → Packet → Bool) (c : Conn) (data : Bytes) :
    Option Conn :=
  if c.isOpen then
    let buf := c.buffer ++ data
    (decodeAndCheckHeader zeroAll p buf).map fun
      | .wait => { c with buffer := buf }
      | .close => { c with buffer := buf, isOpen := false }
      | .packet cmd seq body rest =>
        ⟨rest, c.handed ++ [⟨cmd, seq, body⟩], !(closes c.handed ⟨cmd, seq, body⟩)⟩
  else some c

/-- A sequence of arrivals. Calls of msc_server/server/on_traffic.go:19-32. -/
def receive (zeroAll : Bool) (p : Proto) (closes : List Packet → Packet → Bool) (c : Conn)
    (segs : List Bytes) : Option Conn := segs.foldlM (onTraffic zeroAll p closes) c

end Gosms.Traffic
