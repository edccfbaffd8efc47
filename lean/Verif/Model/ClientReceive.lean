import Verif.Model.Codec

/-!
# The client's receiver

msc_client/session/session.go:104-154 `startReceiver`. The connection delivers the server's bytes in chunks; one
`Read` returns the bytes of the first chunk, at most as many as asked for. After the last chunk `Read` returns
io.EOF. The loop's checks of the cancel channel and of the session's state are left out: the session is
assumed to stay logged in until the receiver closes it; what the packets themselves cause (onTraffic) is in
Model/Client.lean.
-/

namespace Gosms.ClientReceive

/-- A packet as handed to `onTraffic`: command, sequence number, bytes after the header of 12. msc_client/session/session.go:156
-/
structure Packet where
  cmd : UInt32
  seq : UInt32
  body : Bytes
deriving DecidableEq, Repr

/-- `net.Conn.Read` into a buffer of `n > 0` bytes: the bytes and what is left; `none` is io.EOF. As used at
msc_client/session/session.go:120, 141. -/
def read (n : Nat) : List Bytes → Option (Bytes × List Bytes)
  | [] => none
  | c :: cs => if c.length ≤ n then some (c, cs) else some (c.take n, c.drop n :: cs)

/-- Why the receiver closed the session. msc_client/session/session.go:118-148 -/
inductive End where
  | head      -- reading the header failed: fewer than 12 bytes, or end of file
  | length    -- a length outside 12..5120
  | body      -- reading the body failed
deriving DecidableEq, Repr

/-- session.go:116-149: one turn of the loop. -/
def turn (chunks : List Bytes) : Sum End (Packet × List Bytes) :=
  match read 12 chunks with
  | none => .inl .head
  | some (head, rest) =>
    if head.length ≠ 12 then .inl .head
    else
      let (pkl, cmd, seq) := unpackHead head
      if pkl > 5120 ∨ pkl < 12 then .inl .length
      else if pkl.toNat - 12 > 0 then
        match read (pkl.toNat - 12) rest with
        | none => .inl .body
        | some (body, rest') => if body.length ≠ pkl.toNat - 12 then .inl .body else .inr (⟨cmd, seq, body⟩, rest')
      else .inr (⟨cmd, seq, []⟩, rest)

/-- The loop, for at most `fuel` turns: the packets processed, and why it ended (`none`: it has not).
msc_client/session/session.go:104-154 -/
def receive : Nat → List Bytes → List Packet × Option End
  | 0, _ => ([], none)
  | fuel + 1, chunks =>
    match turn chunks with
    | .inl e => ([], some e)
    | .inr (p, rest) => let (ps, e) := receive fuel rest; (p :: ps, e)

end Gosms.ClientReceive
