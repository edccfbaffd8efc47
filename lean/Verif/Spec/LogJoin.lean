import Verif.Model.Logging

/-! # Reading a log (for C120) -/

namespace Gosms.Spec.LogJoin
open Gosms.Logging

/-- The record has exactly one field of this key, with this value. -/
def Shows (fs : List Field) (key : String) (v : Val) : Prop := fs.filter (fun f => f.key == key) = [⟨key, v⟩]

/-- A record begins with what tells the connection: the server, the client (or that nobody is logged in), the number of the session and the
peer's address. -/
def Tells (fs : List Field) (c : Conn) (client : Bytes) : Prop :=
  [⟨"server", .str c.server⟩, ⟨"auth", .str (if client = [] then ascii "not login" else client)⟩, ⟨"sid", .num c.sid.toNat⟩,
    ⟨"remote", .str c.remote⟩] <+: fs

/-- The two records exist and show the same value, the first under `k`, the second under `k'`. -/
def Joined (a b : Option (List Field)) (k k' : String) : Prop :=
  ∃ x y v, a = some x ∧ b = some y ∧ Shows x k v ∧ Shows y k' v

/-- The text up to the first blank. -/
def firstWord (t : Bytes) : Bytes := t.takeWhile (· != 0x20)

/-- A text made of these words in this order, with blanks between them. -/
inductive Row : Bytes → List Bytes → Prop
  | last (w : Bytes) : Row w [w]
  | more (w : Bytes) (n : Nat) (t : Bytes) (ws : List Bytes) (h : Row t ws) :
      Row (w ++ List.replicate (n + 1) 0x20 ++ t) (w :: ws)

end Gosms.Spec.LogJoin
