import Verif.Go.Bytes

/-!
# Specification of the wire format

What a fixed-width field can carry, and how a packet is laid out: as the concatenation of its fields,
integers big-endian, strings padded with NUL bytes to their width.
-/

namespace Gosms.Spec

/-- What survives of a string sent in an `n`-byte slot padded with NULs: at most `n` bytes, up to the
first NUL. -/
def slot (n : Nat) (s : Bytes) : Bytes := (s.take n).takeWhile (· ≠ 0)

/-- The string can be sent in an `n`-byte slot without loss. -/
def Fits (n : Nat) (s : Bytes) : Prop := s.length ≤ n ∧ 0 ∉ s

instance (n : Nat) (s : Bytes) : Decidable (Fits n s) := inferInstanceAs (Decidable (_ ∧ _))

theorem takeWhile_ne_zero {s : Bytes} (h : 0 ∉ s) : s.takeWhile (· ≠ 0) = s := by
  induction s with
  | nil => rfl
  | cons a s ih =>
    have ha : a ≠ 0 := fun e => h (by simp [e])
    rw [List.takeWhile_cons_of_pos (by simpa using ha), ih (fun hm => h (by simp [hm]))]

/-- A string that fits survives unchanged. -/
theorem slot_fits {n : Nat} {s : Bytes} (h : Fits n s) : slot n s = s := by
  rw [slot, List.take_of_length_le h.1, takeWhile_ne_zero h.2]

/-- A string without NUL bytes is only cut to the width. -/
theorem slot_cut {n : Nat} {s : Bytes} (h : 0 ∉ s) : slot n s = s.take n := by
  rw [slot, takeWhile_ne_zero fun hm => h (List.mem_of_mem_take hm)]

/-- A 12-byte packet header: total length, command, sequence number. -/
def header12 (len cmd seq : UInt32) : Bytes := be32 len ++ (be32 cmd ++ be32 seq)

/-- A 20-byte SGIP packet header: total length, command, three sequence words. -/
def header20 (len cmd s0 s1 s2 : UInt32) : Bytes :=
  be32 len ++ (be32 cmd ++ (be32 s0 ++ (be32 s1 ++ be32 s2)))

/-- The frame is a packet of its protocol: its first four bytes say how long it is. -/
def SelfDelimiting (frame : Bytes) : Prop :=
  4 ≤ frame.length ∧ (rd32 (frame.take 4)).toNat = frame.length

instance (frame : Bytes) : Decidable (SelfDelimiting frame) := inferInstanceAs (Decidable (_ ∧ _))

end Gosms.Spec

namespace Gosms.Spec

/-- The `n`-digit decimal representation of `v` (ASCII, with leading zeros). -/
def decimal (n v : Nat) : Bytes := (List.range n).reverse.map fun k => UInt8.ofNat (0x30 + v / 10 ^ k % 10)

/-- Major protocol version: the high four bits. -/
def major (v : UInt8) : Nat := v.toNat / 16

/-- Commands and their responses: the response command has the top bit set. -/
def responseOf (cmd : UInt32) : UInt32 := cmd ||| 0x80000000

end Gosms.Spec
