import Verif.Go.Bytes

/-!
# utils/tlv.go: type-length-value objects and lists
-/

namespace Gosms

/-- Errors an I/O operation of utils/tlv.go can return (`io.EOF`, `io.ErrUnexpectedEOF`,
tlv.go:60-67 `ErrTLVRead`, `ErrTLVWrite`). -/
inductive TlvErr where
  | eof | unexpectedEof | tlvRead | tlvWrite
deriving Repr, DecidableEq

/-- utils/tlv.go:19-23 `object`. -/
structure Tlv where
  typ : UInt16
  len : UInt16
  val : Bytes
deriving Repr, DecidableEq

/-- utils/tlv.go:45-58 `Equal`; `none` is a nil interface. -/
def Tlv.equal : Option Tlv → Option Tlv → Bool
  | none, t2 => t2.isNone
  | some _, none => false
  | some a, some b =>
    if a.typ ≠ b.typ then false
    else if a.len ≠ b.len then false
    else if ¬ (a.val = b.val) then false
    else true

/-- utils/tlv.go:70-77 `New`: the length is `uint16(len(val))`, the value is copied into a slice of
that length. -/
def Tlv.new (typ : UInt16) (val : Bytes) : Tlv :=
  let len := UInt16.ofNat val.length
  ⟨typ, len, pad len.toNat val⟩

/-- `binary.Read(r, binary.BigEndian, &x)` for a `uint16` on a `bytes.Buffer` (standard library: `io.ReadFull` of two bytes;
`io.EOF` if nothing was read, `io.ErrUnexpectedEOF` if only one byte). Used at utils/tlv.go:94-121. -/
def binRead16 (b : Bytes) : Except TlvErr UInt16 × Bytes :=
  match b with
  | [] => (.error .eof, [])
  | [_] => (.error .unexpectedEof, [])
  | x :: y :: rest => (.ok (rd16 [x, y]), rest)

/-- `(*bytes.Buffer).Read(p)` with `len(p) = n` (standard library): nothing buffered is `io.EOF` unless `n = 0`; otherwise up to
`n` bytes. Used at utils/tlv.go:94-121. -/
def bufRead (b : Bytes) (n : Nat) : Except TlvErr Bytes × Bytes :=
  if b = [] then (if n = 0 then .ok [] else .error .eof, [])
  else (.ok (b.take n), b.drop n)

/-- utils/tlv.go:94-121 `ReadObject` on a `bytes.Buffer`: result or error, and what is left buffered. -/
def readObject (b : Bytes) : Except TlvErr Tlv × Bytes :=
  match binRead16 b with
  | (.error e, r) => (.error e, r)
  | (.ok typ, r) =>
    match binRead16 r with
    | (.error e, r) => (.error e, r)
    | (.ok length, r) =>
      match bufRead r length.toNat with
      | (.error e, r) => (.error e, r)
      | (.ok got, r) =>
        if UInt16.ofNat got.length ≠ length then (.error .tlvRead, r)
        else (.ok ⟨typ, length, pad length.toNat got⟩, r)

/-- utils/tlv.go:80-83 `FromBytes`. -/
def tlvFromBytes (data : Bytes) : Except TlvErr Tlv := (readObject data).1

/-- utils/tlv.go:124-147 `WriteObject` to a `bytes.Buffer` (whose writes never fail): the bytes
appended and the error. -/
def writeObject (t : Tlv) : Bytes × Option TlvErr :=
  (be16 t.typ ++ be16 t.len ++ t.val,
    if UInt16.ofNat t.val.length ≠ t.len then some .tlvWrite else none)

/-- utils/tlv.go:86-91 `ToBytes`. -/
def tlvToBytes (t : Tlv) : Bytes × Option TlvErr := writeObject t

/-- utils/tlv.go:150-152 `TlvList`: the objects front to back (container/list). -/
abbrev TlvList := List Tlv

/-- utils/tlv.go:155-159 `NewTlvList`. -/
def newTlvList : TlvList := []

/-- utils/tlv.go:162-164 `Length` (lists of 2^31 objects, where `int32` wraps, are not modelled). -/
def tlvLength (tl : TlvList) : Nat := tl.length

/-- utils/tlv.go:168-175 `Get`; `none` is `ErrTypeNotFound`. -/
def tlvGet : TlvList → UInt16 → Option Tlv
  | [], _ => none
  | e :: es, typ => if e.typ = typ then some e else tlvGet es typ

/-- utils/tlv.go:179-187 `GetAll`: the loop with its accumulator. -/
def tlvGetAllLoop : TlvList → UInt16 → List Tlv → List Tlv
  | [], _, ts => ts
  | e :: es, typ, ts => tlvGetAllLoop es typ (if e.typ = typ then ts ++ [e] else ts)

/-- utils/tlv.go:179-187 `GetAll`. -/
def tlvGetAll (tl : TlvList) (typ : UInt16) : List Tlv := tlvGetAllLoop tl typ []

/-- The inner loop of utils/tlv.go:195-201 and 216-222: remove the first object satisfying `p`;
`none` if there is none. -/
def removeFirst (p : Tlv → Bool) : TlvList → Option TlvList
  | [] => none
  | e :: es => if p e then some es else (removeFirst p es).map (e :: ·)

theorem removeFirst_length {p : Tlv → Bool} {tl tl' : TlvList} (h : removeFirst p tl = some tl') :
    tl'.length + 1 = tl.length := by
  induction tl generalizing tl' with
  | nil => cases h
  | cons e es ih =>
    rw [removeFirst] at h
    split at h
    · cases h; rfl
    · cases hx : removeFirst p es with
      | none => rw [hx] at h; cases h
      | some x =>
        rw [hx] at h
        simp only [Option.map_some, Option.some.injEq] at h
        rw [← h, List.length_cons, List.length_cons, ih hx]

/-- The outer loop of utils/tlv.go:193-206 and 214-228: remove first matches until none is left;
returns the list and `totalRemoved`. -/
def removeLoop (p : Tlv → Bool) (tl : TlvList) (total : Nat) : TlvList × Nat :=
  match h : removeFirst p tl with
  | none => (tl, total)
  | some tl' => removeLoop p tl' (total + 1)
termination_by tl.length
decreasing_by have := removeFirst_length h; omega

/-- utils/tlv.go:191-208 `Remove`: the list afterwards and the count. -/
def tlvRemove (tl : TlvList) (typ : UInt16) : TlvList × Nat := removeLoop (fun e => e.typ = typ) tl 0

/-- utils/tlv.go:212-230 `RemoveObject`; the argument may be a nil interface. -/
def tlvRemoveObject (tl : TlvList) (obj : Option Tlv) : TlvList × Nat :=
  removeLoop (fun e => Tlv.equal (some e) obj) tl 0

/-- utils/tlv.go:233-236 `Add`. -/
def tlvAdd (tl : TlvList) (typ : UInt16) (value : Bytes) : TlvList := tl ++ [Tlv.new typ value]

/-- utils/tlv.go:239-241 `AddObject` (with an object of this package). -/
def tlvAddObject (tl : TlvList) (obj : Tlv) : TlvList := tl ++ [obj]

/-- utils/tlv.go:244-252 `Write` to a `bytes.Buffer`: stops at the first error. -/
def tlvWrite : TlvList → Bytes × Option TlvErr
  | [] => ([], none)
  | e :: es =>
    match writeObject e with
    | (b, some err) => (b, some err)
    | (b, none) => let r := tlvWrite es; (b ++ r.1, r.2)

theorem binRead16_length {b r : Bytes} {x : UInt16} (h : binRead16 b = (.ok x, r)) :
    r.length + 2 = b.length := by
  unfold binRead16 at h
  split at h
  · cases h
  · cases h
  · cases h; rfl

theorem readObject_length {b r : Bytes} {t : Tlv} (h : readObject b = (.ok t, r)) :
    r.length < b.length := by
  unfold readObject at h
  split at h
  · cases h
  · rename_i typ r1 h1
    split at h
    · cases h
    · rename_i len r2 h2
      have l1 := binRead16_length h1
      have l2 := binRead16_length h2
      split at h
      · cases h
      · rename_i got r3 h3
        split at h
        · cases h
        · simp only [Prod.mk.injEq] at h
          have : r3.length ≤ r2.length := by
            unfold bufRead at h3
            split at h3
            · simp only [Prod.mk.injEq] at h3
              rw [← h3.2]; simp
            · simp only [Prod.mk.injEq] at h3
              rw [← h3.2]; simp
          rw [← h.2]; omega

/-- utils/tlv.go:271-286 `Read`: the list read and the error (`io.EOF` becomes nil). -/
def tlvRead (b : Bytes) : TlvList × Option TlvErr :=
  match _h : readObject b with
  | (.error e, _) => ([], if e = .eof then none else some e)
  | (.ok t, r) => let x := tlvRead r; (t :: x.1, x.2)
termination_by b.length
decreasing_by exact readObject_length _h

end Gosms
