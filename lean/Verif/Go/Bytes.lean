/-!
# Go byte slices and big-endian integers

The fragment of Go's `[]byte`/`string` the code uses. A Go byte slice or string is a list of
bytes (`Bytes`). Go strings are byte strings, not character strings.
-/

namespace Gosms

/-- A Go `[]byte` or `string`: its bytes. (Aliasing of slices is not modelled; capacity is
modelled only where the code slices beyond the length, see `Model/*`.) -/
abbrev Bytes := List UInt8

/-- `make([]byte, n)`: `n` zero bytes. -/
def zeros (n : Nat) : Bytes := List.replicate n 0

@[simp] theorem length_zeros (n : Nat) : (zeros n).length = n := by simp [zeros]

theorem zeros_add (n m : Nat) : zeros (n + m) = zeros n ++ zeros m := by
  simp [zeros, List.replicate_append_replicate]

@[simp] theorem zeros_zero : zeros 0 = [] := rfl

/-- `copy(dst[:n], src)` into a zeroed region of `n` bytes: at most `n` bytes of `src`,
then zeros. -/
def pad (n : Nat) (s : Bytes) : Bytes := s.take n ++ zeros (n - s.length)

@[simp] theorem length_pad (n : Nat) (s : Bytes) : (pad n s).length = n := by
  simp [pad]; omega

theorem pad_self (s : Bytes) : pad s.length s = s := by simp [pad]

theorem pad_eq_self {n : Nat} {s : Bytes} (h : s.length = n) : pad n s = s := by
  subst h; exact pad_self s

theorem pad_of_le {n : Nat} {s : Bytes} (h : s.length ≤ n) :
    pad n s = s ++ zeros (n - s.length) := by
  simp [pad, List.take_of_length_le h]

theorem pad_nil (n : Nat) : pad n [] = zeros n := by simp [pad]

/-- `binary.BigEndian.PutUintNN`: the `n` least significant base-256 digits of `v`, most
significant first (standard library, modelled arithmetically). -/
def toBE : Nat → Nat → Bytes
  | 0, _ => []
  | n + 1, v => toBE n (v / 256) ++ [UInt8.ofNat (v % 256)]

/-- `binary.BigEndian.UintNN`: value of a big-endian byte string (standard library). -/
def ofBE (b : Bytes) : Nat := b.foldl (fun a x => a * 256 + x.toNat) 0

@[simp] theorem length_toBE (n v : Nat) : (toBE n v).length = n := by
  induction n generalizing v with
  | zero => rfl
  | succ n ih => simp [toBE, ih]

theorem ofBE_append_singleton (b : Bytes) (x : UInt8) :
    ofBE (b ++ [x]) = ofBE b * 256 + x.toNat := by
  simp [ofBE, List.foldl_append]

theorem ofBE_toBE (n v : Nat) : ofBE (toBE n v) = v % 256 ^ n := by
  induction n generalizing v with
  | zero => simp [toBE, ofBE, Nat.mod_one]
  | succ n ih =>
    rw [toBE, ofBE_append_singleton, ih, Nat.pow_succ]
    have h1 : (UInt8.ofNat (v % 256)).toNat = v % 256 := by
      simp
    rw [h1, Nat.mul_comm (256 ^ n) 256, Nat.mod_mul]
    omega

theorem snoc_induction {α : Type} {motive : List α → Prop} (nil : motive [])
    (snoc : ∀ l x, motive l → motive (l ++ [x])) (l : List α) : motive l := by
  have h : ∀ l : List α, motive l.reverse := by
    intro l
    induction l with
    | nil => exact nil
    | cons x l ih => rw [List.reverse_cons]; exact snoc _ _ ih
  have := h l.reverse
  rwa [List.reverse_reverse] at this

theorem toBE_ofBE (b : Bytes) : toBE b.length (ofBE b) = b := by
  induction b using snoc_induction with
  | nil => rfl
  | snoc b x ih =>
    have hx : x.toNat < 256 := x.toNat_lt
    rw [ofBE_append_singleton, List.length_append, List.length_singleton, toBE]
    have h1 : (ofBE b * 256 + x.toNat) / 256 = ofBE b := by omega
    have h2 : (ofBE b * 256 + x.toNat) % 256 = x.toNat := by omega
    rw [h1, h2, ih]
    simp

theorem ofBE_lt (b : Bytes) : ofBE b < 256 ^ b.length := by
  induction b using snoc_induction with
  | nil => simp [ofBE]
  | snoc b x ih =>
    have hx : x.toNat < 256 := x.toNat_lt
    rw [ofBE_append_singleton, List.length_append, List.length_singleton, Nat.pow_succ]
    omega

/-- Big-endian bytes of a `uint16`. -/
def be16 (x : UInt16) : Bytes := toBE 2 x.toNat
/-- Big-endian bytes of a `uint32`. -/
def be32 (x : UInt32) : Bytes := toBE 4 x.toNat
/-- Big-endian bytes of a `uint64`. -/
def be64 (x : UInt64) : Bytes := toBE 8 x.toNat

@[simp] theorem length_be16 (x : UInt16) : (be16 x).length = 2 := by simp [be16]
@[simp] theorem length_be32 (x : UInt32) : (be32 x).length = 4 := by simp [be32]
@[simp] theorem length_be64 (x : UInt64) : (be64 x).length = 8 := by simp [be64]

/-- `binary.BigEndian.Uint16` -/
def rd16 (b : Bytes) : UInt16 := UInt16.ofNat (ofBE b)
/-- `binary.BigEndian.Uint32` -/
def rd32 (b : Bytes) : UInt32 := UInt32.ofNat (ofBE b)
/-- `binary.BigEndian.Uint64` -/
def rd64 (b : Bytes) : UInt64 := UInt64.ofNat (ofBE b)

@[simp] theorem rd16_be16 (x : UInt16) : rd16 (be16 x) = x := by
  have h := x.toNat_lt
  rw [rd16, be16, ofBE_toBE, Nat.mod_eq_of_lt (by simpa using h)]; simp
@[simp] theorem rd32_be32 (x : UInt32) : rd32 (be32 x) = x := by
  have h := x.toNat_lt
  rw [rd32, be32, ofBE_toBE, Nat.mod_eq_of_lt (by simpa using h)]; simp
@[simp] theorem rd64_be64 (x : UInt64) : rd64 (be64 x) = x := by
  have h := x.toNat_lt
  rw [rd64, be64, ofBE_toBE, Nat.mod_eq_of_lt (by simpa using h)]; simp

theorem be16_rd16 {b : Bytes} (h : b.length = 2) : be16 (rd16 b) = b := by
  have h1 := ofBE_lt b
  rw [be16, rd16]
  have : (UInt16.ofNat (ofBE b)).toNat = ofBE b := by
    rw [h] at h1; simp only [UInt16.toNat_ofNat']; omega
  rw [this, ← h, toBE_ofBE]
theorem be32_rd32 {b : Bytes} (h : b.length = 4) : be32 (rd32 b) = b := by
  have h1 := ofBE_lt b
  rw [be32, rd32]
  have : (UInt32.ofNat (ofBE b)).toNat = ofBE b := by
    rw [h] at h1; simp only [UInt32.toNat_ofNat']; omega
  rw [this, ← h, toBE_ofBE]
theorem be64_rd64 {b : Bytes} (h : b.length = 8) : be64 (rd64 b) = b := by
  have h1 := ofBE_lt b
  rw [be64, rd64]
  have : (UInt64.ofNat (ofBE b)).toNat = ofBE b := by
    rw [h] at h1; simp only [UInt64.toNat_ofNat']; omega
  rw [this, ← h, toBE_ofBE]

theorem be32_inj {x y : UInt32} (h : be32 x = be32 y) : x = y := by
  have := congrArg rd32 h; simpa using this
theorem be64_inj {x y : UInt64} (h : be64 x = be64 y) : x = y := by
  have := congrArg rd64 h; simpa using this

end Gosms
