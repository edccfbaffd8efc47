import Verif.Go.Bytes

/-!
# Reading a byte slice with a running index

The decoders of the code read `frame[i]`, `frame[i:i+n]` and `binary.BigEndian.UintNN(frame[i:i+k])`
with a running index. Go checks an index expression against the *length* of the slice but a slice
expression against its *capacity*, so a decoder handed a short frame can read bytes behind it
without a panic. A frame is therefore a `Buf`: the bytes up to the capacity, and the length.
A decoder is a `Rd`: it takes the frame and the index and returns a value and the next index, or
`none` for a run-time panic.
-/

namespace Gosms

/-- A Go `[]byte` as a decoder sees it: the bytes up to its capacity, and its length. -/
structure Buf where
  data : Bytes
  len : Nat
deriving Repr, DecidableEq

/-- Length is at most capacity (Go invariant). -/
def Buf.Ok (f : Buf) : Prop := f.len ≤ f.data.length

/-- A slice whose capacity equals its length. -/
def Buf.exact (b : Bytes) : Buf := ⟨b, b.length⟩

/-- The visible bytes. -/
def Buf.bytes (f : Buf) : Bytes := f.data.take f.len

theorem Buf.exact_ok (b : Bytes) : (Buf.exact b).Ok := Nat.le_refl _

/-- A decoder step: frame and running index to a value and the next index; `none` is a panic. -/
def Rd (α : Type) := Buf → Nat → Option (α × Nat)

namespace Rd

/-- Return without reading. -/
protected def pure {α : Type} (a : α) : Rd α := fun _ i => some (a, i)
/-- Sequence two decoder steps; a panic in the first is a panic of the whole. -/
protected def bind {α β : Type} (r : Rd α) (k : α → Rd β) : Rd β := fun f i =>
  match r f i with
  | none => none
  | some (a, j) => k a f j

instance : Monad Rd where
  pure := Rd.pure
  bind := Rd.bind

theorem pure_def {α : Type} (a : α) : (pure a : Rd α) = Rd.pure a := rfl
theorem bind_def {α β : Type} (r : Rd α) (k : α → Rd β) : (r >>= k) = Rd.bind r k := rfl

/-- `frame[index]; index++` (checked against the length) -/
def byte : Rd UInt8 := fun f i =>
  if i < f.len then
    match f.data[i]? with
    | some b => some (b, i + 1)
    | none => none
  else none

/-- `frame[index:index+n]; index += n` (checked against the capacity) -/
def slice (n : Nat) : Rd Bytes := fun f i =>
  if i + n ≤ f.data.length then some ((f.data.drop i).take n, i + n) else none

/-- `frame[index:index+n]` as a frame of its own: it keeps the capacity of the outer one. -/
def sub (n : Nat) : Rd Buf := fun f i =>
  if i + n ≤ f.data.length then some (⟨f.data.drop i, n⟩, i + n) else none

/-- `binary.BigEndian.Uint16(frame[index:index+2]); index += 2` -/
def u16 : Rd UInt16 := Rd.bind (slice 2) fun b => Rd.pure (rd16 b)
/-- `binary.BigEndian.Uint32(frame[index:index+4]); index += 4` -/
def u32 : Rd UInt32 := Rd.bind (slice 4) fun b => Rd.pure (rd32 b)
/-- `binary.BigEndian.Uint64(frame[index:index+8]); index += 8` -/
def u64 : Rd UInt64 := Rd.bind (slice 8) fun b => Rd.pure (rd64 b)

/-- `index = j` (the code uses a literal index) -/
def seek (j : Nat) : Rd Unit := fun _ _ => some ((), j)

/-- `index += n` without reading -/
def skip (n : Nat) : Rd Unit := fun _ i => some ((), i + n)

/-- `len(frame)` -/
def length : Rd Nat := fun f i => some (f.len, i)

/-- a computation that may panic but reads nothing -/
def lift {α : Type} (o : Option α) : Rd α := fun _ i => o.map fun a => (a, i)

/-- a run-time panic -/
def panic {α : Type} : Rd α := fun _ _ => none

/-- Run a decoder on a frame from index 0. -/
def run {α : Type} (r : Rd α) (f : Buf) : Option α := (r f 0).map (·.1)

/-- Started at index `p`, `r` reads exactly the bytes `out` there and returns `v`. -/
def Reads {α : Type} (p : Nat) (r : Rd α) (out : Bytes) (v : α) : Prop :=
  ∀ (P Q : Bytes) (len : Nat), P.length = p → p + out.length ≤ len →
    r ⟨P ++ (out ++ Q), len⟩ p = some (v, p + out.length)

theorem reads_pure {α : Type} {p : Nat} (a : α) : Reads p (pure a) [] a := by
  intro P Q len _ _; simp [pure_def, Rd.pure]

theorem reads_bind {α β : Type} {p : Nat} {r : Rd α} {k : α → Rd β} {o1 o2 : Bytes} {a : α} {b : β}
    (h1 : Reads p r o1 a) (h2 : Reads (p + o1.length) (k a) o2 b) :
    Reads p (r >>= k) (o1 ++ o2) b := by
  intro P Q len hP hlen
  simp only [List.length_append] at hlen
  have e1 := h1 P (o2 ++ Q) len hP (by omega)
  have e2 := h2 (P ++ o1) Q len (by simp only [List.length_append]; omega) (by omega)
  simp only [bind_def, Rd.bind, List.append_assoc]
  rw [e1]
  simp only [List.append_assoc] at e2
  simp only [List.length_append]
  rw [e2, Nat.add_assoc]

theorem reads_byte {p : Nat} (b : UInt8) : Reads p byte [b] b := by
  intro P Q len hP h
  subst hP
  simp only [List.length_singleton] at h
  have : P.length < len := by omega
  simp [byte, this]

theorem reads_slice {p : Nat} {n : Nat} {o : Bytes} (h : o.length = n) : Reads p (slice n) o o := by
  intro P Q len hP _
  subst h; subst hP
  simp [slice]

theorem reads_u16 {p : Nat} (x : UInt16) : Reads p u16 (be16 x) x := by
  have := reads_bind (reads_slice (p := p) (length_be16 x)) (k := fun b => Rd.pure (rd16 b))
    (reads_pure (rd16 (be16 x)))
  simpa [bind_def, u16] using this
theorem reads_u32 {p : Nat} (x : UInt32) : Reads p u32 (be32 x) x := by
  have := reads_bind (reads_slice (p := p) (length_be32 x)) (k := fun b => Rd.pure (rd32 b))
    (reads_pure (rd32 (be32 x)))
  simpa [bind_def, u32] using this
theorem reads_u64 {p : Nat} (x : UInt64) : Reads p u64 (be64 x) x := by
  have := reads_bind (reads_slice (p := p) (length_be64 x)) (k := fun b => Rd.pure (rd64 b))
    (reads_pure (rd64 (be64 x)))
  simpa [bind_def, u64] using this

theorem reads_skip {p : Nat} {n : Nat} {o : Bytes} (h : o.length = n) : Reads p (skip n) o () := by
  intro P Q len _ _; simp [skip, h]

theorem reads_seek {p j : Nat} (h : p = j) : Reads p (seek j) [] () := by
  intro P Q len _ _; simp [seek, h]

/-- Skipping forward with a literal index. -/
theorem reads_seek_over {p j : Nat} {o : Bytes} (h : p + o.length = j) : Reads p (seek j) o () := by
  intro P Q len _ _; simp [seek, h]

theorem reads_lift {α : Type} {p : Nat} {o : Option α} {a : α} (h : o = some a) :
    Reads p (lift o) [] a := by
  intro P Q len _ _; simp [lift, h]

/-- Reading a sub-frame: whatever the inner decoder reads from its bytes. -/
theorem reads_sub {α β : Type} {p : Nat} {n : Nat} {o : Bytes} (h : o.length = n) {r : Rd α} {v : α}
    (hr : Reads 0 r o v) {k : α → Rd β} {o2 : Bytes} {b : β} (hk : Reads (p + o.length) (k v) o2 b) :
    Reads p (sub n >>= fun s => lift (run r s) >>= k) (o ++ o2) b := by
  intro P Q len hP hlen
  subst hP
  simp only [List.length_append] at hlen
  have e1 := hr [] (o2 ++ Q) n rfl (by simp; omega)
  have e2 := hk (P ++ o) Q len (by simp only [List.length_append]) (by omega)
  simp only [List.nil_append, Nat.zero_add] at e1
  simp only [bind_def, Rd.bind, sub]
  have hle : P.length + n ≤ (P ++ (o ++ o2 ++ Q)).length := by simp; omega
  rw [if_pos hle]
  have hd : (P ++ (o ++ o2 ++ Q)).drop P.length = o ++ (o2 ++ Q) := by simp
  simp only [hd, lift, run, e1, Option.map_some]
  simp only [List.append_assoc, List.length_append] at e2 ⊢
  rw [← h, e2, Nat.add_assoc]

/-- Reading a sub-frame, when the continuation looks at the bytes of the sub-frame only. -/
theorem reads_sub_bind {β : Type} {p n : Nat} {o o2 : Bytes} {k : Buf → Rd β} {b : β} (h : o.length = n)
    (hk : ∀ rest, Reads (p + o.length) (k ⟨o ++ rest, n⟩) o2 b) : Reads p (sub n >>= k) (o ++ o2) b := by
  intro P Q len hP hlen
  subst hP
  simp only [List.length_append] at hlen
  have e2 := hk (o2 ++ Q) (P ++ o) Q len (by simp only [List.length_append]) (by omega)
  simp only [bind_def, Rd.bind, sub]
  have hle : P.length + n ≤ (P ++ (o ++ o2 ++ Q)).length := by simp; omega
  rw [if_pos hle]
  have hd : (P ++ (o ++ o2 ++ Q)).drop P.length = o ++ (o2 ++ Q) := by simp
  simp only [hd]
  simp only [List.append_assoc, List.length_append] at e2 ⊢
  rw [← h] at e2 ⊢
  rw [e2, Nat.add_assoc]

/-- Reading a prefix of a frame. -/
theorem run_of_reads {α : Type} {r : Rd α} {out : Bytes} {v : α} (h : Reads 0 r out v)
    (Q : Bytes) (len : Nat) (hlen : out.length ≤ len) : run r ⟨out ++ Q, len⟩ = some v := by
  have := h [] Q len rfl (by simpa using hlen)
  simp only [List.nil_append, Nat.zero_add] at this
  simp [run, this]

/-- Reading a whole frame. -/
theorem run_exact_of_reads {α : Type} {r : Rd α} {out : Bytes} {v : α} (h : Reads 0 r out v) :
    run r (Buf.exact out) = some v := by
  have := run_of_reads h [] out.length (Nat.le_refl _)
  rwa [List.append_nil] at this

/-- Started at index `p`, `r` needs `n` more bytes: it succeeds, advancing by `n`, when the length
allows it, and panics when even the capacity is too small. -/
def Needs {α : Type} (p : Nat) (r : Rd α) (n : Nat) : Prop :=
  ∀ (f : Buf), f.Ok →
    (p + n ≤ f.len → ∃ v, r f p = some (v, p + n)) ∧
    (p ≤ f.data.length → f.data.length < p + n → r f p = none) ∧
    (∀ v j, r f p = some (v, j) → j = p + n)

theorem needs_pure {α : Type} {p : Nat} (a : α) : Needs p (pure a) 0 := by
  intro f _
  refine ⟨fun _ => ⟨a, rfl⟩, fun h1 h2 => by omega, fun v j h => ?_⟩
  simp only [pure_def, Rd.pure, Option.some.injEq, Prod.mk.injEq] at h
  omega

theorem needs_bind {α β : Type} {p : Nat} {r : Rd α} {k : α → Rd β} {n m : Nat} (h1 : Needs p r n)
    (h2 : ∀ a, Needs (p + n) (k a) m) : Needs p (r >>= k) (n + m) := by
  intro f hf
  obtain ⟨a1, a2, a3⟩ := h1 f hf
  simp only [bind_def, Rd.bind]
  refine ⟨?_, ?_, ?_⟩
  · intro h
    obtain ⟨v, hv⟩ := a1 (by omega)
    rw [hv]
    obtain ⟨w, hw⟩ := (h2 v f hf).1 (by omega)
    exact ⟨w, by simp only [hw, Nat.add_assoc]⟩
  · intro hi h
    by_cases hn : f.data.length < p + n
    · rw [a2 hi hn]
    · cases hx : r f p with
      | none => rfl
      | some q =>
        obtain ⟨v, j⟩ := q
        have := a3 v j hx
        subst this
        exact (h2 v f hf).2.1 (by omega) (by omega)
  · intro v j h
    cases hx : r f p with
    | none => rw [hx] at h; cases h
    | some q =>
      obtain ⟨w, j1⟩ := q
      rw [hx] at h
      have e1 := a3 w j1 hx
      subst e1
      have e2 := (h2 w f hf).2.2 v j h
      omega

theorem needs_byte {p : Nat} : Needs p byte 1 := by
  intro f hf
  refine ⟨?_, ?_, ?_⟩
  · intro h
    have h1 : p < f.len := by omega
    have h2 : p < f.data.length := by unfold Buf.Ok at hf; omega
    exact ⟨f.data[p], by simp [byte, h1, h2]⟩
  · intro _ h
    have : f.data[p]? = none := by simp; omega
    simp [byte, this]
  · intro v j h
    unfold byte at h
    split at h
    · split at h
      · simp only [Option.some.injEq, Prod.mk.injEq] at h; omega
      · cases h
    · cases h

theorem needs_slice {p : Nat} (n : Nat) : Needs p (slice n) n := by
  intro f hf
  refine ⟨fun h => ⟨(f.data.drop p).take n, ?_⟩, fun _ h => ?_, ?_⟩
  · have : p + n ≤ f.data.length := by unfold Buf.Ok at hf; omega
    simp [slice, this]
  · have : ¬ p + n ≤ f.data.length := by omega
    simp [slice, this]
  · intro v j h
    unfold slice at h
    split at h
    · simp only [Option.some.injEq, Prod.mk.injEq] at h; omega
    · cases h

theorem needs_seek {p j : Nat} (h : p = j) : Needs p (seek j) 0 := by
  intro f _
  refine ⟨fun _ => ⟨(), by simp [seek, h]⟩, fun _ _ => by omega, ?_⟩
  intro v k hk
  simp only [seek, Option.some.injEq, Prod.mk.injEq] at hk; omega

theorem needs_u16 {p : Nat} : Needs p u16 2 := needs_bind (needs_slice 2) fun _ => needs_pure _
theorem needs_u32 {p : Nat} : Needs p u32 4 := needs_bind (needs_slice 4) fun _ => needs_pure _
theorem needs_u64 {p : Nat} : Needs p u64 8 := needs_bind (needs_slice 8) fun _ => needs_pure _

/-- A decoder with a fixed demand succeeds on every frame that is long enough ... -/
theorem run_isSome {α : Type} {r : Rd α} {n : Nat} (h : Needs 0 r n) (f : Buf) (hf : f.Ok)
    (hn : n ≤ f.len) : (run r f).isSome := by
  obtain ⟨v, hv⟩ := (h f hf).1 (by omega)
  simp [run, hv]

/-- ... and panics on every frame whose capacity is too small. -/
theorem run_none {α : Type} {r : Rd α} {n : Nat} (h : Needs 0 r n) (f : Buf) (hf : f.Ok)
    (hn : f.data.length < n) : run r f = none := by
  simp [run, (h f hf).2.1 (by omega) (by omega)]

/-- On a frame without spare capacity it panics exactly if the frame is too short. -/
theorem run_none_iff {α : Type} {r : Rd α} {n : Nat} (h : Needs 0 r n) (b : Bytes) :
    run r (Buf.exact b) = none ↔ b.length < n := by
  constructor
  · intro hr
    by_cases hn : n ≤ b.length
    · have := run_isSome h (Buf.exact b) (Buf.exact_ok b) hn
      rw [hr] at this; cases this
    · omega
  · intro hn
    exact run_none h _ (Buf.exact_ok b) hn

/-- Started at index `p`, `r` panics when the frame continues with `out`. -/
def Fails {α : Type} (p : Nat) (r : Rd α) (out : Bytes) : Prop :=
  ∀ (P Q : Bytes) (len : Nat), P.length = p → p + out.length ≤ len → r ⟨P ++ (out ++ Q), len⟩ p = none

theorem fails_bind {α β : Type} {p : Nat} {r : Rd α} {k : α → Rd β} {o1 o2 : Bytes} {a : α}
    (h1 : Reads p r o1 a) (h2 : Fails (p + o1.length) (k a) o2) : Fails p (r >>= k) (o1 ++ o2) := by
  intro P Q len hP hlen
  simp only [List.length_append] at hlen
  have e1 := h1 P (o2 ++ Q) len hP (by omega)
  have e2 := h2 (P ++ o1) Q len (by simp only [List.length_append]; omega) (by omega)
  simp only [bind_def, Rd.bind, List.append_assoc]
  rw [e1]
  simp only [List.append_assoc] at e2
  exact e2

theorem fails_head {α β : Type} {p : Nat} {r : Rd α} {k : α → Rd β} {o : Bytes}
    (h : Fails p r o) : Fails p (r >>= k) o := by
  intro P Q len hP hlen
  simp only [bind_def, Rd.bind]
  rw [h P Q len hP hlen]

theorem fails_lift {α : Type} {p : Nat} {o : Option α} {out : Bytes} (h : o = none) :
    Fails p (lift o) out := by
  intro P Q len _ _; simp [lift, h]

theorem run_of_fails {α : Type} {r : Rd α} {out : Bytes} (h : Fails 0 r out)
    (Q : Bytes) (len : Nat) (hlen : out.length ≤ len) : run r ⟨out ++ Q, len⟩ = none := by
  have := h [] Q len rfl (by simpa using hlen)
  simp only [List.nil_append] at this
  simp [run, this]

theorem fails_length_then {α : Type} {k : Nat → Rd α} {out : Bytes} {len : Nat}
    (h : Fails 0 (k len) out) (Q : Bytes) (hl : out.length ≤ len) :
    run (length >>= k) ⟨out ++ Q, len⟩ = none := by
  have := run_of_fails h Q len hl
  simpa [run, bind_def, Rd.bind, length] using this

/-- Whatever `r` returns satisfies `Φ`. -/
def Post {α : Type} (r : Rd α) (Φ : α → Prop) : Prop := ∀ f i v j, r f i = some (v, j) → Φ v

theorem post_bind {α β : Type} {r : Rd α} {k : α → Rd β} {Ψ : α → Prop} {Φ : β → Prop}
    (h1 : Post r Ψ) (h2 : ∀ a, Ψ a → Post (k a) Φ) : Post (r >>= k) Φ := by
  intro f i v j h
  simp only [bind_def, Rd.bind] at h
  cases hx : r f i with
  | none => rw [hx] at h; cases h
  | some q =>
    obtain ⟨a, j1⟩ := q
    rw [hx] at h
    exact h2 a (h1 f i a j1 hx) f j1 v j h

theorem post_bind' {α β : Type} {r : Rd α} {k : α → Rd β} {Φ : β → Prop}
    (h2 : ∀ a, Post (k a) Φ) : Post (r >>= k) Φ :=
  post_bind (Ψ := fun _ => True) (fun _ _ _ _ _ => trivial) fun a _ => h2 a

theorem post_pure {α : Type} {a : α} {Φ : α → Prop} (h : Φ a) : Post (pure a) Φ := by
  intro f i v j hv
  simp only [pure_def, Rd.pure, Option.some.injEq, Prod.mk.injEq] at hv
  rw [← hv.1]; exact h

theorem post_slice (n : Nat) : Post (slice n) fun b => b.length = n := by
  intro f i v j h
  unfold slice at h
  split at h
  · simp only [Option.some.injEq, Prod.mk.injEq] at h
    rw [← h.1]; simp; omega
  · cases h

theorem run_post {α : Type} {r : Rd α} {Φ : α → Prop} (h : Post r Φ) {f : Buf} {v : α}
    (hr : run r f = some v) : Φ v := by
  unfold run at hr
  cases hx : r f 0 with
  | none => rw [hx] at hr; cases hr
  | some q =>
    obtain ⟨a, j⟩ := q
    rw [hx] at hr
    simp only [Option.map_some, Option.some.injEq] at hr
    subst hr
    exact h f 0 a j hx

end Rd
end Gosms

namespace Gosms.Rd

/-- `frame[index:]` with `len(frame) = len`: the bytes from the index to the end of the slice; panics
when the index is beyond the end. -/
def tail (len : Nat) : Rd Bytes := fun f i => if i ≤ len then slice (len - i) f i else none

/-- `n` consecutive reads (a `for` loop appending to a slice). -/
def times {α : Type} (r : Rd α) : Nat → Rd (List α)
  | 0 => pure []
  | n + 1 => do
    let a ← r
    let as ← times r n
    pure (a :: as)

theorem reads_tail {p len : Nat} {o : Bytes} (h : p + o.length = len) : Reads p (tail len) o o := by
  intro P Q l hP hl
  unfold tail
  rw [if_pos (by omega)]
  exact reads_slice (n := len - p) (by omega) P Q l hP hl

theorem reads_times {α β : Type} {r : Rd α} {enc : β → Bytes} {val : β → α}
    (h : ∀ b p, Reads p r (enc b) (val b)) (l : List β) (p : Nat) :
    Reads p (times r l.length) (l.flatMap enc) (l.map val) := by
  induction l generalizing p with
  | nil => exact reads_pure _
  | cons b l ih =>
    rw [List.flatMap_cons, List.map_cons]
    refine reads_bind (h b p) ?_
    rw [← List.append_nil (l.flatMap enc)]
    exact reads_bind (ih _) (reads_pure _)

end Gosms.Rd
