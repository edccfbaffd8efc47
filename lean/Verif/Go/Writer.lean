import Verif.Go.Bytes

/-!
# Writing into a fixed byte slice with a running index

The encoders of the code allocate `frame := make([]byte, n)` and then fill it with `frame[i] = b`,
`copy(frame[i:i+n], s)` and `binary.BigEndian.PutUintNN(frame[i:i+k], v)`, keeping a running index.
An encoder is modelled as the list of these writes in program order; `run` executes them with Go's
bounds checks (`none` = run-time panic).
-/

namespace Gosms

/-- One write of an encoder. -/
inductive WOp where
  /-- `frame[index] = b; index++` -/
  | byte (b : UInt8)
  /-- `copy(frame[index:index+n], src); index += n`  (also `PutUintNN(frame[index:index+n], v)`
  with `src` the `n` big-endian bytes) -/
  | str (n : Nat) (src : Bytes)
  /-- `copy(frame[index:], src); index += n`: the copy is *not* limited to `n` bytes -/
  | free (n : Nat) (src : Bytes)
  /-- `index = i` (the code uses a literal index) -/
  | seek (i : Nat)
deriving Repr, DecidableEq

/-- Overwrite the bytes of `f` starting at `i` with `s` (callers make sure it fits). -/
def overwrite (f : Bytes) (i : Nat) (s : Bytes) : Bytes := f.take i ++ s ++ f.drop (i + s.length)

/-- One write on a frame at an index; `none` is Go's index/slice-bounds panic. The length of the
slice equals its capacity (it was just made with `make`). -/
def WOp.exec : WOp → Bytes → Nat → Option (Bytes × Nat)
  | .byte b, f, i => if i < f.length then some (overwrite f i [b], i + 1) else none
  | .str n s, f, i => if i + n ≤ f.length then some (overwrite f i (s.take n), i + n) else none
  | .free n s, f, i =>
      if i ≤ f.length then some (overwrite f i (s.take (f.length - i)), i + n) else none
  | .seek j, f, _ => some (f, j)

/-- Run the writes in order. -/
def runW : List WOp → Bytes → Nat → Option (Bytes × Nat)
  | [], f, i => some (f, i)
  | op :: ops, f, i => (op.exec f i).bind fun (f', i') => runW ops f' i'

theorem runW_append (a b : List WOp) (f : Bytes) (i : Nat) :
    runW (a ++ b) f i = (runW a f i).bind fun (f', i') => runW b f' i' := by
  induction a generalizing f i with
  | nil => rfl
  | cons op a ih =>
    simp only [List.cons_append, runW]
    cases op.exec f i with
    | none => rfl
    | some p => simp [ih]

/-- Bytes contributed by a write at position `p`, when it fits. -/
def WOp.out : WOp → Nat → Bytes
  | .byte b, _ => [b]
  | .str n s, _ => pad n s
  | .free n s, _ => pad n s
  | .seek j, p => zeros (j - p)

/-- The write does not go backwards and does not spill over its slot. -/
def WOp.Ok : WOp → Nat → Prop
  | .byte _, _ => True
  | .str _ _, _ => True
  | .free n s, _ => s.length ≤ n
  | .seek j, p => p ≤ j

/-- All bytes contributed by a list of writes starting at position `p`. -/
def layout : List WOp → Nat → Bytes
  | [], _ => []
  | op :: ops, p => op.out p ++ layout ops (p + (op.out p).length)

/-- All writes are in order and within their slots. -/
def AllOk : List WOp → Nat → Prop
  | [], _ => True
  | op :: ops, p => op.Ok p ∧ AllOk ops (p + (op.out p).length)

theorem WOp.exec_out (op : WOp) (P : Bytes) (k : Nat) (hok : op.Ok P.length)
    (hk : (op.out P.length).length ≤ k) :
    op.exec (P ++ zeros k) P.length =
      some ((P ++ op.out P.length) ++ zeros (k - (op.out P.length).length),
        P.length + (op.out P.length).length) := by
  have hsplit : ∀ n s, s.length ≤ n → n ≤ k →
      overwrite (P ++ zeros k) P.length s = P ++ (s ++ zeros (n - s.length)) ++ zeros (k - n) := by
    intro n s hn hk
    have hz : zeros k = zeros s.length ++ (zeros (n - s.length) ++ zeros (k - n)) := by
      rw [← zeros_add, ← zeros_add]; congr 1; omega
    rw [overwrite, hz]
    have h1 : P.length + s.length = (P ++ zeros s.length).length := by simp
    have h2 : (P ++ (zeros s.length ++ (zeros (n - s.length) ++ zeros (k - n)))).take P.length = P := by
      simp
    rw [h2, ← List.append_assoc P, h1, List.drop_left]
    simp
  cases op with
  | byte b =>
    simp only [WOp.out, List.length_singleton] at hk ⊢
    have hlt : P.length < (P ++ zeros k).length := by simp; omega
    rw [WOp.exec, if_pos hlt, hsplit 1 [b] (by simp) hk]
    simp
  | str n s =>
    simp only [WOp.out, length_pad] at hk ⊢
    have hlt : P.length + n ≤ (P ++ zeros k).length := by simp; omega
    rw [WOp.exec, if_pos hlt, hsplit n (s.take n) (by simp; omega) hk]
    have : n - (s.take n).length = n - s.length := by simp; omega
    rw [this, pad]
  | free n s =>
    simp only [WOp.out, WOp.Ok, length_pad] at hk hok ⊢
    have hlt : P.length ≤ (P ++ zeros k).length := by simp
    have hcopy : s.take ((P ++ zeros k).length - P.length) = s := by
      apply List.take_of_length_le; simp; omega
    rw [WOp.exec, if_pos hlt, hcopy, hsplit n s hok hk, pad_of_le hok]
  | seek j =>
    simp only [WOp.out, WOp.Ok, length_zeros] at hk hok ⊢
    rw [WOp.exec, List.append_assoc, ← zeros_add]
    have h1 : j - P.length + (k - (j - P.length)) = k := by omega
    have h2 : P.length + (j - P.length) = j := by omega
    rw [h1, h2]

/-- Running well-formed writes on a zeroed frame yields the concatenation of their slots. -/
theorem runW_layout (ops : List WOp) (P : Bytes) (k : Nat) (hok : AllOk ops P.length)
    (hk : (layout ops P.length).length ≤ k) :
    runW ops (P ++ zeros k) P.length =
      some ((P ++ layout ops P.length) ++ zeros (k - (layout ops P.length).length),
        P.length + (layout ops P.length).length) := by
  induction ops generalizing P k with
  | nil => simp [runW, layout]
  | cons op ops ih =>
    simp only [layout, List.length_append] at hk ⊢
    have h1 : (op.out P.length).length ≤ k := by omega
    rw [runW, WOp.exec_out op P k hok.1 h1]
    have hl : P.length + (op.out P.length).length = (P ++ op.out P.length).length := by simp
    have hok2 := hok.2
    rw [hl] at hok2 hk ⊢
    simp only [Option.bind_some]
    rw [ih _ _ hok2 (by omega)]
    simp only [List.length_append, List.append_assoc]
    rw [← Nat.sub_sub, Nat.add_assoc]

/-- The form used by the codecs: the frame is a header `H` followed by `n` zero bytes. -/
theorem runW_frame (ops : List WOp) (H : Bytes) (n : Nat) (hok : AllOk ops H.length)
    (hn : (layout ops H.length).length = n) :
    runW ops (H ++ zeros n) H.length = some (H ++ layout ops H.length, H.length + n) := by
  rw [runW_layout ops H n hok (by omega), hn]
  simp

/-- Frames never change their length. -/
theorem WOp.exec_length {op : WOp} {f f' : Bytes} {i i' : Nat} (h : op.exec f i = some (f', i')) :
    f'.length = f.length := by
  cases op with
  | byte b =>
    simp only [WOp.exec] at h; split at h
    · simp only [Option.some.injEq, Prod.mk.injEq] at h; rw [← h.1]; simp [overwrite]; omega
    · cases h
  | str n s =>
    simp only [WOp.exec] at h; split at h
    · simp only [Option.some.injEq, Prod.mk.injEq] at h; rw [← h.1]; simp [overwrite]; omega
    · cases h
  | free n s =>
    simp only [WOp.exec] at h; split at h
    · simp only [Option.some.injEq, Prod.mk.injEq] at h; rw [← h.1]; simp [overwrite]; omega
    · cases h
  | seek j => simp only [WOp.exec, Option.some.injEq, Prod.mk.injEq] at h; rw [← h.1]

theorem runW_length {ops : List WOp} {f f' : Bytes} {i i' : Nat}
    (h : runW ops f i = some (f', i')) : f'.length = f.length := by
  induction ops generalizing f i with
  | nil => simp only [runW, Option.some.injEq, Prod.mk.injEq] at h; rw [← h.1]
  | cons op ops ih =>
    simp only [runW] at h
    cases hx : op.exec f i with
    | none => rw [hx] at h; cases h
    | some p =>
      rw [hx] at h
      have := ih h
      rw [this, WOp.exec_length hx]

end Gosms
