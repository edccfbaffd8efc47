import Verif.Spec.Buffers

/-! # C118: what is being handled does not change, and which packets share memory with their makers -/

namespace Gosms.Buffers
open Gosms.Traffic

/-! ## Arrays -/

theorem read_set {α : Type} (h : Heap α) (a : Nat) (x : List α) (s : Slice) (hs : s.arr ≠ a) : read (h.set a x) s = read h s := by
  simp [read, List.getD_eq_getElem?_getD, List.getElem?_set, Ne.symm hs]

theorem read_append {α : Type} (h : Heap α) (x : Heap α) (s : Slice) (hs : s.arr < h.length) : read (h ++ x) s = read h s := by
  simp [read, List.getD_eq_getElem?_getD, List.getElem?_append_left hs]

theorem read_copy {α : Type} (h : Heap α) (d : Slice) (x : List α) (s : Slice) (hs : s.arr ≠ d.arr) : read (copy h d x) s = read h s :=
  read_set h _ _ s hs

theorem length_copy {α : Type} (h : Heap α) (d : Slice) (x : List α) : (copy h d x).length = h.length := by simp [copy]

/-- What is copied into a new slice of the same length is what the slice shows. -/
theorem read_make_copy {α : Type} (h : Heap α) (z x : List α) (hl : z.length = x.length) :
    read (copy (make h z).1 (make h z).2 x) (make h z).2 = x := by
  have e : (h ++ [z]).getD h.length [] = z := by simp [List.getD_eq_getElem?_getD]
  simp only [read, copy, make, e, List.getD_eq_getElem?_getD]
  simp [hl]

theorem length_fresh {α : Type} (h : Heap α) (z x : List α) :
    ((copy (make h z).1 (make h z).2 x).getD (make h z).2.arr []).length = z.length := by
  have e : (h ++ [z]).getD h.length [] = z := by simp [List.getD_eq_getElem?_getD]
  simp only [copy, make, e, List.getD_eq_getElem?_getD]
  simp
  omega

/-- What a new slice shows. -/
theorem read_make {α : Type} (h : Heap α) (x : List α) : read (make h x).1 (make h x).2 = x := by
  simp [read, make, List.getD_eq_getElem?_getD]

/-! ## The server -/

theorem packet_body {zeroAll : Bool} {p : Proto} {b : Bytes} {cmd seq : UInt32} {body rest : Bytes}
    (h : decodeAndCheckHeader zeroAll p b = some (.packet cmd seq body rest)) : (b.drop 12).take body.length = body := by
  unfold decodeAndCheckHeader at h
  split at h
  · cases h
  · dsimp only at h
    split at h
    · cases h
    · obtain ⟨nm, _, h2⟩ := Option.map_eq_some_iff.1 h
      split at h2
      · cases h2
      · split at h2
        · cases h2
        · injection h2 with _ _ h3 _
          subst h3
          have e12 : Traffic.discard zeroAll b 12 = b.drop 12 := rfl
          rw [e12]
          generalize b.drop 12 = c
          have key : ∀ (m : Nat), c.take (peek zeroAll c m).length = peek zeroAll c m := by
            intro m
            unfold peek
            split
            · split
              · exact List.take_length
              · rfl
            · rw [List.length_take]
              exact (List.take_eq_take_min ..).symm
          exact key _

theorem run_snoc (zeroAll : Bool) (p : Proto) (ops : List Op) (x : Op) : run zeroAll p (ops ++ [x]) = step zeroAll p (run zeroAll p ops) x := by
  simp [run]

/-- The arrays named by tasks and queue exist and are not the event loop's. -/
structure Inv (s : State) : Prop where
  loop : 0 < s.heap.length
  tasks : ∀ t ∈ s.tasks, 0 < t.buff.arr ∧ t.buff.arr < s.heap.length
  queue : ∀ q ∈ s.queue, 0 < q.arr ∧ q.arr < s.heap.length

/-- A step writes to the event loop's array and to arrays it makes, and to no others. -/
theorem step_keeps (zeroAll : Bool) (p : Proto) (s : State) (x : Op) :
    s.heap.length ≤ (step zeroAll p s x).heap.length ∧
    ∀ q : Slice, 0 < q.arr → q.arr < s.heap.length → read (step zeroAll p s x).heap q = read s.heap q := by
  cases x with
  | traffic mem off n =>
    simp only [step, traffic]
    split
    · refine ⟨by simp [length_copy, make], fun q h0 hq => ?_⟩
      rw [read_copy _ _ _ _ (by simp [make]; omega)]
      simp only [make]
      rw [read_append _ _ _ (by simpa using hq), read_set _ _ _ _ (by omega)]
    · exact ⟨by simp, fun q h0 hq => read_set _ _ _ _ (by omega)⟩
  | reuse mem => exact ⟨by simp [step], fun q h0 hq => read_set _ _ _ _ (by omega)⟩
  | look k =>
    simp only [step]
    split <;> exact ⟨Nat.le_refl _, fun _ _ _ => rfl⟩
  | write f => exact ⟨by simp [step, make], fun q h0 hq => read_append _ _ _ hq⟩
  | flush =>
    simp only [step]
    split <;> exact ⟨Nat.le_refl _, fun _ _ _ => rfl⟩

theorem inv_run (zeroAll : Bool) (p : Proto) (ops : List Op) : Inv (run zeroAll p ops) := by
  induction ops using snoc_induction with
  | nil => exact ⟨by simp [run], by simp [run], by simp [run]⟩
  | snoc ops x ih =>
    rw [run_snoc]
    generalize run zeroAll p ops = s at ih ⊢
    have hk := (step_keeps zeroAll p s x).1
    have ht : ∀ t ∈ s.tasks, 0 < t.buff.arr ∧ t.buff.arr < (step zeroAll p s x).heap.length :=
      fun t h => ⟨(ih.tasks t h).1, by have := (ih.tasks t h).2; omega⟩
    have hq : ∀ q ∈ s.queue, 0 < q.arr ∧ q.arr < (step zeroAll p s x).heap.length :=
      fun q h => ⟨(ih.queue q h).1, by have := (ih.queue q h).2; omega⟩
    refine ⟨by have := ih.loop; omega, ?_, ?_⟩
    · cases x with
      | traffic mem off n =>
        revert ht
        simp only [step, traffic]
        split
        · intro ht t h
          simp only [List.mem_append, List.mem_singleton] at h
          rcases h with h | h
          · exact ht t h
          · subst h
            have := ih.loop
            simp [make, length_copy, this]
        · exact id
      | look k =>
        revert ht
        simp only [step]
        split <;> exact id
      | flush =>
        revert ht
        simp only [step]
        split <;> exact id
      | reuse mem => exact ht
      | write f => exact ht
    · cases x with
      | traffic mem off n =>
        revert hq
        simp only [step, traffic]
        split <;> exact id
      | look k =>
        revert hq
        simp only [step]
        split <;> exact id
      | flush =>
        revert hq
        simp only [step]
        split
        · rename_i a rest he
          rw [he]
          intro hq q h
          exact hq q (List.mem_cons_of_mem _ h)
        · exact id
      | reuse mem => exact hq
      | write f =>
        intro q h
        simp only [step, List.mem_append, List.mem_singleton] at h
        rcases h with h | h
        · exact hq q h
        · subst h
          have := ih.loop
          simp [make, step, this]

/-- However a history goes on, what a slice shows that is not the event loop's memory stays the same. -/
theorem kept (zeroAll : Bool) (p : Proto) (a b : List Op) (q : Slice) (h0 : 0 < q.arr) (hq : q.arr < (run zeroAll p a).heap.length) :
    q.arr < (run zeroAll p (a ++ b)).heap.length ∧
    read (run zeroAll p (a ++ b)).heap q = read (run zeroAll p a).heap q := by
  induction b using snoc_induction with
  | nil => simpa using hq
  | snoc b x ih =>
    rw [← List.append_assoc, run_snoc]
    obtain ⟨h1, h2⟩ := step_keeps zeroAll p (run zeroAll p (a ++ b)) x
    exact ⟨by omega, by rw [h2 q h0 ih.1, ih.2]⟩

/-- What the argument of each handler shows at any time is the packet as it arrived. -/
theorem tasks_show (zeroAll : Bool) (p : Proto) (ops : List Op) :
    ((run zeroAll p ops).tasks.map fun t => (t.cmd, t.seq, read (run zeroAll p ops).heap t.buff)) = Spec.packets zeroAll p ops := by
  induction ops using snoc_induction with
  | nil => rfl
  | snoc ops x ih =>
    have hi := inv_run zeroAll p ops
    rw [run_snoc]
    simp only [Spec.packets, List.filterMap_append] at ih ⊢
    rw [← ih]
    generalize run zeroAll p ops = s at hi ⊢
    have hk := (step_keeps zeroAll p s x).2
    have old : (s.tasks.map fun t => (t.cmd, t.seq, read (step zeroAll p s x).heap t.buff)) =
        s.tasks.map fun t => (t.cmd, t.seq, read s.heap t.buff) :=
      List.map_congr_left fun t ht => by rw [hk t.buff (hi.tasks t ht).1 (hi.tasks t ht).2]
    cases x with
    | traffic mem off n =>
      have hr : read (s.heap.set 0 mem) ⟨0, off, n⟩ = (mem.drop off).take n := by
        simp [read, List.getD_eq_getElem?_getD, hi.loop]
      cases hd : decodeAndCheckHeader zeroAll p ((mem.drop off).take n) with
      | none =>
        revert old
        simp only [step, traffic, hr, hd, Spec.arrived, List.filterMap_cons, List.filterMap_nil, List.append_nil]
        exact id
      | some hd' =>
        cases hd' with
        | wait =>
          revert old
          simp only [step, traffic, hr, hd, Spec.arrived, List.filterMap_cons, List.filterMap_nil, List.append_nil]
          exact id
        | close =>
          revert old
          simp only [step, traffic, hr, hd, Spec.arrived, List.filterMap_cons, List.filterMap_nil, List.append_nil]
          exact id
        | packet cmd seq body rest =>
          revert old
          simp only [step, traffic, hr, hd, Spec.arrived, List.filterMap_cons, List.filterMap_nil]
          intro old
          have hb := packet_body hd
          have e : read (make (s.heap.set 0 mem) (zeros body.length)).1 ⟨0, off + 12, body.length⟩ = body := by
            simp only [make]
            rw [read_append _ _ _ (by simpa using hi.loop)]
            have e1 : read (s.heap.set 0 mem) ⟨0, off + 12, body.length⟩ = (mem.drop (off + 12)).take body.length := by
              simp [read, List.getD_eq_getElem?_getD, hi.loop]
            rw [e1]
            rw [List.drop_take, List.take_take, List.drop_drop] at hb
            have hl := congrArg List.length hb
            rw [List.length_take] at hl
            rw [show min body.length (n - 12) = body.length by omega] at hb
            exact hb
          rw [List.map_append, old]
          simp only [List.map_cons, List.map_nil]
          rw [e, read_make_copy _ _ _ (by simp)]
    | look k =>
      have e : (step zeroAll p s (.look k)).tasks = s.tasks := by simp only [step]; split <;> rfl
      rw [e, old]
      simp [Spec.arrived]
    | flush =>
      have e : (step zeroAll p s .flush).tasks = s.tasks := by simp only [step]; split <;> rfl
      rw [e, old]
      simp [Spec.arrived]
    | reuse mem =>
      have e : (step zeroAll p s (.reuse mem)).tasks = s.tasks := rfl
      rw [e, old]
      simp [Spec.arrived]
    | write f =>
      have e : (step zeroAll p s (.write f)).tasks = s.tasks := rfl
      rw [e, old]
      simp [Spec.arrived]

theorem seen_step (zeroAll : Bool) (p : Proto) (s : State) (x : Op) (hx : ∀ k, x ≠ .look k) : (step zeroAll p s x).seen = s.seen := by
  cases x with
  | traffic mem off n =>
    simp only [step, traffic]
    split <;> rfl
  | look k => exact absurd rfl (hx k)
  | flush =>
    simp only [step]
    split <;> rfl
  | reuse mem => rfl
  | write f => rfl

/-- **C118.** Whenever a handler, or a goroutine it has started, reads the packet it was given, it reads the bytes that arrived,
whatever has arrived since, on this connection or another. -/
theorem handlers_read_what_arrived (zeroAll : Bool) (p : Proto) (ops : List Op) :
    ∀ e ∈ (run zeroAll p ops).seen, ((Spec.packets zeroAll p ops)[e.1]?).map (·.2.2) = some e.2 := by
  induction ops using snoc_induction with
  | nil => simp [run]
  | snoc ops x ih =>
    have old : ∀ e ∈ (run zeroAll p ops).seen, ((Spec.packets zeroAll p (ops ++ [x]))[e.1]?).map (·.2.2) = some e.2 := by
      intro e he
      have h := ih e he
      cases hg : (Spec.packets zeroAll p ops)[e.1]? with
      | none => rw [hg] at h; cases h
      | some q =>
        rw [hg] at h
        have hlt : e.1 < (Spec.packets zeroAll p ops).length := (List.getElem?_eq_some_iff.1 hg).1
        have e1 : Spec.packets zeroAll p (ops ++ [x]) = Spec.packets zeroAll p ops ++ Spec.packets zeroAll p [x] := by
          simp [Spec.packets]
        rw [e1, List.getElem?_append_left hlt, hg]
        exact h
    rw [run_snoc]
    by_cases hx : ∃ k, x = .look k
    · obtain ⟨k, rfl⟩ := hx
      cases hk : (run zeroAll p ops).tasks[k]? with
      | none =>
        have e : step zeroAll p (run zeroAll p ops) (.look k) = run zeroAll p ops := by simp only [step, hk]
        rw [e]
        exact old
      | some t =>
        intro e he
        simp only [step, hk, List.mem_append, List.mem_singleton] at he
        rcases he with he | he
        · exact old e he
        · subst he
          have hs : Spec.packets zeroAll p (ops ++ [.look k]) = Spec.packets zeroAll p ops := by simp [Spec.packets, Spec.arrived]
          rw [hs, ← tasks_show]
          simp [hk]
    · rw [seen_step zeroAll p _ x (fun k h => hx ⟨k, h⟩)]
      exact old

/-- **C118.** What went out to the sockets, and then what still waits to go out, is what was encoded, in the order it was handed
to `AsyncWrite`: nothing that happens before the event loop writes a frame changes it. -/
theorem frames_leave_as_encoded (zeroAll : Bool) (p : Proto) (ops : List Op) :
    (run zeroAll p ops).wire ++ (run zeroAll p ops).queue.map (read (run zeroAll p ops).heap) = Spec.written ops := by
  induction ops using snoc_induction with
  | nil => rfl
  | snoc ops x ih =>
    have hi := inv_run zeroAll p ops
    rw [run_snoc]
    simp only [Spec.written, List.filterMap_append] at ih ⊢
    rw [← ih]
    generalize run zeroAll p ops = s at hi ⊢
    have hk := (step_keeps zeroAll p s x).2
    have old : s.queue.map (read (step zeroAll p s x).heap) = s.queue.map (read s.heap) :=
      List.map_congr_left fun q hq => hk q (hi.queue q hq).1 (hi.queue q hq).2
    cases x with
    | traffic mem off n =>
      have e : (step zeroAll p s (.traffic mem off n)).wire = s.wire ∧ (step zeroAll p s (.traffic mem off n)).queue = s.queue := by
        simp only [step, traffic]
        split <;> exact ⟨rfl, rfl⟩
      rw [e.1, e.2, old]
      simp
    | look k =>
      have e : (step zeroAll p s (.look k)).wire = s.wire ∧ (step zeroAll p s (.look k)).queue = s.queue := by
        simp only [step]
        split <;> exact ⟨rfl, rfl⟩
      rw [e.1, e.2, old]
      simp
    | reuse mem =>
      have e : (step zeroAll p s (.reuse mem)).wire = s.wire ∧ (step zeroAll p s (.reuse mem)).queue = s.queue := ⟨rfl, rfl⟩
      rw [e.1, e.2, old]
      simp
    | write f =>
      have e : (step zeroAll p s (.write f)).wire = s.wire ∧ (step zeroAll p s (.write f)).queue = s.queue ++ [(make s.heap f).2] :=
        ⟨rfl, rfl⟩
      have e2 : (step zeroAll p s (.write f)).heap = (make s.heap f).1 := rfl
      rw [e.1, e.2, List.map_append, old, e2]
      simp [read_make]
    | flush =>
      cases hq : s.queue with
      | nil => simp [step, hq]
      | cons q rest => simp [step, hq]

/-- The event loop's memory is overwritten between the arrival of a packet and its handling: a history with two packets, handled
after both have arrived. -/
example :
    let f1 := be32 16 ++ be32 4 ++ be32 7 ++ [1, 2, 3, 4]
    let f2 := be32 16 ++ be32 4 ++ be32 8 ++ [5, 6, 7, 8]
    let s := run false .cmpp [.traffic f1 0 16, .traffic f2 0 16, .look 0, .reuse [], .look 1, .write [9], .reuse [7], .flush]
    s.seen = [(0, [1, 2, 3, 4]), (1, [5, 6, 7, 8])] ∧ s.wire = [[9]] := by decide

/-! ## Decoded packets -/

/-- Whatever `r` returns, started at index `i` of the frame `b`, satisfies `Φ`. -/
def After {α : Type} (b : Buf) (i : Nat) (r : Rd α) (Φ : α → Prop) : Prop := ∀ v j, r b i = some (v, j) → Φ v

theorem after_length {β : Type} {b : Buf} {i : Nat} {k : Nat → Rd β} {Φ : β → Prop} (h : ∀ n, After b i (k n) Φ) :
    After b i (Rd.length >>= k) Φ := fun v j hv => h _ v j hv

theorem after_seek {β : Type} {b : Buf} {i n : Nat} {k : Unit → Rd β} {Φ : β → Prop} (h : After b n (k ()) Φ) :
    After b i (Rd.seek n >>= k) Φ := fun v j hv => h v j hv

theorem after_byte {β : Type} {b : Buf} {i : Nat} {k : UInt8 → Rd β} {Φ : β → Prop} (h : ∀ x, After b (i + 1) (k x) Φ) :
    After b i (Rd.byte >>= k) Φ := by
  intro v j hv
  simp only [Rd.bind_def, Rd.bind, Rd.byte] at hv
  by_cases hi : i < b.len
  · rw [if_pos hi] at hv
    cases hx : b.data[i]? with
    | none => rw [hx] at hv; cases hv
    | some x => rw [hx] at hv; exact h x v j hv
  · rw [if_neg hi] at hv; cases hv

theorem after_slice {β : Type} {b : Buf} {i n : Nat} {k : Bytes → Rd β} {Φ : β → Prop}
    (h : i + n ≤ b.data.length → After b (i + n) (k ((b.data.drop i).take n)) Φ) : After b i (Rd.slice n >>= k) Φ := by
  intro v j hv
  simp only [Rd.bind_def, Rd.bind, Rd.slice] at hv
  by_cases hi : i + n ≤ b.data.length
  · rw [if_pos hi] at hv; exact h hi v j hv
  · rw [if_neg hi] at hv; cases hv

theorem after_str {β : Type} {b : Buf} {i n : Nat} {k : Bytes → Rd β} {Φ : β → Prop} (h : ∀ s, After b (i + n) (k s) Φ) :
    After b i (Rd.str n >>= k) Φ := by
  intro v j hv
  simp only [Rd.str, Rd.bind_def, Rd.bind, Rd.pure_def, Rd.pure, Rd.slice] at hv
  by_cases hi : i + n ≤ b.data.length
  · rw [if_pos hi] at hv; exact h _ v j hv
  · rw [if_neg hi] at hv; cases hv

theorem after_u32 {β : Type} {b : Buf} {i : Nat} {k : UInt32 → Rd β} {Φ : β → Prop} (h : ∀ x, After b (i + 4) (k x) Φ) :
    After b i (Rd.u32 >>= k) Φ := by
  intro v j hv
  simp only [Rd.u32, Rd.bind_def, Rd.bind, Rd.pure, Rd.slice] at hv
  by_cases hi : i + 4 ≤ b.data.length
  · rw [if_pos hi] at hv; exact h _ v j hv
  · rw [if_neg hi] at hv; cases hv

theorem after_u32Tail {β : Type} {b : Buf} {i : Nat} {k : UInt32 → Rd β} {Φ : β → Prop} (h : ∀ x, After b (i + 4) (k x) Φ) :
    After b i (Rd.u32Tail >>= k) Φ := by
  intro v j hv
  simp only [Rd.bind_def, Rd.bind] at hv
  cases hx : Rd.u32Tail b i with
  | none => rw [hx] at hv; cases hv
  | some q =>
    have hq : q.2 = i + 4 := by
      unfold Rd.u32Tail at hx
      split at hx
      · simp only [Rd.u32, Rd.bind_def, Rd.bind, Rd.pure, Rd.slice] at hx
        split at hx
        · cases hx
        · rename_i he
          split at he
          · injection he with he
            injection he with _ he
            injection hx with hx
            rw [← hx]
            exact he.symm
          · cases he
      · cases hx
    obtain ⟨x, y⟩ := q
    rw [hx] at hv
    dsimp only at hq hv
    subst hq
    exact h x v j hv

theorem after_strs {β : Type} {b : Buf} : ∀ (m : Nat) {i n : Nat} {k : List Bytes → Rd β} {Φ : β → Prop},
    (∀ l, After b (i + n * m) (k l) Φ) → After b i (Rd.times (Rd.str n) m >>= k) Φ
  | 0, i, n, k, Φ, h => fun v j hv => h [] v j hv
  | m + 1, i, n, k, Φ, h => by
    have e : (Rd.times (Rd.str n) (m + 1) >>= k) = (Rd.str n >>= fun x => Rd.times (Rd.str n) m >>= fun l => k (x :: l)) := by
      funext f i
      simp only [Rd.times, Rd.bind_def, Rd.bind, Rd.pure_def, Rd.pure]
      cases Rd.str n f i with
      | none => rfl
      | some q =>
        dsimp only
        cases Rd.times (Rd.str n) m f q.2 <;> rfl
    rw [e]
    refine after_str fun x => after_strs m fun l => ?_
    have := h (x :: l)
    rw [show i + n * (m + 1) = i + n + n * m by rw [Nat.mul_succ]; omega] at this
    exact this

theorem after_lift {α β : Type} {b : Buf} {i : Nat} {o : Option α} {k : α → Rd β} {Φ : β → Prop}
    (h : ∀ a, o = some a → After b i (k a) Φ) : After b i (Rd.lift o >>= k) Φ := by
  intro v j hv
  cases o with
  | none => cases hv
  | some a => exact h a rfl v j hv

theorem after_pure {β : Type} {b : Buf} {i : Nat} {a : β} {Φ : β → Prop} (h : Φ a) : After b i (pure a) Φ := by
  intro v j hv
  simp only [Rd.pure_def, Rd.pure, Option.some.injEq, Prod.mk.injEq] at hv
  rw [← hv.1]; exact h

theorem after_pure_bind {α β : Type} {b : Buf} {i : Nat} {a : α} {k : α → Rd β} {Φ : β → Prop} (h : After b i (k a) Φ) :
    After b i (pure a >>= k) Φ := fun v j hv => h v j hv

theorem after_run {α : Type} {b : Buf} {r : Rd α} {Φ : α → Prop} (h : After b 0 r Φ) {v : α} (hr : Rd.run r b = some v) : Φ v := by
  unfold Rd.run at hr
  obtain ⟨⟨a, j⟩, h1, rfl⟩ := Option.map_eq_some_iff.1 hr
  exact h a j h1

theorem take_len {α : Type} (l : List α) (n : Nat) : l.take n = l.take (l.take n).length := by
  rw [List.length_take]
  exact List.take_eq_take_min ..

theorem length_part {l : Bytes} {i n : Nat} (h : i + n ≤ l.length) : ((l.drop i).take n).length = n := by
  rw [List.length_take, List.length_drop]
  omega

/-- Where the recipients and the content of a decoded CMPP submit were read. -/
theorem cmpp_where {v : UInt8} {seq : UInt32} {f : Buf} {p : Cmpp.Submit} (h : Cmpp.Submit.decode v seq f = some p) :
    p.termIds = (f.data.drop (if Cmpp.v3 v then 129 else 117)).take p.termIds.length ∧
    Cmpp.decodedContent ((f.data.drop ((if Cmpp.v3 v then 129 else 117) + p.termIds.length + (if Cmpp.v3 v then 2 else 1))).take
      p.msgLength.toNat) = some p.msgContent := by
  unfold Cmpp.Submit.decode at h
  revert h
  by_cases hv : Cmpp.v3 v = true
  · simp only [hv, if_true]
    intro h
    refine after_run (Φ := fun p : Cmpp.Submit => p.termIds = (f.data.drop 129).take p.termIds.length ∧
      Cmpp.decodedContent ((f.data.drop (129 + p.termIds.length + 2)).take p.msgLength.toNat) = some p.msgContent) ?_ h
    refine after_length fun _ => after_seek ?_
    refine after_byte fun _ => after_byte fun _ => after_byte fun _ => after_byte fun _ => after_str fun _ => after_byte fun _ => ?_
    refine after_str fun _ => after_byte fun _ => after_byte fun _ => after_byte fun _ => after_byte fun _ => ?_
    refine after_str fun _ => after_str fun _ => after_str fun _ => after_str fun _ => after_str fun _ => after_str fun _ => ?_
    refine after_byte fun _ => after_slice fun hl => after_byte fun _ => after_byte fun _ => after_slice fun _ => after_lift fun _ hc => ?_
    refine after_str fun _ => after_pure ⟨?_, ?_⟩
    · exact take_len _ _
    · dsimp only
      rw [length_part hl]
      exact hc
  · simp only [hv]
    intro h
    refine after_run (Φ := fun p : Cmpp.Submit => p.termIds = (f.data.drop 117).take p.termIds.length ∧
      Cmpp.decodedContent ((f.data.drop (117 + p.termIds.length + 1)).take p.msgLength.toNat) = some p.msgContent) ?_ h
    refine after_length fun _ => after_seek ?_
    refine after_byte fun _ => after_byte fun _ => after_byte fun _ => after_byte fun _ => after_str fun _ => after_byte fun _ => ?_
    refine after_str fun _ => after_pure_bind (after_byte fun _ => after_byte fun _ => after_byte fun _ => ?_)
    refine after_str fun _ => after_str fun _ => after_str fun _ => after_str fun _ => after_str fun _ => after_str fun _ => ?_
    refine after_byte fun _ => after_slice fun hl => after_pure_bind (after_byte fun _ => after_slice fun _ => after_lift fun _ hc => ?_)
    refine after_pure_bind (after_pure ⟨?_, ?_⟩)
    · exact take_len _ _
    · dsimp only
      rw [length_part hl]
      exact hc

/-- Where the content of a decoded SGIP submit was read. -/
theorem sgip_where {cid : UInt32} {f : Buf} {p : Sgip.Submit} (h : Sgip.Submit.decode cid f = some p) :
    Cmpp.decodedContent ((f.data.drop (123 + 21 * p.userCount.toNat)).take p.messageLength.toNat) = some p.messageContent := by
  unfold Sgip.Submit.decode at h
  refine after_run (Φ := fun p : Sgip.Submit =>
    Cmpp.decodedContent ((f.data.drop (123 + 21 * p.userCount.toNat)).take p.messageLength.toNat) = some p.messageContent) ?_ h
  refine after_length fun _ => after_u32Tail fun _ => after_u32Tail fun _ => after_str fun _ => after_str fun _ => after_byte fun n => ?_
  refine after_strs _ fun _ => ?_
  refine after_str fun _ => after_str fun _ => after_byte fun _ => after_str fun _ => after_str fun _ => ?_
  refine after_byte fun _ => after_byte fun _ => after_byte fun _ => after_str fun _ => after_str fun _ => ?_
  refine after_byte fun _ => after_byte fun _ => after_byte fun _ => after_byte fun _ => after_byte fun _ => ?_
  refine after_u32Tail fun _ => after_slice fun _ => after_lift fun _ hc => after_pure ?_
  dsimp only
  rw [← hc]
  simp only [Sgip.decodedContent]
  congr 3
  omega

theorem read_sub (h : Heap UInt8) (f : Slice) (i n : Nat) : read h (f.sub i n) = ((f.buf h).data.drop i).take n := by
  simp [read, Slice.sub, Slice.buf, List.drop_drop]

theorem kept_sub {h h' : Heap UInt8} {f : Slice} (hk : ∀ q : Slice, q.arr = f.arr → read h' q = read h q) (i n : Nat) :
    read h' (f.sub i n) = read h (f.sub i n) := hk _ rfl

theorem decodedContent_whole {c m : Bytes} (h : Cmpp.decodedContent c = some m) (hp : isPart c = false) : m = c := by
  unfold Cmpp.decodedContent at h
  split at h
  · cases h
  · rename_i a r1
    split at h
    · injection h with h; exact h.symm
    · split at h
      · cases h
      · rename_i b r2
        split at h
        · injection h with h; exact h.symm
        · split at h
          · cases h
          · rename_i d r3
            split at h
            · injection h with h; exact h.symm
            · simp_all [isPart]

/-- A decoded CMPP submit shows the values it was decoded to as long as the array of the argument stays as it is. -/
theorem cmppSubmit_view {v : UInt8} {seq : UInt32} {h h' : Heap UInt8} {frame : Slice} {c : CmppSubmit}
    (hc : cmppSubmit v seq h frame = some c) (hk : ∀ q : Slice, q.arr = frame.arr → read h' q = read h q) : c.view h' = c.pkt := by
  unfold cmppSubmit at hc
  obtain ⟨p, hp, rfl⟩ := Option.map_eq_some_iff.1 hc
  obtain ⟨h1, h2⟩ := cmpp_where hp
  simp only [CmppSubmit.view]
  rw [kept_sub hk, read_sub, ← h1]
  congr 1
  by_cases hpart : isPart (read h (frame.sub ((if Cmpp.v3 v then 129 else 117) + p.termIds.length + (if Cmpp.v3 v then 2 else 1))
      p.msgLength.toNat)) = true
  · rw [if_pos hpart]
  · rw [if_neg hpart]
    dsimp only
    rw [kept_sub hk, read_sub]
    rw [read_sub] at hpart
    exact (decodedContent_whole h2 (by simpa using hpart)).symm

/-- A decoded SGIP submit likewise. -/
theorem sgipSubmit_view {cid : UInt32} {h h' : Heap UInt8} {frame : Slice} {c : SgipSubmit}
    (hc : sgipSubmit cid h frame = some c) (hk : ∀ q : Slice, q.arr = frame.arr → read h' q = read h q) : c.view h' = c.pkt := by
  unfold sgipSubmit at hc
  obtain ⟨p, hp, rfl⟩ := Option.map_eq_some_iff.1 hc
  have h2 := sgip_where hp
  simp only [SgipSubmit.view]
  congr 1
  by_cases hpart : isPart (read h (frame.sub (123 + 21 * p.userCount.toNat) p.messageLength.toNat)) = true
  · rw [if_pos hpart]
  · rw [if_neg hpart]
    dsimp only
    rw [kept_sub hk, read_sub]
    rw [read_sub] at hpart
    exact (decodedContent_whole h2 (by simpa using hpart)).symm

/-- A decoded CMPP login likewise. -/
theorem cmppConnect_view {seq : UInt32} {h h' : Heap UInt8} {frame : Slice} {c : CmppConnect}
    (hc : cmppConnect seq h frame = some c) (hk : ∀ q : Slice, q.arr = frame.arr → read h' q = read h q) : c.view h' = c.pkt := by
  unfold cmppConnect at hc
  obtain ⟨p, hp, rfl⟩ := Option.map_eq_some_iff.1 hc
  simp only [CmppConnect.view]
  have : read h' (frame.sub 6 16) = p.authenticatorSource := by
    rw [kept_sub hk, read_sub]
    unfold Cmpp.Connect.decode at hp
    refine after_run (Φ := fun p : Cmpp.Connect => ((frame.buf h).data.drop 6).take 16 = p.authenticatorSource) ?_ hp
    exact after_seek (after_str fun _ => after_seek (after_slice fun _ => after_seek (after_byte fun _ => after_seek (after_u32 fun _ => after_pure rfl))))
  rw [this]

/-- A decoded SMGP login likewise. -/
theorem smgpLogin_view {seq : UInt32} {h h' : Heap UInt8} {frame : Slice} {c : SmgpLogin}
    (hc : smgpLogin seq h frame = some c) (hk : ∀ q : Slice, q.arr = frame.arr → read h' q = read h q) : c.view h' = c.pkt := by
  unfold smgpLogin at hc
  obtain ⟨p, hp, rfl⟩ := Option.map_eq_some_iff.1 hc
  simp only [SmgpLogin.view]
  have : read h' (frame.sub 8 16) = p.authenticatorClient := by
    rw [kept_sub hk, read_sub]
    unfold Smgp.Login.decode at hp
    refine after_run (Φ := fun p : Smgp.Login => ((frame.buf h).data.drop 8).take 16 = p.authenticatorClient) ?_ hp
    exact after_length fun _ => after_seek (after_slice fun _ => after_seek (after_slice fun _ => after_seek (after_byte fun _ =>
      after_seek (after_u32 fun _ => after_seek (after_byte fun _ => after_pure rfl)))))
  rw [this]

theorem array_of_read {α : Type} {h h' : Heap α} {a : Nat} (hk : ∀ q : Slice, q.arr = a → read h' q = read h q) :
    h'.getD a [] = h.getD a [] := by
  have e := hk ⟨a, 0, max (h'.getD a []).length (h.getD a []).length⟩ rfl
  simp only [read, List.drop_zero] at e
  rwa [List.take_of_length_le (by omega), List.take_of_length_le (by omega)] at e

/-- The argument of a handler is a slice of its own, as long as the array behind it. -/
theorem task_whole (zeroAll : Bool) (p : Proto) (ops : List Op) :
    ∀ t ∈ (run zeroAll p ops).tasks, t.buff.off = 0 ∧ t.buff.len = ((run zeroAll p ops).heap.getD t.buff.arr []).length := by
  induction ops using snoc_induction with
  | nil => simp [run]
  | snoc ops x ih =>
    have hi := inv_run zeroAll p ops
    rw [run_snoc]
    generalize run zeroAll p ops = s at hi ih ⊢
    have hk := (step_keeps zeroAll p s x).2
    have old : ∀ t ∈ s.tasks, t.buff.off = 0 ∧ t.buff.len = ((step zeroAll p s x).heap.getD t.buff.arr []).length := by
      intro t ht
      obtain ⟨h0, h1⟩ := hi.tasks t ht
      rw [array_of_read (h := s.heap) fun q hq => hk q (by omega) (by omega)]
      exact ih t ht
    cases x with
    | traffic mem off n =>
      revert old
      simp only [step, traffic]
      split
      · intro old t ht
        rw [List.mem_append, List.mem_singleton] at ht
        rcases ht with ht | rfl
        · exact old t ht
        · refine ⟨rfl, ?_⟩
          rw [length_fresh]
          simp [make]
      · exact id
    | look k =>
      revert old
      simp only [step]
      split <;> exact id
    | flush =>
      revert old
      simp only [step]
      split <;> exact id
    | reuse mem => exact old
    | write f => exact old

/-- **C118.** The packets the handlers make of their argument, at any time after its arrival: they are the ones in the bytes that
arrived, and their fields show the same values however the history goes on. -/
theorem decoded_packets_keep (zeroAll : Bool) (p : Proto) (a b : List Op) (k : Nat) (t : Task) (cmd seq : UInt32) (body : Bytes)
    (ht : (run zeroAll p a).tasks[k]? = some t) (hb : (Spec.packets zeroAll p a)[k]? = some (cmd, seq, body)) :
    t.cmd = cmd ∧ t.seq = seq ∧ t.buff.buf (run zeroAll p a).heap = Buf.exact body ∧
    (∀ v c, cmppSubmit v t.seq (run zeroAll p a).heap t.buff = some c →
      Cmpp.Submit.decode v seq (Buf.exact body) = some c.pkt ∧ c.view (run zeroAll p (a ++ b)).heap = c.pkt) ∧
    (∀ c, sgipSubmit t.seq (run zeroAll p a).heap t.buff = some c →
      Sgip.Submit.decode seq (Buf.exact body) = some c.pkt ∧ c.view (run zeroAll p (a ++ b)).heap = c.pkt) ∧
    (∀ c, cmppConnect t.seq (run zeroAll p a).heap t.buff = some c →
      Cmpp.Connect.decode seq (Buf.exact body) = some c.pkt ∧ c.view (run zeroAll p (a ++ b)).heap = c.pkt) ∧
    (∀ c, smgpLogin t.seq (run zeroAll p a).heap t.buff = some c →
      Smgp.Login.decode seq (Buf.exact body) = some c.pkt ∧ c.view (run zeroAll p (a ++ b)).heap = c.pkt) := by
  have hm : t ∈ (run zeroAll p a).tasks := List.mem_of_getElem? ht
  obtain ⟨h0, h1⟩ := (inv_run zeroAll p a).tasks t hm
  have hk : ∀ q : Slice, q.arr = t.buff.arr → read (run zeroAll p (a ++ b)).heap q = read (run zeroAll p a).heap q :=
    fun q hq => (kept zeroAll p a b q (by omega) (by omega)).2
  rw [← tasks_show] at hb
  simp only [List.getElem?_map, ht, Option.map_some, Option.some.injEq, Prod.mk.injEq] at hb
  obtain ⟨rfl, rfl, rfl⟩ := hb
  have hbuf : t.buff.buf (run zeroAll p a).heap = Buf.exact (read (run zeroAll p a).heap t.buff) := by
    obtain ⟨e0, e1⟩ := task_whole zeroAll p a t hm
    simp only [Slice.buf, Buf.exact, read, e0, List.drop_zero, e1, List.take_length]
  refine ⟨rfl, rfl, hbuf, ?_, ?_, ?_, ?_⟩
  · intro v c hc
    refine ⟨?_, cmppSubmit_view hc hk⟩
    rw [← hbuf]
    unfold cmppSubmit at hc
    obtain ⟨q, hq, rfl⟩ := Option.map_eq_some_iff.1 hc
    exact hq
  · intro c hc
    refine ⟨?_, sgipSubmit_view hc hk⟩
    rw [← hbuf]
    unfold sgipSubmit at hc
    obtain ⟨q, hq, rfl⟩ := Option.map_eq_some_iff.1 hc
    exact hq
  · intro c hc
    refine ⟨?_, cmppConnect_view hc hk⟩
    rw [← hbuf]
    unfold cmppConnect at hc
    obtain ⟨q, hq, rfl⟩ := Option.map_eq_some_iff.1 hc
    exact hq
  · intro c hc
    refine ⟨?_, smgpLogin_view hc hk⟩
    rw [← hbuf]
    unfold smgpLogin at hc
    obtain ⟨q, hq, rfl⟩ := Option.map_eq_some_iff.1 hc
    exact hq

/-! ## Where memory is shared -/

theorem head_store {α : Type} {h : Heap α} {s : Slice} (hs : read h s ≠ []) (x : α) : (read (store h s 0 x) s).head? = some x := by
  have ha : s.arr < h.length := by
    refine Decidable.byContradiction fun hn => hs ?_
    simp [read, List.getD_eq_getElem?_getD, List.getElem?_eq_none (Nat.le_of_not_lt hn)]
  have e : (h.set s.arr ((h.getD s.arr []).set s.off x)).getD s.arr [] = (h.getD s.arr []).set s.off x := by
    simp [List.getD_eq_getElem?_getD, ha]
  simp only [read, store, Nat.add_zero, e]
  simp only [read] at hs
  generalize h.getD s.arr [] = l at hs ⊢
  have h0 : s.len ≠ 0 := fun h0 => hs (by simp [h0])
  have h1 : s.off < l.length := by
    refine Decidable.byContradiction fun hn => hs ?_
    simp [List.drop_eq_nil_of_le (Nat.le_of_not_lt hn)]
  rw [List.head?_take, if_neg h0, List.head?_drop]
  simp [h1]

/-- Where the text of a decoded CMPP submit lies, if in the argument; it is not empty. -/
theorem cmpp_content {v : UInt8} {seq : UInt32} {h : Heap UInt8} {frame : Slice} {c : CmppSubmit}
    (hc : cmppSubmit v seq h frame = some c) {s : Slice} (hs : c.content = some s) : s.arr = frame.arr ∧ read h s ≠ [] := by
  unfold cmppSubmit at hc
  obtain ⟨p, hq, rfl⟩ := Option.map_eq_some_iff.1 hc
  obtain ⟨_, h2⟩ := cmpp_where hq
  dsimp only at hs
  generalize (if Cmpp.v3 v = true then 129 else 117) + p.termIds.length + (if Cmpp.v3 v = true then 2 else 1) = i at hs h2
  split at hs
  · cases hs
  · injection hs with hs
    subst hs
    refine ⟨rfl, ?_⟩
    rw [read_sub]
    intro h0
    rw [h0] at h2
    cases h2

/-- Where the text of a decoded SGIP submit lies, if in the argument; it is not empty. -/
theorem sgip_content {cid : UInt32} {h : Heap UInt8} {frame : Slice} {c : SgipSubmit}
    (hc : sgipSubmit cid h frame = some c) {s : Slice} (hs : c.content = some s) : s.arr = frame.arr ∧ read h s ≠ [] := by
  unfold sgipSubmit at hc
  obtain ⟨p, hq, rfl⟩ := Option.map_eq_some_iff.1 hc
  have h2 := sgip_where hq
  dsimp only at hs
  split at hs
  · cases hs
  · injection hs with hs
    subst hs
    refine ⟨rfl, ?_⟩
    rw [read_sub]
    intro h0
    rw [h0] at h2
    cases h2

/-- **C118 fails for a caller of the decoders.** Whenever the text of a decoded CMPP or SGIP submit lies in the bytes it was decoded
from, which it does unless it is a part of a long message, a byte written there afterwards is what the packet then shows as the
first of its text. The digest in a decoded CMPP or SMGP login always lies there. -/
theorem decoded_packets_share_fails (h : Heap UInt8) (frame : Slice) (x : UInt8) :
    (∀ v seq c s, cmppSubmit v seq h frame = some c → c.content = some s →
      s.arr = frame.arr ∧ (c.view (store h s 0 x)).msgContent.head? = some x) ∧
    (∀ cid c s, sgipSubmit cid h frame = some c → c.content = some s →
      s.arr = frame.arr ∧ (c.view (store h s 0 x)).messageContent.head? = some x) ∧
    (∀ seq c, cmppConnect seq h frame = some c → (c.view (store h (frame.sub 6 16) 0 x)).authenticatorSource.head? = some x) ∧
    (∀ seq c, smgpLogin seq h frame = some c → (c.view (store h (frame.sub 8 16) 0 x)).authenticatorClient.head? = some x) := by
  refine ⟨?_, ?_, ?_, ?_⟩
  · intro v seq c s hc hs
    obtain ⟨h1, h2⟩ := cmpp_content hc hs
    refine ⟨h1, ?_⟩
    simp only [CmppSubmit.view, hs]
    exact head_store h2 x
  · intro cid c s hc hs
    obtain ⟨h1, h2⟩ := sgip_content hc hs
    refine ⟨h1, ?_⟩
    simp only [SgipSubmit.view, hs]
    exact head_store h2 x
  · intro seq c hc
    unfold cmppConnect at hc
    obtain ⟨p, hq, rfl⟩ := Option.map_eq_some_iff.1 hc
    refine head_store ?_ x
    rw [read_sub]
    unfold Cmpp.Connect.decode at hq
    refine after_run (Φ := fun _ : Cmpp.Connect => ((frame.buf h).data.drop 6).take 16 ≠ []) ?_ hq
    refine after_seek (after_str fun _ => after_seek (after_slice fun hl => after_seek (after_byte fun _ => after_seek (after_u32 fun _ => after_pure ?_))))
    intro h0
    have := length_part hl
    rw [h0] at this
    cases this
  · intro seq c hc
    unfold smgpLogin at hc
    obtain ⟨p, hq, rfl⟩ := Option.map_eq_some_iff.1 hc
    refine head_store ?_ x
    rw [read_sub]
    unfold Smgp.Login.decode at hq
    refine after_run (Φ := fun _ : Smgp.Login => ((frame.buf h).data.drop 8).take 16 ≠ []) ?_ hq
    refine after_length fun _ => after_seek (after_slice fun _ => after_seek (after_slice fun hl => after_seek (after_byte fun _ =>
      after_seek (after_u32 fun _ => after_seek (after_byte fun _ => after_pure ?_)))))
    intro h0
    have := length_part hl
    rw [h0] at this
    cases this

/-- Packets whose text or digest lies in the bytes they were decoded from. -/
example : ((cmppSubmit 0x20 7 [zeros 117 ++ [1, 65]] ⟨0, 0, 119⟩).bind (·.content)) = some ⟨0, 118, 1⟩ ∧
    ((sgipSubmit 7 [zeros 119 ++ [0, 0, 0, 1, 65]] ⟨0, 0, 124⟩).bind (·.content)) = some ⟨0, 123, 1⟩ ∧
    (cmppConnect 7 [zeros 27] ⟨0, 0, 27⟩).isSome ∧ (smgpLogin 7 [zeros 30] ⟨0, 0, 30⟩).isSome := by decide +kernel

/-- The recipients are all `NewSubmit` takes from its argument, apart from their number. -/
theorem smgp_newSubmit_phones (gbEnc : Bytes → Option Bytes) (ac : AuthConf) (ph ph' : List Bytes) (content : Bytes) (seq : UInt32)
    (opts : List OptionFunc) (g : UInt8) (clock : Clock) (seqs : Nat → UInt32) (hl : ph'.length = ph.length) :
    Smgp.newSubmit gbEnc ac ph' content seq opts g clock seqs =
      (Smgp.newSubmit gbEnc ac ph content seq opts g clock seqs).map fun l => l.map fun m => { m with destTermID := ph' } := by
  unfold Smgp.newSubmit
  cases hg : gbEnc content with
  | none => simp
  | some data =>
    dsimp only
    cases hs : toTPUDHISlices g data 140 with
    | none => rfl
    | some slices =>
      simp only [Option.map_some]
      match slices with
      | [] => simp
      | [s] => simp [hl, Smgp.setOptions]
      | a :: b :: r =>
        simp only [hl]
        rw [Option.some.injEq]
        refine List.ext_getElem (by simp only [List.length_map, List.length_mapIdx]) fun j _ _ => ?_
        rw [List.getElem_map, List.getElem_mapIdx, List.getElem_mapIdx]

theorem sgip_newSubmit_phones (ac : AuthConf) (ph ph' : List Bytes) (content : Bytes)
    (opts : List OptionFunc) (g : UInt8) (expiry : Clock) (seqs : Nat → Sgip.Seq3) (hl : ph'.length = ph.length) :
    Sgip.newSubmit ac ph' content opts g expiry seqs =
      (Sgip.newSubmit ac ph content opts g expiry seqs).map fun l => l.map fun m => { m with userNumber := ph' } := by
  unfold Sgip.newSubmit
  dsimp only
  cases hs : msgSlices g (msgFmt content) content with
  | none => simp [Sgip.setOptions, hs]
  | some slices =>
    simp only [Sgip.setOptions, hs, Option.map_some]
    match slices with
    | [] => simp
    | [s] => simp [hl]
    | a :: b :: r =>
      simp only [hl]
      rw [Option.some.injEq]
      refine List.ext_getElem (by simp only [List.length_map, List.length_mapIdx]) fun j _ _ => ?_
      rw [List.getElem_map, List.getElem_mapIdx, List.getElem_mapIdx]

theorem read_store {α : Type} (h : Heap α) (s : Slice) (i : Nat) (x : α) (ha : s.arr < h.length) (hi : i < s.len) :
    read (store h s i x) s = (read h s).set i x := by
  have e : (h.set s.arr ((h.getD s.arr []).set (s.off + i) x)).getD s.arr [] = (h.getD s.arr []).set (s.off + i) x := by
    simp [List.getD_eq_getElem?_getD, ha]
  simp only [read, store, e]
  generalize h.getD s.arr [] = l
  refine List.ext_getElem? fun j => ?_
  simp only [List.getElem?_take, List.getElem?_drop, List.getElem?_set, List.length_take, List.length_drop]
  split <;> split <;> (try split) <;> (try split) <;> (try split) <;> first | rfl | omega | skip

/-- **C118 fails for a caller of `NewSubmit`.** The packets of SMGP and SGIP keep the caller's slice of recipients: if the caller
puts another number into it before the packets are encoded, they are encoded for that number. -/
theorem recipients_shared_fails (h : Heap Bytes) (phones : Slice) (ha : phones.arr < h.length) (i : Nat) (hi : i < phones.len)
    (other : Bytes) (ac : AuthConf) (content : Bytes) (opts : List OptionFunc) (g : UInt8) (clock : Clock) :
    (∀ gbEnc seq seqs c, smgpNew gbEnc ac h phones content seq opts g clock seqs = some c →
      some (c.frames (store h phones i other)) =
        (Smgp.newSubmit gbEnc ac ((read h phones).set i other) content seq opts g clock seqs).map (·.map (·.encode))) ∧
    (∀ seqs c, sgipNew ac h phones content opts g clock seqs = some c →
      some (c.frames (store h phones i other)) =
        (Sgip.newSubmit ac ((read h phones).set i other) content opts g clock seqs).map (·.map (·.encode))) := by
  have hr := read_store h phones i other ha hi
  refine ⟨?_, ?_⟩
  · intro gbEnc seq seqs c hc
    unfold smgpNew at hc
    obtain ⟨l, hq, rfl⟩ := Option.map_eq_some_iff.1 hc
    rw [smgp_newSubmit_phones gbEnc ac (read h phones) _ content seq opts g clock seqs (by simp), hq]
    simp only [SmgpNew.frames, hr, Option.map_some, List.map_map]
    rfl
  · intro seqs c hc
    unfold sgipNew at hc
    obtain ⟨l, hq, rfl⟩ := Option.map_eq_some_iff.1 hc
    rw [sgip_newSubmit_phones ac (read h phones) _ content opts g clock seqs (by simp), hq]
    simp only [SgipNew.frames, hr, Option.map_some, List.map_map]
    rfl

/-- Two recipients, of which the second is replaced after the packet was made. -/
example : (1 : Nat) < (⟨0, 0, 2⟩ : Slice).len ∧
    (read [[ascii "13800138000", ascii "13900139000"]] ⟨0, 0, 2⟩).set 1 (ascii "13700137000") =
      [ascii "13800138000", ascii "13700137000"] ∧
    (sgipNew {} [[ascii "13800138000", ascii "13900139000"]] ⟨0, 0, 2⟩ (ascii "hi") [] 1 ⟨22, 1, 2, 3, 4, 5⟩
      fun _ => (1, 2, 3)).isSome ∧
    (smgpNew some {} [[ascii "13800138000", ascii "13900139000"]] ⟨0, 0, 2⟩ (ascii "hi") 7 [] 1 ⟨22, 1, 2, 3, 4, 5⟩
      fun _ => 8).isSome := by decide +kernel

end Gosms.Buffers
