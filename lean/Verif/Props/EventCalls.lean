import Verif.Model.EventCalls
import Verif.Props.Events
import Verif.Model.Codec

/-!
C122: an event runs the functions it was registered with, with the arguments of the call, and whoever asked to be told of the shutdown is told.
-/

namespace Gosms.EventCalls

open Gosms.Events (fullKey shutdownPrefix)

variable {A : Type}

/-- Functions of the user only. -/
def Spec.Users (fns : List Fn) : Prop := ∀ f ∈ fns, ∃ n, f = .user n

/-- `fns` have been run, each once, in order, with the arguments `args` each. -/
def Spec.ranWith (args : List A) (fns : List Fn) : List (Fn × List A) := fns.map fun f => (f, args)

theorem runFns_users (ch : List Chan) (fns rest : List Fn) (h : Spec.Users fns) :
    runFns (A := A) ch (fns ++ rest) =
      ((runFns (A := A) ch rest).1, Spec.ranWith [] fns ++ (runFns (A := A) ch rest).2.1, (runFns (A := A) ch rest).2.2) := by
  induction fns with
  | nil => rfl
  | cons f fns ih =>
    obtain ⟨n, rfl⟩ := h f (by simp)
    have ih := ih fun f hf => h f (by simp [hf])
    rw [List.cons_append, runFns, ih]
    rfl

theorem runFns_users' (ch : List Chan) (fns : List Fn) (h : Spec.Users fns) :
    runFns (A := A) ch fns = (ch, Spec.ranWith [] fns, .done) := by
  have := runFns_users (A := A) ch fns [] h
  simpa [runFns] using this

/-- How sending on a channel ends. -/
theorem runFns_tell (ch : List Chan) (c : Nat) :
    (ch.getD c .closed = .empty → (runFns (A := A) ch [.tell c]).2.2 = .done) ∧
    (ch.getD c .closed = .full → (runFns (A := A) ch [.tell c]).2.2 = .waits) ∧
    (ch.getD c .closed = .closed → (runFns (A := A) ch [.tell c]).2.2 = .panics) := by
  refine ⟨fun h => ?_, fun h => ?_, fun h => ?_⟩ <;> (unfold runFns; rw [h]; try rfl)

theorem register_free (s : State A) (pre key : Bytes) (g : Given) (hsz : 0 < size g) (h : s.reg (fullKey pre key) = none) :
    register s pre key g = ({ s with reg := fun k => if k = fullKey pre key then some g else s.reg k }, true) := by
  unfold register
  rw [if_neg (by omega), h]

theorem register_taken (s : State A) (pre key : Bytes) (g g' : Given) (h : s.reg (fullKey pre key) = some g') :
    register s pre key g = (s, false) := by
  unfold register
  split
  · rfl
  · rw [h]

theorem register_reg (s : State A) (pre key k : Bytes) (g g' : Given) (h : s.reg k = some g) :
    (register s pre key g').1.reg k = some g := by
  unfold register
  split
  · exact h
  · split
    · rename_i hn
      show (if k = fullKey pre key then some g' else s.reg k) = _
      by_cases hk : k = fullKey pre key
      · rw [← hk, h] at hn; cases hn
      · rw [if_neg hk]; exact h
    · exact h

theorem append_reg (s : State A) (g : Given) (f : Fn) : (append s g f).1.reg = s.reg := by
  unfold append
  split
  · rfl
  · split <;> rfl

theorem addChan_reg (s : State A) (key k : Bytes) (g g' : Given) (h : s.reg k = some g) :
    (addChan s key g').1.reg k = some g := by
  unfold addChan
  simp only
  generalize hs : ({ s with chans := s.chans ++ [.empty] } : State A) = s1
  have h1 : s1.reg k = some g := by rw [← hs]; exact h
  have h2 := register_reg (append s1 g' (.tell s.chans.length)).1 shutdownPrefix key k g
    (append s1 g' (.tell s.chans.length)).2 (by rw [append_reg]; exact h1)
  split
  · exact h2
  · exact h2

theorem call_reg (s : State A) (pre key : Bytes) (args : List A) : (call s pre key args).1.reg = s.reg := by
  unfold call
  split <;> rfl

theorem shutdown_reg (order : List Bytes) (s : State A) : (shutdown s order).1.reg = s.reg := by
  induction order generalizing s with
  | nil => rfl
  | cons k order ih =>
    unfold shutdown
    split
    · have hc := call_reg s shutdownPrefix k []
      split
      · rename_i s' heq
        rw [ih, ← hc, heq]
      · exact hc
    · exact ih s

theorem step_reg (s : State A) (op : Op A) (k : Bytes) (g : Given) (h : s.reg k = some g)
    (hd : ∀ pre key, op = .delete pre key → fullKey pre key ≠ k) : (step s op).reg k = some g := by
  cases op with
  | make fns => exact h
  | write a i f => exact h
  | register pre key g' => exact register_reg s pre key k g g' h
  | addChan key g' => exact addChan_reg s key k g g' h
  | delete pre key =>
    show (if k = fullKey pre key then none else s.reg k) = _
    rw [if_neg (fun e => hd pre key rfl e.symm)]
    exact h
  | call pre key args => show (call s pre key args).1.reg k = _; rw [call_reg]; exact h
  | shutdown order => show (shutdown s order).1.reg k = _; rw [shutdown_reg]; exact h
  | receive c =>
    show (if s.chans[c]? = some .full then { s with chans := s.chans.set c .empty } else s).reg k = _
    split <;> exact h

theorem run_reg (ops : List (Op A)) (s : State A) (k : Bytes) (g : Given) (h : s.reg k = some g)
    (hd : ∀ pre key, Op.delete pre key ∈ ops → fullKey pre key ≠ k) : (run s ops).reg k = some g := by
  induction ops generalizing s with
  | nil => exact h
  | cons op ops ih =>
    exact ih (step s op) (step_reg s op k g h fun pre key e => hd pre key (by simp [e]))
      fun pre key hm => hd pre key (by simp [hm])

/-- **C122 (partial): functions given one by one are the ones run.** Registered under a free key, they are run, each once and in order, by every
later call of the key, whatever the program does in between other than deleting the key: registering others, changing its slices, calling,
shutting down. Missing: the arguments (`arguments_dropped_fails`) and functions given as a slice (`reused_slice_fails`). -/
theorem registered_run_partial (s : State A) (pre key : Bytes) (fns : List Fn) (hne : fns ≠ []) (hu : Spec.Users fns)
    (hfree : s.reg (fullKey pre key) = none) (ops : List (Op A))
    (hd : ∀ pre' key', Op.delete pre' key' ∈ ops → fullKey pre' key' ≠ fullKey pre key) (args : List A) :
    (register s pre key (.each fns)).2 = true ∧
    ∀ t, t = run (register s pre key (.each fns)).1 ops →
      call t pre key args = ({ t with ran := t.ran ++ Spec.ranWith [] fns }, .done) := by
  have hsz : ¬ size (.each fns) < 1 := by
    cases fns with
    | nil => exact absurd rfl hne
    | cons f fns => simp [size]
  have hreg : register s pre key (.each fns) =
      ({ s with reg := fun k => if k = fullKey pre key then some (.each fns) else s.reg k }, true) := by
    unfold register
    rw [if_neg hsz, hfree]
  refine ⟨by rw [hreg], fun t ht => ?_⟩
  have h := run_reg ops (register s pre key (.each fns)).1 (fullKey pre key) (.each fns) (by rw [hreg]; simp) hd
  rw [← ht] at h
  unfold call
  rw [h]
  simp only [elems, runFns_users' t.chans fns hu]

/-- Satisfiable, with a program that does a good deal in between. -/
example : ∃ t : State Nat, t = run (register {} (ascii "p_") (ascii "k") (.each [.user 1, .user 2])).1
      [.make [.user 3], .register (ascii "p_") (ascii "p_k") (.dots ⟨0, 0, 1⟩), .write 0 0 (.user 4), .call (ascii "p_") (ascii "k") [7],
       .delete (ascii "p_") (ascii "j")] ∧
    t.ran = [(.user 1, []), (.user 2, [])] ∧ (call t (ascii "p_") (ascii "k") []).2 = .done := by
  refine ⟨_, rfl, by decide, by decide⟩

/-- **C122 fails: arguments are dropped.** Whatever is registered under a key, a call with arguments runs something, and nothing it runs is given
any. -/
theorem arguments_dropped_fails (s : State A) (pre key : Bytes) (g : Given) (args : List A) (ha : args ≠ [])
    (hreg : s.reg (fullKey pre key) = some g) (hne : elems s g ≠ []) :
    ∃ ran, ran ≠ [] ∧ (call s pre key args).1.ran = s.ran ++ ran ∧ ∀ p ∈ ran, p.2 = [] ∧ p.2 ≠ args := by
  have key1 : ∀ (fns : List Fn) (ch : List Chan), (∀ p ∈ (runFns (A := A) ch fns).2.1, p.2 = []) ∧
      (fns ≠ [] → (runFns (A := A) ch fns).2.1 ≠ []) := by
    intro fns
    induction fns with
    | nil => intro ch; exact ⟨by simp [runFns], fun h => absurd rfl h⟩
    | cons f fns ih =>
      intro ch
      cases f with
      | user n =>
        refine ⟨fun p hp => ?_, fun _ => by simp [runFns]⟩
        simp only [runFns, List.mem_cons] at hp
        rcases hp with rfl | hp
        · rfl
        · exact (ih ch).1 p hp
      | tell c =>
        unfold runFns
        split
        · refine ⟨fun p hp => ?_, fun _ => by simp⟩
          simp only [List.mem_cons] at hp
          rcases hp with rfl | hp
          · rfl
          · exact (ih _).1 p hp
        · exact ⟨by simp, by simp⟩
        · exact ⟨by simp, by simp⟩
  refine ⟨(runFns (A := A) s.chans (elems s g)).2.1, (key1 _ _).2 hne, ?_, fun p hp => ?_⟩
  · unfold call
    rw [hreg]
  · have := (key1 _ _).1 p hp
    exact ⟨this, fun e => ha (by rw [← e, this])⟩

example : (call (A := Nat) { reg := fun k => if k = ascii "k" then some (.each [.user 1]) else none } [] (ascii "k") [5]).1.ran =
    [(.user 1, [])] := by decide

/-- **C122 fails: a slice is not copied.** Whatever slice is registered with dots: an element of it written afterwards is run in place of the one
registered. -/
theorem reused_slice_fails (s : State A) (pre key : Bytes) (sl : Slice) (a : List Fn) (i : Nat) (f : Fn) (args : List A)
    (harr : s.arrays[sl.arr]? = some a) (hin : sl.off + sl.len ≤ a.length) (hi : i < sl.len) (hf : a[sl.off + i]? ≠ some f)
    (hu : Spec.Users a) (hfu : ∃ n, f = .user n) (hfree : s.reg (fullKey pre key) = none) :
    (register s pre key (.dots sl)).2 = true ∧
    ∃ ran, (call (step (register s pre key (.dots sl)).1 (.write sl.arr (sl.off + i) f)) pre key args).1.ran = s.ran ++ Spec.ranWith [] ran ∧
      ran = (elems s (.dots sl)).set i f ∧ ran ≠ elems s (.dots sl) := by
  have hreg : register s pre key (.dots sl) =
      ({ s with reg := fun k => if k = fullKey pre key then some (.dots sl) else s.reg k }, true) := by
    unfold register
    rw [if_neg (by simp [size]; omega), hfree]
  have hget : s.arrays.getD sl.arr [] = a := by rw [List.getD_eq_getElem?_getD, harr]; rfl
  have hlt : sl.arr < s.arrays.length := by
    rcases Nat.lt_or_ge sl.arr s.arrays.length with h | h
    · exact h
    · rw [List.getElem?_eq_none h] at harr; cases harr
  refine ⟨by rw [hreg], (elems s (.dots sl)).set i f, ?_, rfl, ?_⟩
  · rw [hreg]
    unfold call step
    simp only [if_true]
    have he : elems ({ s with
          arrays := s.arrays.set sl.arr ((s.arrays.getD sl.arr []).set (sl.off + i) f),
          reg := fun k => if k = fullKey pre key then some (.dots sl) else s.reg k } : State A) (.dots sl) =
        (elems s (.dots sl)).set i f := by
      simp only [elems, hget]
      rw [List.getD_eq_getElem?_getD, List.getElem?_set_self hlt, Option.getD_some]
      apply List.ext_getElem?
      intro j
      simp only [List.getElem?_take, List.getElem?_drop, List.getElem?_set]
      by_cases hj : j < sl.len
      · by_cases hji : i = j
        · subst hji
          simp only [hj, if_true, List.length_take, List.length_drop]
          rw [if_pos (by omega), if_pos (by omega)]
        · simp only [hj, if_true, hji, if_false]
          rw [if_neg (by omega)]
      · simp only [hj, if_false]
        by_cases hji : i = j
        · omega
        · rw [if_neg hji]
    rw [he, runFns_users' s.chans]
    intro x hx
    rcases List.mem_or_eq_of_mem_set hx with hx | hx
    · simp only [elems, hget] at hx
      exact hu x (List.mem_of_mem_drop (List.mem_of_mem_take hx))
    · obtain ⟨n, rfl⟩ := hfu
      exact ⟨n, hx⟩
  · intro e
    have := congrArg (fun l => l[i]?) e
    simp only [elems, hget, List.getElem?_set, if_true, List.length_take, List.length_drop] at this
    rw [if_pos (by omega), List.getElem?_take, if_pos hi, List.getElem?_drop] at this
    exact hf this.symm

/-- Satisfiable. -/
example : (run (A := Nat) {} [.make [.user 1, .user 2]]).arrays[0]? = some [.user 1, .user 2] ∧
    [Fn.user 1, .user 2][0 + 1]? ≠ some (.user 3) ∧ Spec.Users [.user 1, .user 2] :=
  ⟨rfl, by decide, by intro f hf; simp at hf; rcases hf with rfl | rfl <;> exact ⟨_, rfl⟩⟩

/-! ## Being told of the shutdown -/

/-- **C122 (partial): who asked is told, after the functions have run.** With functions given one by one under a free key, the channel returned is
a new one. When the key is called, whatever came before other than a deletion, the functions run first, then the signal is put into the channel
if it is empty. -/
theorem told_partial (s : State A) (key : Bytes) (fns : List Fn) (hu : Spec.Users fns)
    (hfree : s.reg (fullKey shutdownPrefix key) = none) (ops : List (Op A))
    (hd : ∀ pre' key', Op.delete pre' key' ∈ ops → fullKey pre' key' ≠ fullKey shutdownPrefix key) (args : List A) :
    ∃ c, (addChan s key (.each fns)).2 = some c ∧ s.chans[c]? = none ∧ (addChan s key (.each fns)).1.chans[c]? = some .empty ∧
    ∀ t, t = run (addChan s key (.each fns)).1 ops → t.chans[c]? = some .empty →
      call t shutdownPrefix key args =
        ({ t with chans := t.chans.set c .full, ran := t.ran ++ Spec.ranWith [] (fns ++ [.tell c]) }, .done) := by
  have hadd : addChan s key (.each fns) =
      ({ s with chans := s.chans ++ [.empty],
                reg := fun k => if k = fullKey shutdownPrefix key then some (.each (fns ++ [.tell s.chans.length])) else s.reg k },
        some s.chans.length) := by
    have e := register_free ({ s with chans := s.chans ++ [.empty] } : State A) shutdownPrefix key
      (.each (fns ++ [.tell s.chans.length])) (by simp [size]) hfree
    unfold addChan
    simp only [append, e, if_true]
  refine ⟨s.chans.length, by rw [hadd], by simp, by rw [hadd]; simp, fun t ht hc => ?_⟩
  have h := run_reg ops (addChan s key (.each fns)).1 (fullKey shutdownPrefix key) (.each (fns ++ [.tell s.chans.length]))
    (by rw [hadd]; simp) hd
  rw [← ht] at h
  unfold call
  rw [h]
  simp only [elems]
  rw [runFns_users (A := A) t.chans fns _ hu]
  have hg : t.chans.getD s.chans.length .closed = .empty := by rw [List.getD_eq_getElem?_getD, hc]; rfl
  have e1 : runFns (A := A) t.chans [.tell s.chans.length] = (t.chans.set s.chans.length .full, [(.tell s.chans.length, [])], .done) := by
    unfold runFns
    rw [hg]
    rfl
  rw [e1]
  simp [Spec.ranWith]

/-- **C122 (partial): the same with a slice that has no room behind it,** the functions of which are copied when the signal is added: whatever the
program writes to the slice afterwards, the functions given are run, and then the signal is put in. With room behind the slice it fails
(`shared_slice_told_fails`). -/
theorem told_slice_partial (s : State A) (key : Bytes) (sl : Slice) (a : List Fn) (harr : s.arrays[sl.arr]? = some a)
    (hend : sl.off + sl.len = a.length) (hu : Spec.Users a) (hfree : s.reg (fullKey shutdownPrefix key) = none) (ops : List (Op A))
    (hd : ∀ pre' key', Op.delete pre' key' ∈ ops → fullKey pre' key' ≠ fullKey shutdownPrefix key) (args : List A) :
    ∃ c, (addChan s key (.dots sl)).2 = some c ∧ s.chans[c]? = none ∧ (addChan s key (.dots sl)).1.chans[c]? = some .empty ∧
    ∀ t, t = run (addChan s key (.dots sl)).1 ops → t.chans[c]? = some .empty →
      call t shutdownPrefix key args =
        ({ t with chans := t.chans.set c .full, ran := t.ran ++ Spec.ranWith [] (a.drop sl.off ++ [.tell c]) }, .done) := by
  have hget : s.arrays.getD sl.arr [] = a := by rw [List.getD_eq_getElem?_getD, harr]; rfl
  have e : addChan s key (.dots sl) = addChan s key (.each (a.drop sl.off)) := by
    have h1 : append ({ s with chans := s.chans ++ [.empty] } : State A) (.dots sl) (.tell s.chans.length) =
        append ({ s with chans := s.chans ++ [.empty] } : State A) (.each (a.drop sl.off)) (.tell s.chans.length) := by
      simp only [append, elems, hget]
      rw [if_neg (by omega), List.take_of_length_le (by rw [List.length_drop]; omega)]
    unfold addChan
    simp only [h1]
  rw [e]
  exact told_partial s key (a.drop sl.off) (fun f hf => hu f (List.mem_of_mem_drop hf)) hfree ops hd args

/-- Satisfiable: a slice of two functions, written to afterwards. -/
example : (run (A := Nat) {} [.make [.user 1, .user 2], .addChan (ascii "k") (.dots ⟨0, 0, 2⟩), .write 0 0 (.user 3),
    .shutdown [shutdownPrefix ++ ascii "k"]]).ran = [(.user 1, []), (.user 2, []), (.tell 0, [])] := by
  decide

/-- Satisfiable: the signal is there after one call, and taken by the receiver. -/
example : (run (A := Nat) {} [.addChan (ascii "k") (.each [.user 1]), .shutdown [shutdownPrefix ++ ascii "k"]]).chans = [.full] ∧
    (run (A := Nat) {} [.addChan (ascii "k") (.each [.user 1]), .shutdown [shutdownPrefix ++ ascii "k"], .receive 0]).chans = [.empty] := by
  decide

theorem getD_set_chan (ch : List Chan) (c d : Nat) (v : Chan) (h : ch.getD c .closed ≠ .closed) :
    (ch.set d v).getD c .closed = if d = c then v else ch.getD c .closed := by
  have hl : c < ch.length := by
    rcases Nat.lt_or_ge c ch.length with h' | h'
    · exact h'
    · exact absurd (by rw [List.getD_eq_getElem?_getD, List.getElem?_eq_none h']; rfl) h
  simp only [List.getD_eq_getElem?_getD, List.getElem?_set]
  by_cases hd : d = c
  · subst hd; simp [hl]
  · simp [hd]

/-- Nothing that is run takes a signal out; a call that returns leaves a signal in the channels of its functions. -/
theorem runFns_full (fns : List Fn) (ch : List Chan) (c : Nat) :
    (ch.getD c .closed = .full → (runFns (A := A) ch fns).1.getD c .closed = .full) ∧
    ((runFns (A := A) ch fns).2.2 = .done → .tell c ∈ fns → (runFns (A := A) ch fns).1.getD c .closed = .full) ∧
    (ch.getD c .closed = .full → .tell c ∈ fns → (runFns (A := A) ch fns).2.2 ≠ .done) := by
  induction fns generalizing ch with
  | nil => exact ⟨fun h => h, fun _ h => by simp at h, fun _ h => by simp at h⟩
  | cons f fns ih =>
    cases f with
    | user n =>
      obtain ⟨h1, h2, h3⟩ := ih ch
      refine ⟨h1, fun hd hm => h2 hd ?_, fun hf hm => h3 hf ?_⟩ <;> simpa using hm
    | tell d =>
      unfold runFns
      split
      · rename_i he
        obtain ⟨h1, h2, h3⟩ := ih (ch.set d .full)
        refine ⟨fun hf => h1 ?_, fun hd hm => ?_, fun hf hm => ?_⟩
        · rw [getD_set_chan ch c d .full (by rw [hf]; decide), hf]; simp
        · by_cases hcd : d = c
          · subst hcd
            exact h1 (by rw [getD_set_chan ch d d .full (by rw [he]; decide)]; simp)
          · exact h2 hd (by
              simp only [List.mem_cons, Fn.tell.injEq] at hm
              rcases hm with h | h
              · exact absurd h.symm hcd
              · exact h)
        · have hcd : d ≠ c := fun e => by rw [e, hf] at he; cases he
          refine h3 ?_ ?_
          · rw [getD_set_chan ch c d .full (by rw [hf]; decide), if_neg hcd, hf]
          · simp only [List.mem_cons, Fn.tell.injEq] at hm
            rcases hm with h | h
            · exact absurd h.symm hcd
            · exact h
      · exact ⟨fun h => h, fun h => by simp at h, fun _ _ => by simp⟩
      · exact ⟨fun h => h, fun h => by simp at h, fun _ _ => by simp⟩

theorem call_arrays (s : State A) (pre key : Bytes) (args : List A) : (call s pre key args).1.arrays = s.arrays := by
  unfold call
  split <;> rfl

theorem elems_congr {s t : State A} (h : t.arrays = s.arrays) (g : Given) : elems t g = elems s g := by
  cases g with
  | each fns => rfl
  | dots sl => simp only [elems, h]

theorem shutdown_arrays (order : List Bytes) (s : State A) : (shutdown s order).1.arrays = s.arrays := by
  induction order generalizing s with
  | nil => rfl
  | cons k order ih =>
    unfold shutdown
    split
    · have hc := call_arrays s shutdownPrefix k []
      split
      · rename_i s' heq
        rw [ih, ← hc, heq]
      · exact hc
    · exact ih s

theorem call_chans (s : State A) (pre key : Bytes) (args : List A) (g : Given) (h : s.reg (fullKey pre key) = some g) :
    (call s pre key args).1.chans = (runFns (A := A) s.chans (elems s g)).1 ∧
    (call s pre key args).2 = (runFns (A := A) s.chans (elems s g)).2.2 := by
  unfold call
  rw [h]
  exact ⟨rfl, rfl⟩

theorem call_full (s : State A) (pre key : Bytes) (args : List A) (c : Nat) (h : s.chans.getD c .closed = .full) :
    (call s pre key args).1.chans.getD c .closed = .full := by
  cases hr : s.reg (fullKey pre key) with
  | none => unfold call; rw [hr]; exact h
  | some g => rw [(call_chans s pre key args g hr).1]; exact (runFns_full _ _ c).1 h

theorem shutdown_full (order : List Bytes) (s : State A) (c : Nat) (h : s.chans.getD c .closed = .full) :
    (shutdown s order).1.chans.getD c .closed = .full := by
  induction order generalizing s with
  | nil => exact h
  | cons k order ih =>
    unfold shutdown
    split
    · have hc := call_full s shutdownPrefix k [] c h
      split
      · rename_i s' heq
        exact ih s' (by rw [heq] at hc; exact hc)
      · exact hc
    · exact ih s h

/-- A shutdown that returns has left a signal in every channel of the functions visited. -/
theorem shutdown_tells (order : List Bytes) (s : State A) (k : Bytes) (g : Given) (c : Nat) (hp : shutdownPrefix <+: k)
    (hreg : s.reg k = some g) (ht : .tell c ∈ elems s g) (hk : k ∈ order) (hd : (shutdown s order).2 = .done) :
    (shutdown s order).1.chans.getD c .closed = .full := by
  induction order generalizing s with
  | nil => simp at hk
  | cons k' order ih =>
    unfold shutdown at hd ⊢
    by_cases hp' : shutdownPrefix.isPrefixOf k' = true
    · rw [if_pos hp'] at hd ⊢
      cases hcall : call s shutdownPrefix k' [] with
      | mk s' e =>
        have hr' := call_reg s shutdownPrefix k' []
        have ha' := call_arrays s shutdownPrefix k' []
        rw [hcall] at hr' ha'
        simp only [hcall] at hd ⊢
        cases e with
        | done =>
          simp only at hd ⊢
          rcases List.mem_cons.1 hk with rfl | hk
          · have hfk : fullKey shutdownPrefix k = k := Events.fullKey_of_prefix hp
            have hc := call_chans s shutdownPrefix k [] g (by rw [hfk]; exact hreg)
            rw [hcall] at hc
            exact shutdown_full order s' c (by
              rw [hc.1]
              exact (runFns_full _ _ c).2.1 hc.2.symm ht)
          · exact ih s' (by rw [hr']; exact hreg) (by rw [elems_congr ha']; exact ht) hk hd
        | waits => cases hd
        | panics => cases hd
    · rw [if_neg hp'] at hd ⊢
      rcases List.mem_cons.1 hk with rfl | hk
      · exact absurd (by simpa using hp) hp'
      · exact ih s hreg ht hk hd

/-- **C122 fails: the second time nobody comes back.** If anybody asked to be told and has not received the signal of a shutdown that returned, a
further one does not return, whatever the orders in which the keys are visited. -/
theorem second_shutdown_fails (s : State A) (k : Bytes) (g : Given) (c : Nat) (hp : shutdownPrefix <+: k)
    (hreg : s.reg k = some g) (ht : .tell c ∈ elems s g) (o1 o2 : List Bytes) (h1 : k ∈ o1) (h2 : k ∈ o2)
    (hd : (shutdown s o1).2 = .done) : (shutdown (shutdown s o1).1 o2).2 ≠ .done := by
  intro hd2
  have hfull := shutdown_tells o1 s k g c hp hreg ht h1 hd
  have hreg1 : (shutdown s o1).1.reg k = some g := by rw [shutdown_reg]; exact hreg
  have ht1 : .tell c ∈ elems (shutdown s o1).1 g := by rw [elems_congr (shutdown_arrays o1 s)]; exact ht
  generalize (shutdown s o1).1 = t at *
  clear hd h1 o1
  induction o2 generalizing t with
  | nil => simp at h2
  | cons k' o2 ih =>
    unfold shutdown at hd2
    by_cases hp' : shutdownPrefix.isPrefixOf k' = true
    · rw [if_pos hp'] at hd2
      cases hcall : call t shutdownPrefix k' [] with
      | mk t' e =>
        have hr' := call_reg t shutdownPrefix k' []
        have ha' := call_arrays t shutdownPrefix k' []
        have hf' := call_full t shutdownPrefix k' [] c hfull
        rw [hcall] at hr' ha' hf'
        simp only [hcall] at hd2
        cases e with
        | done =>
          simp only at hd2
          rcases List.mem_cons.1 h2 with rfl | h2
          · have hfk : fullKey shutdownPrefix k = k := Events.fullKey_of_prefix hp
            have hc := call_chans t shutdownPrefix k [] g (by rw [hfk]; exact hreg1)
            rw [hcall] at hc
            exact (runFns_full _ _ c).2.2 hfull ht1 hc.2.symm
          · exact ih h2 t' hd2 hf' (by rw [hr']; exact hreg1) (by rw [elems_congr ha']; exact ht1)
        | waits => cases hd2
        | panics => cases hd2
    · rw [if_neg hp'] at hd2
      rcases List.mem_cons.1 h2 with rfl | h2
      · exact absurd (by simpa using hp) hp'
      · exact ih h2 t hd2 hfull hreg1 ht1

/-- Satisfiable: one who asked. -/
example : ∃ s : State Nat, s = run {} [.addChan (ascii "k") (.each [.user 1])] ∧
    s.reg (shutdownPrefix ++ ascii "k") = some (.each [.user 1, .tell 0]) ∧
    (shutdown s [shutdownPrefix ++ ascii "k"]).2 = .done := by
  refine ⟨_, rfl, by decide, by decide⟩

/-- What `RegisterShutdownHookerAddChan` does with a slice that has room behind it: the function that sends goes into the caller's array. -/
theorem addChan_room (s : State A) (key : Bytes) (sl : Slice) (a : List Fn) (harr : s.arrays[sl.arr]? = some a)
    (hroom : sl.off + sl.len < a.length) :
    addChan s key (.dots sl) =
      (match s.reg (fullKey shutdownPrefix key) with
      | none =>
        ({ s with arrays := s.arrays.set sl.arr (a.set (sl.off + sl.len) (.tell s.chans.length)), chans := s.chans ++ [.empty],
                  reg := fun k => if k = fullKey shutdownPrefix key then some (.dots { sl with len := sl.len + 1 }) else s.reg k },
          some s.chans.length)
      | some _ =>
        ({ s with arrays := s.arrays.set sl.arr (a.set (sl.off + sl.len) (.tell s.chans.length)),
                  chans := s.chans ++ [.closed] }, none)) := by
  have hget : s.arrays.getD sl.arr [] = a := by rw [List.getD_eq_getElem?_getD, harr]; rfl
  unfold addChan
  simp only [append, hget, if_pos hroom]
  cases hr : s.reg (fullKey shutdownPrefix key) with
  | none =>
    have e := register_free ({ s with
        arrays := s.arrays.set sl.arr (a.set (sl.off + sl.len) (.tell s.chans.length)), chans := s.chans ++ [.empty] } : State A)
      shutdownPrefix key (.dots { sl with len := sl.len + 1 }) (by simp [size]) hr
    simp only [e, if_true]
  | some g =>
    have e := register_taken ({ s with
        arrays := s.arrays.set sl.arr (a.set (sl.off + sl.len) (.tell s.chans.length)), chans := s.chans ++ [.empty] } : State A)
      shutdownPrefix key (.dots { sl with len := sl.len + 1 }) g hr
    simp [e]

/-- The elements of a slice after its room was written to. -/
theorem elems_room (s : State A) (sl : Slice) (a : List Fn) (f : Fn)
    (harr : s.arrays[sl.arr]? = some (a.set (sl.off + sl.len) f)) (hroom : sl.off + sl.len < a.length) :
    elems s (.dots { sl with len := sl.len + 1 }) = (a.drop sl.off).take sl.len ++ [f] := by
  simp only [elems]
  rw [List.getD_eq_getElem?_getD, harr, Option.getD_some]
  apply List.ext_getElem?
  intro j
  simp only [List.getElem?_take, List.getElem?_drop, List.getElem?_set, List.getElem?_append, List.length_take, List.length_drop]
  have hm : min sl.len (a.length - sl.off) = sl.len := by omega
  rw [hm]
  by_cases h1 : j < sl.len
  · rw [if_pos (by omega), if_neg (by omega), if_pos h1, if_pos h1]
  · rw [if_neg h1]
    by_cases h2 : j = sl.len
    · subst h2
      rw [if_pos (by omega), if_pos rfl, if_pos hroom]; simp
    · rw [if_neg (by omega)]
      rw [List.getElem?_eq_none (by simp; omega)]

/-- **C122 fails: two who ask with one slice.** Whatever the slice, if there is room behind it: of two registrations under different free keys, both
accepted, the first channel is never told, the second is told by the call of the first key, and the call of the second key then never returns. -/
theorem shared_slice_told_fails (s : State A) (k1 k2 : Bytes) (sl : Slice) (a : List Fn) (harr : s.arrays[sl.arr]? = some a)
    (hroom : sl.off + sl.len < a.length) (hu : Spec.Users ((a.drop sl.off).take sl.len))
    (hfree1 : s.reg (fullKey shutdownPrefix k1) = none) (hfree2 : s.reg (fullKey shutdownPrefix k2) = none)
    (hk : fullKey shutdownPrefix k1 ≠ fullKey shutdownPrefix k2) :
    ∃ c1 c2, c1 ≠ c2 ∧ (addChan s k1 (.dots sl)).2 = some c1 ∧ (addChan (addChan s k1 (.dots sl)).1 k2 (.dots sl)).2 = some c2 ∧
    ∀ t, t = (addChan (addChan s k1 (.dots sl)).1 k2 (.dots sl)).1 →
      (call t shutdownPrefix k1 []).2 = .done ∧
      (call t shutdownPrefix k1 []).1.chans[c1]? = some .empty ∧
      (call t shutdownPrefix k1 []).1.chans[c2]? = some .full ∧
      (call (call t shutdownPrefix k1 []).1 shutdownPrefix k2 []).2 = .waits := by
  have hlt : sl.arr < s.arrays.length := by
    rcases Nat.lt_or_ge sl.arr s.arrays.length with h | h
    · exact h
    · rw [List.getElem?_eq_none h] at harr; cases harr
  have e1 := addChan_room s k1 sl a harr hroom
  rw [hfree1] at e1
  simp only at e1
  generalize hs1 : (addChan s k1 (.dots sl)).1 = s1
  rw [e1] at hs1
  simp only at hs1
  have harr1 : s1.arrays[sl.arr]? = some (a.set (sl.off + sl.len) (.tell s.chans.length)) := by
    rw [← hs1]; simp [hlt]
  have hc1 : s1.chans = s.chans ++ [.empty] := by rw [← hs1]
  have hr1 : s1.reg (fullKey shutdownPrefix k1) = some (.dots { sl with len := sl.len + 1 }) := by rw [← hs1]; simp
  have hr2 : s1.reg (fullKey shutdownPrefix k2) = none := by rw [← hs1]; simp only; rw [if_neg hk.symm]; exact hfree2
  have e2 := addChan_room s1 k2 sl _ harr1 (by simpa using hroom)
  rw [hr2] at e2
  simp only [List.set_set] at e2
  refine ⟨s.chans.length, s1.chans.length, by rw [hc1]; simp, by rw [e1], by rw [e2], fun t ht => ?_⟩
  rw [e2] at ht
  simp only at ht
  have htarr : t.arrays[sl.arr]? = some (a.set (sl.off + sl.len) (.tell s1.chans.length)) := by
    rw [ht, ← hs1]; simp [hlt]
  have hel := elems_room t sl a _ htarr hroom
  have htc : t.chans = s.chans ++ [.empty, .empty] := by rw [ht]; simp [hc1]
  have hlen : s1.chans.length = s.chans.length + 1 := by rw [hc1]; simp
  have htr1 : t.reg (fullKey shutdownPrefix k1) = some (.dots { sl with len := sl.len + 1 }) := by
    rw [ht]; simp only; rw [if_neg hk]; exact hr1
  have htr2 : t.reg (fullKey shutdownPrefix k2) = some (.dots { sl with len := sl.len + 1 }) := by rw [ht]; simp
  have hcall : call t shutdownPrefix k1 [] =
      ({ t with chans := s.chans ++ [.empty, .full],
                ran := t.ran ++ (Spec.ranWith [] ((a.drop sl.off).take sl.len) ++ [(.tell s1.chans.length, [])]) }, .done) := by
    unfold call
    rw [htr1]
    simp only [hel]
    rw [runFns_users (A := A) t.chans _ _ hu]
    have e3 : runFns (A := A) t.chans [.tell s1.chans.length] =
        (s.chans ++ [.empty, .full], [(.tell s1.chans.length, [])], .done) := by
      unfold runFns
      have hg : t.chans.getD s1.chans.length .closed = .empty := by
        rw [List.getD_eq_getElem?_getD, htc, hlen, List.getElem?_append_right (by omega)]
        simp
      rw [hg]
      simp only [runFns]
      rw [htc, hlen, List.set_append_right _ _ (by omega)]
      simp
    rw [e3]
  refine ⟨by rw [hcall], ?_, ?_, ?_⟩
  · rw [hcall]; simp
  · rw [hcall, hlen]
    simp only
    rw [List.getElem?_append_right (by omega)]
    simp
  · generalize hcu : (call t shutdownPrefix k1 []).1 = u
    rw [hcall] at hcu
    have hua : u.arrays = t.arrays := by rw [← hcu]
    have huc : u.chans = s.chans ++ [.empty, .full] := by rw [← hcu]
    have hur : u.reg (fullKey shutdownPrefix k2) = some (.dots { sl with len := sl.len + 1 }) := by rw [← hcu]; exact htr2
    unfold call
    simp only [hur, huc]
    rw [elems_congr hua, hel, runFns_users (A := A) _ _ _ hu]
    have hg : (s.chans ++ [Chan.empty, .full]).getD s1.chans.length .closed = .full := by
      rw [List.getD_eq_getElem?_getD, hlen, List.getElem?_append_right (by omega)]
      simp
    exact (runFns_tell _ _).2.1 hg

/-- **C122 fails: a refused registration spoils the one it was refused for.** The same slice with room registered twice under one key: the second
registration is refused, and the call of the key then panics, as it sends on the channel closed when the second was refused. -/
theorem refused_registration_fails (s : State A) (k : Bytes) (sl : Slice) (a : List Fn) (harr : s.arrays[sl.arr]? = some a)
    (hroom : sl.off + sl.len < a.length) (hu : Spec.Users ((a.drop sl.off).take sl.len))
    (hfree : s.reg (fullKey shutdownPrefix k) = none) :
    (∃ c, (addChan s k (.dots sl)).2 = some c) ∧ (addChan (addChan s k (.dots sl)).1 k (.dots sl)).2 = none ∧
    (call (addChan s k (.dots sl)).1 shutdownPrefix k []).2 = .done ∧
    (call (addChan (addChan s k (.dots sl)).1 k (.dots sl)).1 shutdownPrefix k []).2 = .panics := by
  have hlt : sl.arr < s.arrays.length := by
    rcases Nat.lt_or_ge sl.arr s.arrays.length with h | h
    · exact h
    · rw [List.getElem?_eq_none h] at harr; cases harr
  have e1 := addChan_room s k sl a harr hroom
  rw [hfree] at e1
  simp only at e1
  generalize hs1 : (addChan s k (.dots sl)).1 = s1
  rw [e1] at hs1
  simp only at hs1
  have harr1 : s1.arrays[sl.arr]? = some (a.set (sl.off + sl.len) (.tell s.chans.length)) := by
    rw [← hs1]; simp [hlt]
  have hc1 : s1.chans = s.chans ++ [.empty] := by rw [← hs1]
  have hr1 : s1.reg (fullKey shutdownPrefix k) = some (.dots { sl with len := sl.len + 1 }) := by rw [← hs1]; simp
  have e2 := addChan_room s1 k sl _ harr1 (by simpa using hroom)
  rw [hr1] at e2
  simp only [List.set_set] at e2
  refine ⟨⟨s.chans.length, by rw [e1]⟩, by rw [e2], ?_, ?_⟩
  · have hel := elems_room s1 sl a _ harr1 hroom
    unfold call
    rw [hr1]
    simp only [hel]
    rw [runFns_users (A := A) _ _ _ hu]
    exact (runFns_tell _ _).1 (by rw [List.getD_eq_getElem?_getD, hc1]; simp)
  · rw [e2]
    generalize ht : ({ s1 with arrays := s1.arrays.set sl.arr (a.set (sl.off + sl.len) (.tell s1.chans.length)),
                               chans := s1.chans ++ [.closed] } : State A) = t
    have hel := elems_room t sl a (.tell s1.chans.length) (by rw [← ht, ← hs1]; simp [hlt]) hroom
    have htr : t.reg (fullKey shutdownPrefix k) = some (.dots { sl with len := sl.len + 1 }) := by rw [← ht]; exact hr1
    unfold call
    simp only [htr, hel]
    rw [runFns_users (A := A) _ _ _ hu]
    exact (runFns_tell _ _).2.2 (by rw [← ht, List.getD_eq_getElem?_getD]; simp)

/-- Satisfiable: a slice of one function in an array of two. -/
example : ({ arrays := [[.user 1, .user 0]] } : State Nat).arrays[0]? = some [.user 1, .user 0] ∧
    Spec.Users (([Fn.user 1, .user 0].drop 0).take 1) ∧ fullKey shutdownPrefix (ascii "a") ≠ fullKey shutdownPrefix (ascii "b") :=
  ⟨rfl, by intro f hf; simp at hf; exact ⟨1, hf⟩, by decide⟩

end Gosms.EventCalls
