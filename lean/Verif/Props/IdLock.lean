import Verif.Spec.IdLock
import Verif.Props.Bcd
import Verif.Props.CycleSeq
import Verif.Props.Snowflake
import Verif.Props.Snowflake32
import Verif.Props.SgipSeq
import Verif.Go.Bytes

/-!
# C117: ids drawn by several goroutines at once
-/

namespace Gosms.IdLock
open Gosms.Spec.IdLock

variable {σ κ R L : Type} {B : Body σ κ R L}

theorem run_snoc (B : Body σ κ R L) (m : σ) (ops : List (Op κ)) (x : Op κ) :
    run B m (ops ++ [x]) = step (run B m ops) x := by
  unfold run; rw [List.foldl_append]; rfl

/-- The reading an access makes. -/
def reading (B : Body σ κ R L) (l : L) (c : κ) : List κ := if B.reads l then [c] else []

/-- A body alone, from its start: the readings made, where it is, the fields. -/
inductive Path (B : Body σ κ R L) (m0 : σ) : List κ → L → σ → Prop
  | start : Path B m0 [] B.start m0
  | step {cs : List κ} {l l' : L} {m m' : σ} (c : κ) : Path B m0 cs l m → B.step l c m = (m', .inl l') →
      Path B m0 (cs ++ reading B l c) l' m'

/-- A body alone, from its start to its end. -/
def Call (B : Body σ κ R L) (m0 : σ) (cs : List κ) (r : R) (m' : σ) : Prop :=
  ∃ cs1 l m1 c, Path B m0 cs1 l m1 ∧ B.step l c m1 = (m', .inr r) ∧ cs = cs1 ++ reading B l c

/-- Calls one after the other, nobody else around. -/
inductive Seq (B : Body σ κ R L) (m0 : σ) : List κ → List R → σ → Prop
  | nil : Seq B m0 [] [] m0
  | snoc {cs cs' : List κ} {rs : List R} {m m' : σ} {r : R} : Seq B m0 cs rs m → Call B m cs' r m' →
      Seq B m0 (cs ++ cs') (rs ++ [r]) m'

/-- Goroutine `i` is between `Lock` and `Unlock`. -/
def Holds : Pc L R → Prop
  | .inside _ => True
  | .leaving _ => True
  | _ => False

/-- What the log says of a goroutine, given where it is. -/
def View (i : Nat) (l : List (Ev R)) : Pc L R → Prop
  | .idle => Whole i l
  | .waiting => ∃ w, Whole i w ∧ l = w ++ [.call i]
  | .inside _ => ∃ w, Whole i w ∧ l = w ++ [.call i]
  | .leaving r => ∃ w, Whole i w ∧ l = w ++ [.call i, .take i r]
  | .returning r => ∃ w, Whole i w ∧ l = w ++ [.call i, .take i r]

structure Inv (m0 : σ) (s : State B) : Prop where
  held : ∀ i, Holds (s.pc i) ↔ s.holder = some i
  view : ∀ i, View i (of i s.log) (s.pc i)
  free : (∀ i l, s.pc i ≠ .inside l) → Seq B m0 s.seen (taken s.log) s.mem
  busy : ∀ i l, s.pc i = .inside l →
    ∃ c1 c2 m1, s.seen = c1 ++ c2 ∧ Seq B m0 c1 (taken s.log) m1 ∧ Path B m1 c2 l s.mem

theorem of_snoc (i : Nat) (log : List (Ev R)) (e : Ev R) : of i (log ++ [e]) = of i log ++ if who e = i then [e] else [] := by
  unfold of
  rw [List.filter_append]
  by_cases h : who e = i <;> simp [h]

theorem taken_snoc (log : List (Ev R)) (e : Ev R) :
    taken (log ++ [e]) = taken log ++ (match e with | .take _ r => [r] | _ => []) := by
  unfold taken
  rw [List.filterMap_append]
  cases e <;> rfl

theorem inv_step {m0 : σ} {s : State B} (h : Inv m0 s) (op : Op κ) : Inv m0 (step s op) := by
  have pcs : ∀ (t : State B) (i : Nat) (p : Pc L R) u, (t.goto i p).pc u = if u = i then p else t.pc u := fun _ _ _ _ => rfl
  cases op with
  | call i =>
    simp only [step]
    cases e : s.pc i with
    | idle =>
      simp only
      have hv := h.view i
      rw [e] at hv
      constructor
      · intro u
        rw [pcs]
        by_cases hu : u = i
        · subst hu
          rw [if_pos rfl]
          have := h.held u
          rw [e] at this
          exact this
        · rw [if_neg hu]; exact h.held u
      · intro u
        rw [pcs]
        show View u (of u (s.log ++ [Ev.call i])) _
        rw [of_snoc]
        by_cases hu : u = i
        · subst hu
          rw [if_pos rfl]
          simp only [who, if_true]
          exact ⟨_, hv, rfl⟩
        · rw [if_neg hu]
          have : ¬ (who (Ev.call i : Ev R) = u) := fun x => hu x.symm
          rw [if_neg this, List.append_nil]
          exact h.view u
      · intro hn
        show Seq B m0 s.seen (taken (s.log ++ [Ev.call i])) s.mem
        rw [taken_snoc]
        simp only [List.append_nil]
        apply h.free
        intro u l hu
        have := hn u l
        rw [pcs] at this
        by_cases hui : u = i
        · subst hui; rw [e] at hu; cases hu
        · rw [if_neg hui] at this; exact this hu
      · intro u l hu
        rw [pcs] at hu
        by_cases hui : u = i
        · rw [if_pos hui] at hu; cases hu
        · rw [if_neg hui] at hu
          show ∃ c1 c2 m1, s.seen = c1 ++ c2 ∧ Seq B m0 c1 (taken (s.log ++ [Ev.call i])) m1 ∧ Path B m1 c2 l s.mem
          rw [taken_snoc]
          simp only [List.append_nil]
          exact h.busy u l hu
    | _ => exact h
  | lock i =>
    simp only [step]
    cases e : s.pc i with
    | waiting =>
      simp only
      split
      · rename_i hfree
        have hnone : ∀ u l, s.pc u ≠ .inside l := by
          intro u l hu
          have := (h.held u).1 (by rw [hu]; trivial)
          rw [hfree] at this; cases this
        have hv := h.view i
        rw [e] at hv
        constructor
        · intro u
          rw [pcs]
          show _ ↔ some i = some u
          by_cases hu : u = i
          · subst hu
            simp [Holds]
          · rw [if_neg hu]
            have := h.held u
            rw [hfree] at this
            constructor
            · intro x; exact absurd (this.1 x) (by simp)
            · intro x; exact absurd (Option.some.inj x).symm hu
        · intro u
          rw [pcs]
          by_cases hu : u = i
          · subst hu; rw [if_pos rfl]; exact hv
          · rw [if_neg hu]; exact h.view u
        · intro hn
          exact absurd (by rw [pcs, if_pos rfl]) (hn i B.start)
        · intro u l hu
          rw [pcs] at hu
          by_cases hui : u = i
          · rw [if_pos hui] at hu
            cases hu
            exact ⟨s.seen, [], s.mem, by simp [State.goto], h.free hnone, .start⟩
          · rw [if_neg hui] at hu
            exact absurd hu (hnone u l)
      · exact h
    | _ => exact h
  | access i c =>
    simp only [step]
    cases e : s.pc i with
    | inside l =>
      simp only
      have hseen : (if B.reads l = true then s.seen ++ [c] else s.seen) = s.seen ++ reading B l c := by
        unfold reading; split <;> simp
      have hi : s.holder = some i := (h.held i).1 (by rw [e]; trivial)
      have honly : ∀ u l', s.pc u = .inside l' → u = i := by
        intro u l' hu
        have := (h.held u).1 (by rw [hu]; trivial)
        rw [hi] at this
        exact (Option.some.inj this).symm
      have hv := h.view i
      rw [e] at hv
      obtain ⟨c1, c2, m1, hs, hseq, hpath⟩ := h.busy i l e
      rw [hseen]
      cases hst : B.step l c s.mem with
      | mk m x =>
        cases x with
        | inl l' =>
          simp only
          constructor
          · intro u
            rw [pcs]
            by_cases hu : u = i
            · subst hu; rw [if_pos rfl]; simp only [Holds, true_iff]; exact hi
            · rw [if_neg hu]; exact h.held u
          · intro u
            rw [pcs]
            by_cases hu : u = i
            · subst hu; rw [if_pos rfl]; exact hv
            · rw [if_neg hu]; exact h.view u
          · intro hn
            exact absurd (by rw [pcs, if_pos rfl]) (hn i l')
          · intro u l'' hu
            rw [pcs] at hu
            by_cases hui : u = i
            · rw [if_pos hui] at hu
              cases hu
              refine ⟨c1, c2 ++ reading B l c, m1, ?_, hseq, .step c hpath hst⟩
              show s.seen ++ _ = _
              rw [hs, List.append_assoc]
            · rw [if_neg hui] at hu
              exact absurd (honly u l'' hu) hui
        | inr r =>
          simp only
          constructor
          · intro u
            rw [pcs]
            by_cases hu : u = i
            · subst hu; rw [if_pos rfl]; simp only [Holds, true_iff]; exact hi
            · rw [if_neg hu]; exact h.held u
          · intro u
            rw [pcs]
            show View u (of u (s.log ++ [Ev.take i r])) _
            rw [of_snoc]
            by_cases hu : u = i
            · subst hu
              rw [if_pos rfl]
              simp only [who, if_true]
              obtain ⟨w, hw, hl⟩ := hv
              exact ⟨w, hw, by rw [hl]; simp⟩
            · rw [if_neg hu]
              have : ¬ (who (Ev.take i r) = u) := fun x => hu x.symm
              rw [if_neg this, List.append_nil]
              exact h.view u
          · intro _
            show Seq B m0 (s.seen ++ reading B l c) (taken (s.log ++ [Ev.take i r])) m
            rw [taken_snoc, hs, List.append_assoc]
            exact .snoc hseq ⟨c2, l, s.mem, c, hpath, hst, rfl⟩
          · intro u l'' hu
            rw [pcs] at hu
            by_cases hui : u = i
            · rw [if_pos hui] at hu; cases hu
            · rw [if_neg hui] at hu
              exact absurd (honly u l'' hu) hui
    | _ => exact h
  | unlock i =>
    simp only [step]
    cases e : s.pc i with
    | leaving r =>
      simp only
      have hi : s.holder = some i := (h.held i).1 (by rw [e]; trivial)
      have hv := h.view i
      rw [e] at hv
      have hnone : ∀ u l, s.pc u ≠ .inside l := by
        intro u l hu
        have := (h.held u).1 (by rw [hu]; trivial)
        rw [hi] at this
        cases this
        rw [e] at hu; cases hu
      constructor
      · intro u
        rw [pcs]
        show _ ↔ none = some u
        by_cases hu : u = i
        · subst hu; simp [Holds]
        · rw [if_neg hu]
          have := h.held u
          rw [hi] at this
          constructor
          · intro x; exact absurd (Option.some.inj (this.1 x)).symm hu
          · intro x; cases x
      · intro u
        rw [pcs]
        by_cases hu : u = i
        · subst hu; rw [if_pos rfl]; exact hv
        · rw [if_neg hu]; exact h.view u
      · intro _; exact h.free hnone
      · intro u l hu
        rw [pcs] at hu
        by_cases hui : u = i
        · rw [if_pos hui] at hu; cases hu
        · rw [if_neg hui] at hu
          exact absurd hu (hnone u l)
    | _ => exact h
  | ret i =>
    simp only [step]
    cases e : s.pc i with
    | returning r =>
      simp only
      have hv := h.view i
      rw [e] at hv
      constructor
      · intro u
        rw [pcs]
        by_cases hu : u = i
        · subst hu
          rw [if_pos rfl]
          have := h.held u
          rw [e] at this
          exact this
        · rw [if_neg hu]; exact h.held u
      · intro u
        rw [pcs]
        show View u (of u (s.log ++ [Ev.ret i r])) _
        rw [of_snoc]
        by_cases hu : u = i
        · subst hu
          rw [if_pos rfl]
          simp only [who, if_true]
          obtain ⟨w, hw, hl⟩ := hv
          show Whole u _
          rw [hl, List.append_assoc]
          exact .more w r hw
        · rw [if_neg hu]
          have : ¬ (who (Ev.ret i r) = u) := fun x => hu x.symm
          rw [if_neg this, List.append_nil]
          exact h.view u
      · intro hn
        show Seq B m0 s.seen (taken (s.log ++ [Ev.ret i r])) s.mem
        rw [taken_snoc]
        simp only [List.append_nil]
        apply h.free
        intro u l hu
        have := hn u l
        rw [pcs] at this
        by_cases hui : u = i
        · subst hui; rw [e] at hu; cases hu
        · rw [if_neg hui] at this; exact this hu
      · intro u l hu
        rw [pcs] at hu
        by_cases hui : u = i
        · rw [if_pos hui] at hu; cases hu
        · rw [if_neg hui] at hu
          show ∃ c1 c2 m1, s.seen = c1 ++ c2 ∧ Seq B m0 c1 (taken (s.log ++ [Ev.ret i r])) m1 ∧ Path B m1 c2 l s.mem
          rw [taken_snoc]
          simp only [List.append_nil]
          exact h.busy u l hu
    | _ => exact h

theorem inv_run (B : Body σ κ R L) (m : σ) (ops : List (Op κ)) : Inv m (run B m ops) := by
  induction ops using snoc_induction with
  | nil =>
    refine ⟨?_, ?_, ?_, ?_⟩
    · intro i; simp [run, Holds]
    · intro i; exact .nil
    · intro _; exact .nil
    · intro i l h; cases h
  | snoc ops x ih => rw [run_snoc]; exact inv_step ih x

/-- Whatever the schedule, the values taken are those of calls made one after the other, with the readings made so far (less those of
a call that is in the body now). -/
theorem seq_run (B : Body σ κ R L) (m : σ) (ops : List (Op κ)) :
    ∃ used rest m', (run B m ops).seen = used ++ rest ∧ Seq B m used (taken (run B m ops).log) m' := by
  have h := inv_run B m ops
  by_cases hb : ∃ i l, (run B m ops).pc i = .inside l
  · obtain ⟨i, l, hl⟩ := hb
    obtain ⟨c1, c2, m1, hs, hseq, _⟩ := h.busy i l hl
    exact ⟨c1, c2, m1, hs, hseq⟩
  · exact ⟨_, [], _, (List.append_nil _).symm, h.free fun i l hl => hb ⟨i, l, hl⟩⟩

theorem calls_run (B : Body σ κ R L) (m : σ) (ops : List (Op κ)) (i : Nat) : Calls i (of i (run B m ops).log) := by
  have h := (inv_run B m ops).view i
  cases hp : (run B m ops).pc i with
  | idle => rw [hp] at h; exact ⟨_, h, Or.inl rfl⟩
  | waiting => rw [hp] at h; obtain ⟨w, hw, e⟩ := h; exact ⟨w, hw, Or.inr (Or.inl e)⟩
  | inside l => rw [hp] at h; obtain ⟨w, hw, e⟩ := h; exact ⟨w, hw, Or.inr (Or.inl e)⟩
  | leaving r => rw [hp] at h; obtain ⟨w, hw, e⟩ := h; exact ⟨w, hw, Or.inr (Or.inr ⟨r, e⟩)⟩
  | returning r => rw [hp] at h; obtain ⟨w, hw, e⟩ := h; exact ⟨w, hw, Or.inr (Or.inr ⟨r, e⟩)⟩

/-! ### What follows for the callers -/

theorem log_prefix (B : Body σ κ R L) (m : σ) (ops : List (Op κ)) :
    ∀ a b : List (Ev R), (run B m ops).log = a ++ b → ∃ ops', (run B m ops').log = a := by
  induction ops using snoc_induction with
  | nil =>
    intro a b h
    have h' : ([] : List (Ev R)) = a ++ b := h
    have := List.append_eq_nil_iff.1 h'.symm
    exact ⟨[], by rw [this.1]; rfl⟩
  | snoc ops x ih =>
    intro a b h
    by_cases hb : b = []
    · subst hb
      exact ⟨ops ++ [x], by rw [h, List.append_nil]⟩
    · have hlog : (run B m (ops ++ [x])).log = (run B m ops).log ∨ ∃ e, (run B m (ops ++ [x])).log = (run B m ops).log ++ [e] := by
        rw [run_snoc]
        generalize run B m ops = s
        cases x with
        | call i => simp only [step]; cases s.pc i <;> first | exact Or.inl rfl | exact Or.inr ⟨_, rfl⟩
        | lock i =>
          simp only [step]
          cases s.pc i
          case waiting => simp only; split <;> exact Or.inl rfl
          all_goals exact Or.inl rfl
        | access i c =>
          simp only [step]
          cases s.pc i
          case inside l =>
            simp only
            rcases B.step l c s.mem with ⟨m', x⟩
            cases x
            · exact Or.inl rfl
            · exact Or.inr ⟨_, rfl⟩
          all_goals exact Or.inl rfl
        | unlock i => simp only [step]; cases s.pc i <;> exact Or.inl rfl
        | ret i => simp only [step]; cases s.pc i <;> first | exact Or.inl rfl | exact Or.inr ⟨_, rfl⟩
      rcases hlog with hl | ⟨e, hl⟩
      · exact ih a b (by rw [← hl, h])
      · rw [hl] at h
        have hd := List.dropLast_concat_getLast hb
        rw [← hd, ← List.append_assoc] at h
        have := (List.append_inj' h rfl).1
        exact ih a b.dropLast this

theorem of_append (i : Nat) (a b : List (Ev R)) : of i (a ++ b) = of i a ++ of i b := by
  unfold of; rw [List.filter_append]

theorem whole_ret {i : Nat} {x : List (Ev R)} {e : Ev R} (h : Whole i (x ++ [e])) :
    ∃ w r, Whole i w ∧ x = w ++ [.call i, .take i r] ∧ e = .ret i r := by
  generalize hy : x ++ [e] = y at h
  cases h with
  | nil => simp at hy
  | more l r hw =>
    have e1 : l ++ [Ev.call i, .take i r, .ret i r] = (l ++ [Ev.call i, .take i r]) ++ [.ret i r] := by simp
    rw [e1] at hy
    obtain ⟨h1, h2⟩ := List.append_inj' hy rfl
    exact ⟨l, r, hw, h1, by simpa using h2⟩

/-- A value returned was taken by the same goroutine, after its call and before the return. -/
theorem ret_took {B : Body σ κ R L} {m : σ} {ops : List (Op κ)} {a b : List (Ev R)} {i : Nat} {r : R}
    (h : (run B m ops).log = a ++ .ret i r :: b) :
    ∃ w, Whole i w ∧ of i a = w ++ [.call i, .take i r] := by
  have h' : (run B m ops).log = (a ++ [.ret i r]) ++ b := by rw [h]; simp
  obtain ⟨ops', hp⟩ := log_prefix B m ops _ _ h'
  have hc := calls_run B m ops' i
  rw [hp, of_snoc] at hc
  simp only [who, if_true] at hc
  obtain ⟨w, hw, h1 | h1 | ⟨r', h1⟩⟩ := hc
  · rw [← h1] at hw
    obtain ⟨w', r', hw', hx, he⟩ := whole_ret hw
    cases he
    exact ⟨w', hw', hx⟩
  · have := (List.append_inj' h1 rfl).2
    simp at this
  · have e1 : w ++ [Ev.call i, .take i r'] = (w ++ [Ev.call i]) ++ [.take i r'] := by simp
    rw [e1] at h1
    have := (List.append_inj' h1 rfl).2
    simp at this

theorem mem_of {i : Nat} {l : List (Ev R)} {e : Ev R} (h : e ∈ of i l) : e ∈ l := (List.mem_filter.1 h).1

theorem taken_append (a b : List (Ev R)) : taken (a ++ b) = taken a ++ taken b := by
  unfold taken; rw [List.filterMap_append]

theorem taken_split {l : List (Ev R)} {i : Nat} {r : R} (h : Ev.take i r ∈ l) : ∃ x y, taken l = x ++ r :: y := by
  obtain ⟨a, b, e⟩ := List.append_of_mem h
  refine ⟨taken a, taken b, ?_⟩
  rw [e, taken_append]
  rfl

/-- **C117, order.** A call that starts after another has returned takes its value later. -/
theorem order_kept (B : Body σ κ R L) (m : σ) (ops : List (Op κ)) (a b c e : List (Ev R)) (i j : Nat) (r r' : R)
    (h : (run B m ops).log = a ++ .ret i r :: b ++ .call j :: c ++ .ret j r' :: e) (hc : ∀ x, Ev.ret j x ∉ c) :
    ∃ t1 t2 t3, taken (run B m ops).log = t1 ++ r :: t2 ++ r' :: t3 := by
  have ha : Ev.take i r ∈ a := by
    have h1 : (run B m ops).log = a ++ .ret i r :: (b ++ .call j :: c ++ .ret j r' :: e) := by rw [h]; simp
    obtain ⟨w, _, hw⟩ := ret_took h1
    exact mem_of (i := i) (by rw [hw]; simp)
  have hcj : Ev.take j r' ∈ c := by
    obtain ⟨w, hw, h2⟩ := ret_took h
    have e1 : of j (a ++ .ret i r :: b ++ .call j :: c) = of j (a ++ .ret i r :: b) ++ [.call j] ++ of j c := by
      rw [of_append]
      have : of j (Ev.call j :: c) = .call j :: of j c := by simp [of, who]
      rw [this]; simp
    rw [e1] at h2
    have hcc : ∀ x, Ev.ret j x ∉ of j c := fun x hx => hc x (mem_of hx)
    generalize hC : of j c = C at h2 hcc
    have e2 : w ++ [Ev.call j, .take j r'] = (w ++ [Ev.call j]) ++ [.take j r'] := by simp
    rw [e2] at h2
    rcases List.eq_nil_or_concat C with rfl | ⟨C1, x, rfl⟩
    · rw [List.append_nil] at h2
      have := (List.append_inj' h2 rfl).2
      simp at this
    · have : x = .take j r' := by
        rw [List.concat_eq_append, ← List.append_assoc] at h2
        simpa using (List.append_inj' h2 rfl).2
      subst this
      exact mem_of (i := j) (by rw [hC]; simp)
  rw [h]
  obtain ⟨x1, y1, e1⟩ := taken_split ha
  obtain ⟨x2, y2, e2⟩ := taken_split hcj
  refine ⟨x1, y1 ++ taken (.ret i r :: b ++ [.call j]) ++ x2, y2 ++ taken (.ret j r' :: e), ?_⟩
  have : a ++ .ret i r :: b ++ .call j :: c ++ .ret j r' :: e = a ++ (.ret i r :: b ++ [.call j]) ++ c ++ (.ret j r' :: e) := by simp
  rw [this, taken_append, taken_append, taken_append, e1, e2]
  simp

/-- The takings and the returns, with the goroutine. -/
def takenBy (log : List (Ev R)) : List (Nat × R) := log.filterMap fun | .take i r => some (i, r) | _ => none
def returnedTo (log : List (Ev R)) : List (Nat × R) := log.filterMap fun | .ret i r => some (i, r) | _ => none

theorem taken_map (log : List (Ev R)) : taken log = (takenBy log).map (·.2) := by
  induction log with
  | nil => rfl
  | cons e l ih => cases e <;> simp [taken, takenBy] at ih ⊢ <;> exact ih

theorem returned_map (log : List (Ev R)) : returned log = (returnedTo log).map (·.2) := by
  induction log with
  | nil => rfl
  | cons e l ih => cases e <;> simp [returned, returnedTo] at ih ⊢ <;> exact ih

theorem whole_same {i : Nat} {w : List (Ev R)} (h : Whole i w) : takenBy w = returnedTo w := by
  induction h with
  | nil => rfl
  | more l r _ ih =>
    unfold takenBy returnedTo at *
    rw [List.filterMap_append, List.filterMap_append, ih]
    rfl

theorem count_le [DecidableEq R] {i : Nat} {l : List (Ev R)} (h : Calls i l) (p : Nat × R) :
    (returnedTo l).count p ≤ (takenBy l).count p := by
  obtain ⟨w, hw, rfl | rfl | ⟨r, rfl⟩⟩ := h
  · rw [whole_same hw]; exact Nat.le_refl _
  · have : takenBy (w ++ [Ev.call i]) = takenBy w := by simp [takenBy]
    have h2 : returnedTo (w ++ [Ev.call i]) = returnedTo w := by simp [returnedTo]
    rw [this, h2, whole_same hw]; exact Nat.le_refl _
  · have : takenBy (w ++ [Ev.call i, .take i r]) = takenBy w ++ [(i, r)] := by simp [takenBy]
    have h2 : returnedTo (w ++ [Ev.call i, .take i r]) = returnedTo w := by simp [returnedTo]
    rw [this, h2, whole_same hw, List.count_append]; exact Nat.le_add_right _ _

theorem count_of_take [DecidableEq R] (log : List (Ev R)) (p : Nat × R) :
    (takenBy log).count p = (takenBy (of p.1 log)).count p := by
  induction log with
  | nil => rfl
  | cons e l ih =>
    by_cases he : who e = p.1
    · have : of p.1 (e :: l) = e :: of p.1 l := by simp [of, he]
      rw [this]
      cases e <;> simp only [takenBy, List.filterMap_cons, List.count_cons] at ih ⊢ <;> rw [ih]
    · have : of p.1 (e :: l) = of p.1 l := by simp [of, he]
      rw [this, ← ih]
      cases e with
      | take i r =>
        simp only [takenBy, List.filterMap_cons, List.count_cons]
        have : ¬ ((i, r) == p) = true := by
          intro x; have := eq_of_beq x; subst this; exact he rfl
        simp [this]
      | _ => rfl

theorem count_of_ret [DecidableEq R] (log : List (Ev R)) (p : Nat × R) :
    (returnedTo log).count p = (returnedTo (of p.1 log)).count p := by
  induction log with
  | nil => rfl
  | cons e l ih =>
    by_cases he : who e = p.1
    · have : of p.1 (e :: l) = e :: of p.1 l := by simp [of, he]
      rw [this]
      cases e <;> simp only [returnedTo, List.filterMap_cons, List.count_cons] at ih ⊢ <;> rw [ih]
    · have : of p.1 (e :: l) = of p.1 l := by simp [of, he]
      rw [this, ← ih]
      cases e with
      | ret i r =>
        simp only [returnedTo, List.filterMap_cons, List.count_cons]
        have : ¬ ((i, r) == p) = true := by
          intro x; have := eq_of_beq x; subst this; exact he rfl
        simp [this]
      | _ => rfl

theorem nodup_of_count {S : Type} [DecidableEq R] (f : Nat × R → S) (ts : List (Nat × R)) (hn : (ts.map f).Nodup) :
    ∀ rs : List (Nat × R), (∀ p, rs.count p ≤ ts.count p) → (rs.map f).Nodup := by
  have hnd : ts.Nodup := by
    rw [List.nodup_iff_pairwise_ne, List.pairwise_map] at hn
    rw [List.nodup_iff_pairwise_ne]
    exact hn.imp fun h e => h (by rw [e])
  have hinj : ∀ p ∈ ts, ∀ q ∈ ts, f p = f q → p = q := by
    intro p hp q hq e
    obtain ⟨i, hi, rfl⟩ := List.getElem_of_mem hp
    obtain ⟨j, hj, rfl⟩ := List.getElem_of_mem hq
    rw [List.nodup_iff_pairwise_ne, List.pairwise_map, List.pairwise_iff_getElem] at hn
    rcases Nat.lt_trichotomy i j with h | h | h
    · exact absurd e (hn i j hi hj h)
    · subst h; rfl
    · exact absurd e.symm (hn j i hj hi h)
  intro rs
  induction rs with
  | nil => intro _; simp
  | cons p l ih =>
    intro hc
    rw [List.map_cons, List.nodup_cons]
    refine ⟨?_, ih fun q => ?_⟩
    · intro hm
      obtain ⟨q, hq, e⟩ := List.mem_map.1 hm
      have hp : p ∈ ts := List.count_pos_iff.1 (by have := hc p; rw [List.count_cons_self] at this; omega)
      have hq' : q ∈ ts := by
        have h1 := List.count_pos_iff.2 hq
        have h2 := hc q
        rw [List.count_cons] at h2
        exact List.count_pos_iff.1 (by omega)
      have := hinj q hq' p hp e
      subst this
      have h1 := List.count_pos_iff.2 hq
      have h2 := hc q
      rw [List.count_cons_self] at h2
      have h3 := List.nodup_iff_count.1 hnd q
      omega
    · have := hc q
      rw [List.count_cons] at this
      omega

/-- **C117, nothing twice.** If no value was taken twice (up to `f`), no two calls, of whatever goroutines, got the same value. -/
theorem returned_nodup {S : Type} [DecidableEq R] (f : R → S) (B : Body σ κ R L) (m : σ) (ops : List (Op κ))
    (h : ((taken (run B m ops).log).map f).Nodup) : ((returned (run B m ops).log).map f).Nodup := by
  rw [taken_map, List.map_map] at h
  rw [returned_map, List.map_map]
  apply nodup_of_count _ _ h
  intro p
  rw [count_of_take, count_of_ret]
  exact count_le (calls_run B m ops p.1) p

end Gosms.IdLock
