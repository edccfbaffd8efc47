import Verif.Props.IdLock

/-!
# C117 for the five generators
-/

namespace Gosms.IdLock
open Gosms.Spec.IdLock

variable {σ κ R L : Type} {B : Body σ κ R L}

/-- Calls one after the other, for a `NextVal` in one piece that uses up some of the readings. -/
def iter (next : σ → List κ → Option ((R × σ) × List κ)) : σ → List κ → Nat → Option (List R × σ × List κ)
  | s, cs, 0 => some ([], s, cs)
  | s, cs, n + 1 => (next s cs).bind fun x => (iter next x.1.2 x.2 n).map fun y => (x.1.1 :: y.1, y.2)

theorem iter_snoc (next : σ → List κ → Option ((R × σ) × List κ)) (n : Nat) : ∀ (s s' s'' : σ) (cs cs' cs'' : List κ) (rs : List R) (r : R),
    iter next s cs n = some (rs, s', cs') → next s' cs' = some ((r, s''), cs'') →
    iter next s cs (n + 1) = some (rs ++ [r], s'', cs'') := by
  induction n with
  | zero =>
    intro s s' s'' cs cs' cs'' rs r h h2
    simp only [iter, Option.some.injEq, Prod.mk.injEq] at h
    obtain ⟨rfl, rfl, rfl⟩ := h
    simp only [iter, h2, Option.bind_some, Option.map_some, List.nil_append]
  | succ n ih =>
    intro s s' s'' cs cs' cs'' rs r h h2
    rw [iter] at h
    cases hx : next s cs with
    | none => rw [hx] at h; cases h
    | some x =>
      rw [hx] at h
      simp only [Option.bind_some] at h
      cases hy : iter next x.1.2 x.2 n with
      | none => rw [hy] at h; cases h
      | some y =>
        rw [hy] at h
        simp only [Option.map_some, Option.some.injEq, Prod.mk.injEq] at h
        obtain ⟨rfl, h3⟩ := h
        have hy' : iter next x.1.2 x.2 n = some (y.1, s', cs') := by rw [hy, ← h3]
        have := ih x.1.2 s' s'' x.2 cs' cs'' y.1 r hy' h2
        rw [iter, hx]
        simp only [Option.bind_some, this, Option.map_some, List.cons_append]

/-- The body, run alone, does what the `NextVal` in one piece does. -/
def Does (B : Body σ κ R L) (next : σ → List κ → Option ((R × σ) × List κ)) : Prop :=
  ∀ m cs r m' rest, Call B m cs r m' → next m (cs ++ rest) = some ((r, m'), rest)

theorem seq_iter {next : σ → List κ → Option ((R × σ) × List κ)} (hd : Does B next) {m m' : σ} {cs : List κ} {rs : List R}
    (h : Seq B m cs rs m') : ∀ rest, iter next m (cs ++ rest) rs.length = some (rs, m', rest) := by
  induction h with
  | nil => intro rest; rfl
  | snoc hs hc ih =>
    intro rest
    rw [List.length_append, List.append_assoc]
    exact iter_snoc next _ _ _ _ _ _ _ _ _ (ih _) (hd _ _ _ _ rest hc)

/-- **C117, one after the other.** Whatever the schedule of whatever number of goroutines, the values taken are the values of that many
calls made one after the other, and the clock readings made so far are the readings of these calls. -/
theorem taken_iter {next : σ → List κ → Option ((R × σ) × List κ)} (hd : Does B next) (m : σ) (ops : List (Op κ)) :
    ∃ m' rest, iter next m (run B m ops).seen (taken (run B m ops).log).length = some (taken (run B m ops).log, m', rest) := by
  obtain ⟨used, rest, m', h1, h2⟩ := seq_run B m ops
  exact ⟨m', rest, by rw [h1]; exact seq_iter hd h2 rest⟩

/-! ### CycleSequence -/

def cycleAt (m0 : CycleSeq) (cs : List Unit) (m : CycleSeq) : CycleL → Prop
  | .ldSeq => cs = [] ∧ m = m0
  | .stSeq q => cs = [] ∧ m = m0 ∧ q = m0.sequence
  | .ldDc => cs = [] ∧ m = m0.nextVal.2
  | .ldWorker d => cs = [] ∧ m = m0.nextVal.2 ∧ d = m0.datacenter
  | .ldRes d w => cs = [] ∧ m = m0.nextVal.2 ∧ d = m0.datacenter ∧ w = m0.worker

theorem cycle_path {m0 m : CycleSeq} {cs : List Unit} {l : CycleL} (h : Path cycleBody m0 cs l m) : cycleAt m0 cs m l := by
  induction h with
  | start => exact ⟨rfl, rfl⟩
  | @step cs l l' m m' c _ he ih =>
    have hr : reading cycleBody l c = [] := rfl
    rw [hr, List.append_nil]
    cases l <;> simp only [cycleBody, Prod.mk.injEq, Sum.inl.injEq, reduceCtorEq, and_false] at he <;>
      obtain ⟨rfl, rfl⟩ := he <;> simp only [cycleAt] at ih ⊢
    · exact ⟨ih.1, ih.2, by rw [ih.2]⟩
    · obtain ⟨h1, rfl, rfl⟩ := ih; exact ⟨h1, rfl⟩
    · obtain ⟨h1, rfl⟩ := ih; exact ⟨h1, rfl, rfl⟩
    · obtain ⟨h1, rfl, rfl⟩ := ih; exact ⟨h1, rfl, rfl, rfl⟩

theorem cycle_does : Does cycleBody (fun m cs => some (m.nextVal, cs)) := by
  rintro m cs r m' rest ⟨cs1, l, m1, c, hp, he, hcs⟩
  have h := cycle_path hp
  have hr : reading cycleBody l c = [] := rfl
  rw [hr, List.append_nil] at hcs
  subst hcs
  cases l <;> simp only [cycleBody, Prod.mk.injEq, Sum.inr.injEq, reduceCtorEq, and_false] at he
  obtain ⟨rfl, rfl⟩ := he
  obtain ⟨rfl, rfl, rfl, rfl⟩ := h
  rfl

/-! ### BcdSequence -/

def bcdNext (m : BcdSeq) : List Bytes → Option ((Bytes × BcdSeq) × List Bytes)
  | [] => none
  | c :: cs => some (m.nextVal c, cs)

def bcdAt (m0 : BcdSeq) (cs : List Bytes) (m : BcdSeq) : BcdL → Prop
  | .now => cs = [] ∧ m = m0
  | .cmp mi => cs = [mi] ∧ m = m0
  | .ldSeq mi => cs = [mi] ∧ m = m0 ∧ m0.timestamp = mi
  | .stSeq mi q => cs = [mi] ∧ m = m0 ∧ m0.timestamp = mi ∧ q = m0.sequence
  | .zero mi => cs = [mi] ∧ m = m0 ∧ m0.timestamp ≠ mi
  | .stTime mi => cs = [mi] ∧ m = { m0 with sequence := (m0.nextVal mi).2.sequence }
  | .ldWorker => ∃ mi, cs = [mi] ∧ m = (m0.nextVal mi).2
  | .ldTime w => ∃ mi, cs = [mi] ∧ m = (m0.nextVal mi).2 ∧ w = m0.worker
  | .ldRes w t => ∃ mi, cs = [mi] ∧ m = (m0.nextVal mi).2 ∧ w = m0.worker ∧ t = mi

theorem bcd_path {m0 m : BcdSeq} {cs : List Bytes} {l : BcdL} (h : Path bcdBody m0 cs l m) : bcdAt m0 cs m l := by
  induction h with
  | start => exact ⟨rfl, rfl⟩
  | @step cs l l' m m' c _ he ih =>
    cases l <;> simp only [bcdBody, Prod.mk.injEq, Sum.inl.injEq, reduceCtorEq, and_false] at he <;>
      obtain ⟨rfl, rfl⟩ := he <;> simp only [reading, bcdBody, if_true, Bool.false_eq_true, if_false, List.append_nil] <;>
      simp only [bcdAt] at ih
    · obtain ⟨rfl, rfl⟩ := ih; exact ⟨rfl, rfl⟩
    · obtain ⟨rfl, rfl⟩ := ih
      split
      · exact ⟨rfl, rfl, by assumption⟩
      · exact ⟨rfl, rfl, by assumption⟩
    · obtain ⟨rfl, rfl, h⟩ := ih; exact ⟨rfl, rfl, h, rfl⟩
    · obtain ⟨rfl, rfl, h, rfl⟩ := ih; refine ⟨rfl, ?_⟩; simp only [BcdSeq.nextVal, if_pos h]
    · obtain ⟨rfl, rfl, h⟩ := ih; refine ⟨rfl, ?_⟩; simp only [BcdSeq.nextVal, if_neg h]
    · obtain ⟨rfl, rfl⟩ := ih; exact ⟨_, rfl, rfl⟩
    · obtain ⟨mi, rfl, rfl⟩ := ih; exact ⟨mi, rfl, rfl, rfl⟩
    · obtain ⟨mi, rfl, rfl, rfl⟩ := ih; exact ⟨mi, rfl, rfl, rfl, rfl⟩

theorem bcd_does : Does bcdBody bcdNext := by
  rintro m cs r m' rest ⟨cs1, l, m1, c, hp, he, rfl⟩
  have h := bcd_path hp
  cases l <;> simp only [bcdBody, Prod.mk.injEq, Sum.inr.injEq, reduceCtorEq, and_false] at he
  obtain ⟨rfl, rfl⟩ := he
  obtain ⟨mi, rfl, rfl, rfl, rfl⟩ := h
  rfl

/-! ### The SGIP sequencer -/

def sgipNext (m : SgipSeq) : List Clock → Option (((UInt32 × UInt32 × UInt32) × SgipSeq) × List Clock)
  | [] => none
  | c :: cs => some (m.nextVal c, cs)

def sgipQ (m0 : SgipSeq) : UInt32 := (m0.sequence + 0x1f) &&& 0xffffffff
def tMonth (c : Clock) : UInt32 := UInt32.ofNat (c.month * 100000000)
def tDay (c : Clock) : UInt32 := tMonth c + UInt32.ofNat (c.day * 1000000)
def tHour (c : Clock) : UInt32 := tDay c + UInt32.ofNat (c.hour * 10000)
def tMinute (c : Clock) : UInt32 := tHour c + UInt32.ofNat (c.minute * 100)
def tSecond (c : Clock) : UInt32 := tMinute c + UInt32.ofNat c.second

def sgipAt (m0 : SgipSeq) (cs : List Clock) (m : SgipSeq) : SgipL → Prop
  | .ldSeq => cs = [] ∧ m = m0
  | .stSeq q => cs = [] ∧ m = m0 ∧ q = m0.sequence
  | .now => cs = [] ∧ m = ⟨m0.node, m0.timestamp, sgipQ m0⟩
  | .ldNode c => cs = [c] ∧ m = ⟨m0.node, m0.timestamp, sgipQ m0⟩
  | .month c n => cs = [c] ∧ m = ⟨m0.node, m0.timestamp, sgipQ m0⟩ ∧ n = m0.node
  | .ldDay c n => cs = [c] ∧ m = ⟨m0.node, tMonth c, sgipQ m0⟩ ∧ n = m0.node
  | .day c n t => cs = [c] ∧ m = ⟨m0.node, tMonth c, sgipQ m0⟩ ∧ n = m0.node ∧ t = tMonth c
  | .ldHour c n => cs = [c] ∧ m = ⟨m0.node, tDay c, sgipQ m0⟩ ∧ n = m0.node
  | .hour c n t => cs = [c] ∧ m = ⟨m0.node, tDay c, sgipQ m0⟩ ∧ n = m0.node ∧ t = tDay c
  | .ldMinute c n => cs = [c] ∧ m = ⟨m0.node, tHour c, sgipQ m0⟩ ∧ n = m0.node
  | .minute c n t => cs = [c] ∧ m = ⟨m0.node, tHour c, sgipQ m0⟩ ∧ n = m0.node ∧ t = tHour c
  | .ldSecond c n => cs = [c] ∧ m = ⟨m0.node, tMinute c, sgipQ m0⟩ ∧ n = m0.node
  | .second c n t => cs = [c] ∧ m = ⟨m0.node, tMinute c, sgipQ m0⟩ ∧ n = m0.node ∧ t = tMinute c
  | .ldTime n => ∃ c, cs = [c] ∧ m = ⟨m0.node, tSecond c, sgipQ m0⟩ ∧ n = m0.node
  | .ldRes n t => ∃ c, cs = [c] ∧ m = ⟨m0.node, tSecond c, sgipQ m0⟩ ∧ n = m0.node ∧ t = tSecond c

theorem sgip_path {m0 m : SgipSeq} {cs : List Clock} {l : SgipL} (h : Path sgipBody m0 cs l m) : sgipAt m0 cs m l := by
  induction h with
  | start => exact ⟨rfl, rfl⟩
  | @step cs l l' m m' c _ he ih =>
    cases l <;> simp only [sgipBody, Prod.mk.injEq, Sum.inl.injEq, reduceCtorEq, and_false] at he <;>
      obtain ⟨rfl, rfl⟩ := he <;> simp only [reading, sgipBody, if_true, Bool.false_eq_true, if_false, List.append_nil] <;>
      simp only [sgipAt] at ih
    · obtain ⟨rfl, rfl⟩ := ih; exact ⟨rfl, rfl, rfl⟩
    · obtain ⟨rfl, rfl, rfl⟩ := ih; exact ⟨rfl, rfl⟩
    · obtain ⟨rfl, rfl⟩ := ih; exact ⟨rfl, rfl⟩
    · obtain ⟨rfl, rfl⟩ := ih; exact ⟨rfl, rfl, rfl⟩
    · obtain ⟨rfl, rfl, rfl⟩ := ih; exact ⟨rfl, rfl, rfl⟩
    · obtain ⟨rfl, rfl, rfl⟩ := ih; exact ⟨rfl, rfl, rfl, rfl⟩
    · obtain ⟨rfl, rfl, rfl, rfl⟩ := ih; exact ⟨rfl, rfl, rfl⟩
    · obtain ⟨rfl, rfl, rfl⟩ := ih; exact ⟨rfl, rfl, rfl, rfl⟩
    · obtain ⟨rfl, rfl, rfl, rfl⟩ := ih; exact ⟨rfl, rfl, rfl⟩
    · obtain ⟨rfl, rfl, rfl⟩ := ih; exact ⟨rfl, rfl, rfl, rfl⟩
    · obtain ⟨rfl, rfl, rfl, rfl⟩ := ih; exact ⟨rfl, rfl, rfl⟩
    · obtain ⟨rfl, rfl, rfl⟩ := ih; exact ⟨rfl, rfl, rfl, rfl⟩
    · obtain ⟨rfl, rfl, rfl, rfl⟩ := ih; exact ⟨_, rfl, rfl, rfl⟩
    · obtain ⟨c, rfl, rfl, rfl⟩ := ih; exact ⟨c, rfl, rfl, rfl, rfl⟩

theorem sgip_does : Does sgipBody sgipNext := by
  rintro m cs r m' rest ⟨cs1, l, m1, c, hp, he, rfl⟩
  have h := sgip_path hp
  cases l <;> simp only [sgipBody, Prod.mk.injEq, Sum.inr.injEq, reduceCtorEq, and_false] at he
  obtain ⟨rfl, rfl⟩ := he
  obtain ⟨c, rfl, rfl, rfl, rfl⟩ := h
  rfl

/-! ### Snowflake -/

theorem waitAfter_skip (ts : Int) (ws : List Int) (hw : ∀ x ∈ ws, x ≤ ts) (rest : List Int) :
    waitAfter ts (ws ++ rest) = waitAfter ts rest := by
  induction ws with
  | nil => rfl
  | cons x l ih =>
    rw [List.cons_append, waitAfter, if_pos (hw x (by simp)), ih fun y hy => hw y (by simp [hy])]

/-- The readings of a waiting loop so far: the last one is `now`, those before did not suffice. -/
def Waited (ts now : Int) (cs : List Int) : Prop :=
  (cs = [ts] ∧ now = ts) ∨ ∃ ws, cs = ts :: (ws ++ [now]) ∧ ∀ x ∈ ws, x ≤ ts

def snowAt (m0 : Snowflake) (cs : List Int) (m : Snowflake) : SnowL → Prop
  | .now => cs = [] ∧ m = m0
  | .cmp now => cs = [now] ∧ m = m0
  | .ldSeq now => cs = [now] ∧ m = m0 ∧ m0.timestamp = now
  | .stSeq now q => cs = [now] ∧ m = m0 ∧ m0.timestamp = now ∧ q = m0.sequence
  | .chk now => cs = [now] ∧ m = { m0 with sequence := (m0.sequence + 1) &&& 0xfff#64 } ∧ m0.timestamp = now
  | .loop now => (m0.sequence + 1) &&& 0xfff#64 = 0 ∧ m = { m0 with sequence := 0 } ∧ Waited m0.timestamp now cs
  | .again => (m0.sequence + 1) &&& 0xfff#64 = 0 ∧ m = { m0 with sequence := 0 } ∧
      ∃ ws, cs = m0.timestamp :: ws ∧ ∀ x ∈ ws, x ≤ m0.timestamp
  | .zero now => cs = [now] ∧ m = m0 ∧ m0.timestamp ≠ now
  | .stTime now => ∃ q, m = { m0 with sequence := q } ∧ ∀ rest, m0.nextVal (cs ++ rest) = some (m0.finish now q, rest)
  | .ldDc t => ∃ now q, t = now - sfEpoch ∧ ¬ t > sfTimestampMax ∧ m = { m0 with timestamp := now, sequence := q } ∧
      ∀ rest, m0.nextVal (cs ++ rest) = some (m0.finish now q, rest)
  | .ldWorker t d => ∃ now q, t = now - sfEpoch ∧ ¬ t > sfTimestampMax ∧ m = { m0 with timestamp := now, sequence := q } ∧
      (∀ rest, m0.nextVal (cs ++ rest) = some (m0.finish now q, rest)) ∧ d = m0.datacenterId
  | .ldRes t d w => ∃ now q, t = now - sfEpoch ∧ ¬ t > sfTimestampMax ∧ m = { m0 with timestamp := now, sequence := q } ∧
      (∀ rest, m0.nextVal (cs ++ rest) = some (m0.finish now q, rest)) ∧ d = m0.datacenterId ∧ w = m0.workerId

theorem snow_path {m0 m : Snowflake} {cs : List Int} {l : SnowL} (h : Path snowBody m0 cs l m) : snowAt m0 cs m l := by
  induction h with
  | start => exact ⟨rfl, rfl⟩
  | @step cs l l' m m' c _ he ih =>
    cases l with
    | stTime now =>
      simp only [reading, snowBody, Bool.false_eq_true, if_false, List.append_nil]
      simp only [snowBody] at he
      obtain ⟨q, rfl, h⟩ := ih
      split at he
      · simp at he
      · simp only [Prod.mk.injEq, Sum.inl.injEq] at he
        obtain ⟨rfl, rfl⟩ := he
        exact ⟨now, q, rfl, by assumption, rfl, h⟩
    | now =>
      simp only [snowBody, Prod.mk.injEq, Sum.inl.injEq] at he
      obtain ⟨rfl, rfl⟩ := he
      obtain ⟨rfl, rfl⟩ := ih
      exact ⟨rfl, rfl⟩
    | cmp now =>
      simp only [snowBody, Prod.mk.injEq, Sum.inl.injEq] at he
      simp only [reading, snowBody, Bool.false_eq_true, if_false, List.append_nil]
      obtain ⟨rfl, rfl⟩ := he
      obtain ⟨rfl, rfl⟩ := ih
      split
      · exact ⟨rfl, rfl, by assumption⟩
      · exact ⟨rfl, rfl, by assumption⟩
    | ldSeq now =>
      simp only [snowBody, Prod.mk.injEq, Sum.inl.injEq] at he
      simp only [reading, snowBody, Bool.false_eq_true, if_false, List.append_nil]
      obtain ⟨rfl, rfl⟩ := he
      obtain ⟨rfl, rfl, h⟩ := ih
      exact ⟨rfl, rfl, h, rfl⟩
    | stSeq now q =>
      simp only [snowBody, Prod.mk.injEq, Sum.inl.injEq] at he
      simp only [reading, snowBody, Bool.false_eq_true, if_false, List.append_nil]
      obtain ⟨rfl, rfl⟩ := he
      obtain ⟨rfl, rfl, h, rfl⟩ := ih
      exact ⟨rfl, rfl, h⟩
    | chk now =>
      simp only [snowBody, Prod.mk.injEq, Sum.inl.injEq] at he
      simp only [reading, snowBody, Bool.false_eq_true, if_false, List.append_nil]
      obtain ⟨rfl, rfl⟩ := he
      obtain ⟨rfl, rfl, rfl⟩ := ih
      split
      · rename_i h
        refine ⟨h, ?_, Or.inl ⟨rfl, rfl⟩⟩
        simp only at h ⊢
        rw [h]
      · rename_i h
        refine ⟨_, rfl, fun rest => ?_⟩
        simp only at h
        simp only [List.cons_append, List.nil_append, Snowflake.nextVal, if_true, if_neg h]
    | loop now =>
      simp only [snowBody, Prod.mk.injEq, Sum.inl.injEq] at he
      simp only [reading, snowBody, Bool.false_eq_true, if_false, List.append_nil]
      obtain ⟨rfl, rfl⟩ := he
      obtain ⟨hz, rfl, hwt⟩ := ih
      simp only
      split
      · rename_i hle
        refine ⟨hz, rfl, ?_⟩
        rcases hwt with ⟨rfl, rfl⟩ | ⟨ws, rfl, hws⟩
        · exact ⟨[], rfl, by simp⟩
        · refine ⟨ws ++ [now], rfl, ?_⟩
          intro x hx
          simp only [List.mem_append, List.mem_cons, List.not_mem_nil, or_false] at hx
          rcases hx with hx | rfl
          · exact hws x hx
          · exact hle
      · rename_i hgt
        refine ⟨0, rfl, fun rest => ?_⟩
        rcases hwt with ⟨rfl, rfl⟩ | ⟨ws, rfl, hws⟩
        · exact absurd (Int.le_refl _) hgt
        · rw [List.cons_append, Snowflake.nextVal]
          simp only [if_true, hz]
          rw [List.append_assoc, waitAfter_skip _ _ hws, List.singleton_append, waitAfter, if_neg hgt]
          rfl
    | again =>
      simp only [snowBody, Prod.mk.injEq, Sum.inl.injEq] at he
      simp only [reading, snowBody, if_true]
      obtain ⟨rfl, rfl⟩ := he
      obtain ⟨hz, rfl, ws, rfl, hws⟩ := ih
      exact ⟨hz, rfl, Or.inr ⟨ws, rfl, hws⟩⟩
    | zero now =>
      simp only [snowBody, Prod.mk.injEq, Sum.inl.injEq] at he
      simp only [reading, snowBody, Bool.false_eq_true, if_false, List.append_nil]
      obtain ⟨rfl, rfl⟩ := he
      obtain ⟨rfl, rfl, h⟩ := ih
      refine ⟨0, rfl, fun rest => ?_⟩
      simp only [List.cons_append, List.nil_append, Snowflake.nextVal, if_neg h]
    | ldDc t =>
      simp only [snowBody, Prod.mk.injEq, Sum.inl.injEq] at he
      simp only [reading, snowBody, Bool.false_eq_true, if_false, List.append_nil]
      obtain ⟨rfl, rfl⟩ := he
      obtain ⟨now, q, h1, h2, rfl, h3⟩ := ih
      exact ⟨now, q, h1, h2, rfl, h3, rfl⟩
    | ldWorker t d =>
      simp only [snowBody, Prod.mk.injEq, Sum.inl.injEq] at he
      simp only [reading, snowBody, Bool.false_eq_true, if_false, List.append_nil]
      obtain ⟨rfl, rfl⟩ := he
      obtain ⟨now, q, h1, h2, rfl, h3, h4⟩ := ih
      exact ⟨now, q, h1, h2, rfl, h3, h4, rfl⟩
    | ldRes t d w => simp [snowBody] at he

theorem snow_does : Does snowBody Snowflake.nextVal := by
  rintro m cs r m' rest ⟨cs1, l, m1, c, hp, he, rfl⟩
  have h := snow_path hp
  cases l with
  | stTime now =>
    simp only [reading, snowBody, Bool.false_eq_true, if_false, List.append_nil]
    simp only [snowBody] at he
    obtain ⟨q, rfl, h⟩ := h
    split at he
    · rename_i hgt
      simp only [Prod.mk.injEq, Sum.inr.injEq] at he
      obtain ⟨rfl, rfl⟩ := he
      rw [h rest]
      simp only [Snowflake.finish, if_pos hgt]
    · simp at he
  | ldRes t d w =>
    simp only [reading, snowBody, Bool.false_eq_true, if_false, List.append_nil]
    simp only [snowBody, Prod.mk.injEq, Sum.inr.injEq] at he
    obtain ⟨rfl, rfl⟩ := he
    obtain ⟨now, q, rfl, h2, rfl, h3, rfl, rfl⟩ := h
    rw [h3 rest]
    simp only [Snowflake.finish, if_neg h2]
  | _ => simp [snowBody] at he

/-! ### Snowflake32 -/

def snow32At (m0 : Snowflake32) (cs : List Int) (m : Snowflake32) : Snow32L → Prop
  | .now => cs = [] ∧ m = m0
  | .cmp now => cs = [now] ∧ m = m0
  | .ldSeq now => cs = [now] ∧ m = m0 ∧ m0.seconds = now
  | .stSeq now q => cs = [now] ∧ m = m0 ∧ m0.seconds = now ∧ q = m0.sequence
  | .chk now => cs = [now] ∧ m = { m0 with sequence := (m0.sequence + 1) &&& 0x1ff#32 } ∧ m0.seconds = now
  | .loop now => (m0.sequence + 1) &&& 0x1ff#32 = 0 ∧ m = { m0 with sequence := 0 } ∧ Waited m0.seconds now cs
  | .again => (m0.sequence + 1) &&& 0x1ff#32 = 0 ∧ m = { m0 with sequence := 0 } ∧
      ∃ ws, cs = m0.seconds :: ws ∧ ∀ x ∈ ws, x ≤ m0.seconds
  | .zero now => cs = [now] ∧ m = m0 ∧ m0.seconds ≠ now
  | .stTime now => ∃ q, m = { m0 with sequence := q } ∧ ∀ rest, m0.nextVal (cs ++ rest) = some (m0.finish now q, rest)
  | .ldTime => ∃ now q, m = { m0 with seconds := now, sequence := q } ∧
      ∀ rest, m0.nextVal (cs ++ rest) = some (m0.finish now q, rest)
  | .ldDc t => ∃ q, m = { m0 with seconds := t, sequence := q } ∧
      ∀ rest, m0.nextVal (cs ++ rest) = some (m0.finish t q, rest)
  | .ldWorker t d => ∃ q, m = { m0 with seconds := t, sequence := q } ∧
      (∀ rest, m0.nextVal (cs ++ rest) = some (m0.finish t q, rest)) ∧ d = m0.datacenter
  | .ldRes t d w => ∃ q, m = { m0 with seconds := t, sequence := q } ∧
      (∀ rest, m0.nextVal (cs ++ rest) = some (m0.finish t q, rest)) ∧ d = m0.datacenter ∧ w = m0.worker

theorem snow32_path {m0 m : Snowflake32} {cs : List Int} {l : Snow32L} (h : Path snow32Body m0 cs l m) : snow32At m0 cs m l := by
  induction h with
  | start => exact ⟨rfl, rfl⟩
  | @step cs l l' m m' c _ he ih =>
    cases l with
    | stTime now =>
      simp only [snow32Body, Prod.mk.injEq, Sum.inl.injEq] at he
      simp only [reading, snow32Body, Bool.false_eq_true, if_false, List.append_nil]
      obtain ⟨q, rfl, h⟩ := ih
      obtain ⟨rfl, rfl⟩ := he
      exact ⟨now, q, rfl, h⟩
    | now =>
      simp only [snow32Body, Prod.mk.injEq, Sum.inl.injEq] at he
      obtain ⟨rfl, rfl⟩ := he
      obtain ⟨rfl, rfl⟩ := ih
      exact ⟨rfl, rfl⟩
    | cmp now =>
      simp only [snow32Body, Prod.mk.injEq, Sum.inl.injEq] at he
      simp only [reading, snow32Body, Bool.false_eq_true, if_false, List.append_nil]
      obtain ⟨rfl, rfl⟩ := he
      obtain ⟨rfl, rfl⟩ := ih
      split
      · exact ⟨rfl, rfl, by assumption⟩
      · exact ⟨rfl, rfl, by assumption⟩
    | ldSeq now =>
      simp only [snow32Body, Prod.mk.injEq, Sum.inl.injEq] at he
      simp only [reading, snow32Body, Bool.false_eq_true, if_false, List.append_nil]
      obtain ⟨rfl, rfl⟩ := he
      obtain ⟨rfl, rfl, h⟩ := ih
      exact ⟨rfl, rfl, h, rfl⟩
    | stSeq now q =>
      simp only [snow32Body, Prod.mk.injEq, Sum.inl.injEq] at he
      simp only [reading, snow32Body, Bool.false_eq_true, if_false, List.append_nil]
      obtain ⟨rfl, rfl⟩ := he
      obtain ⟨rfl, rfl, h, rfl⟩ := ih
      exact ⟨rfl, rfl, h⟩
    | chk now =>
      simp only [snow32Body, Prod.mk.injEq, Sum.inl.injEq] at he
      simp only [reading, snow32Body, Bool.false_eq_true, if_false, List.append_nil]
      obtain ⟨rfl, rfl⟩ := he
      obtain ⟨rfl, rfl, rfl⟩ := ih
      split
      · rename_i h
        refine ⟨h, ?_, Or.inl ⟨rfl, rfl⟩⟩
        simp only at h ⊢
        rw [h]
      · rename_i h
        refine ⟨_, rfl, fun rest => ?_⟩
        simp only at h
        simp only [List.cons_append, List.nil_append, Snowflake32.nextVal, if_true, if_neg h]
    | loop now =>
      simp only [snow32Body, Prod.mk.injEq, Sum.inl.injEq] at he
      simp only [reading, snow32Body, Bool.false_eq_true, if_false, List.append_nil]
      obtain ⟨rfl, rfl⟩ := he
      obtain ⟨hz, rfl, hwt⟩ := ih
      simp only
      split
      · rename_i hle
        refine ⟨hz, rfl, ?_⟩
        rcases hwt with ⟨rfl, rfl⟩ | ⟨ws, rfl, hws⟩
        · exact ⟨[], rfl, by simp⟩
        · refine ⟨ws ++ [now], rfl, ?_⟩
          intro x hx
          simp only [List.mem_append, List.mem_cons, List.not_mem_nil, or_false] at hx
          rcases hx with hx | rfl
          · exact hws x hx
          · exact hle
      · rename_i hgt
        refine ⟨0, rfl, fun rest => ?_⟩
        rcases hwt with ⟨rfl, rfl⟩ | ⟨ws, rfl, hws⟩
        · exact absurd (Int.le_refl _) hgt
        · rw [List.cons_append, Snowflake32.nextVal]
          simp only [if_true, hz]
          rw [List.append_assoc, waitAfter_skip _ _ hws, List.singleton_append, waitAfter, if_neg hgt]
          rfl
    | again =>
      simp only [snow32Body, Prod.mk.injEq, Sum.inl.injEq] at he
      simp only [reading, snow32Body, if_true]
      obtain ⟨rfl, rfl⟩ := he
      obtain ⟨hz, rfl, ws, rfl, hws⟩ := ih
      exact ⟨hz, rfl, Or.inr ⟨ws, rfl, hws⟩⟩
    | zero now =>
      simp only [snow32Body, Prod.mk.injEq, Sum.inl.injEq] at he
      simp only [reading, snow32Body, Bool.false_eq_true, if_false, List.append_nil]
      obtain ⟨rfl, rfl⟩ := he
      obtain ⟨rfl, rfl, h⟩ := ih
      refine ⟨0, rfl, fun rest => ?_⟩
      simp only [List.cons_append, List.nil_append, Snowflake32.nextVal, if_neg h]
    | ldTime =>
      simp only [snow32Body, Prod.mk.injEq, Sum.inl.injEq] at he
      simp only [reading, snow32Body, Bool.false_eq_true, if_false, List.append_nil]
      obtain ⟨rfl, rfl⟩ := he
      obtain ⟨now, q, rfl, h3⟩ := ih
      exact ⟨q, rfl, h3⟩
    | ldDc t =>
      simp only [snow32Body, Prod.mk.injEq, Sum.inl.injEq] at he
      simp only [reading, snow32Body, Bool.false_eq_true, if_false, List.append_nil]
      obtain ⟨rfl, rfl⟩ := he
      obtain ⟨q, rfl, h3⟩ := ih
      exact ⟨q, rfl, h3, rfl⟩
    | ldWorker t d =>
      simp only [snow32Body, Prod.mk.injEq, Sum.inl.injEq] at he
      simp only [reading, snow32Body, Bool.false_eq_true, if_false, List.append_nil]
      obtain ⟨rfl, rfl⟩ := he
      obtain ⟨q, rfl, h3, h4⟩ := ih
      exact ⟨q, rfl, h3, h4, rfl⟩
    | ldRes t d w => simp [snow32Body] at he

theorem snow32_does : Does snow32Body Snowflake32.nextVal := by
  rintro m cs r m' rest ⟨cs1, l, m1, c, hp, he, rfl⟩
  have h := snow32_path hp
  cases l with
  | ldRes t d w =>
    simp only [reading, snow32Body, Bool.false_eq_true, if_false, List.append_nil]
    simp only [snow32Body, Prod.mk.injEq, Sum.inr.injEq] at he
    obtain ⟨rfl, rfl⟩ := he
    obtain ⟨q, rfl, h3, rfl, rfl⟩ := h
    rw [h3 rest]
    rfl
  | _ => simp [snow32Body] at he

end Gosms.IdLock
