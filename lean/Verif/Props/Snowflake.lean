import Verif.Model.Sequences

namespace Gosms

/-! ## C07, C08: Snowflake -/

theorem nat_comp (t a b : Nat) (h : t < 2 ^ a) (b' : Nat) (hb : a + b ≤ b') :
    t % 2 ^ b' * 2 ^ b % 2 ^ b' = t <<< b := by
  have h1 : t < 2 ^ b' := Nat.lt_of_lt_of_le h (Nat.pow_le_pow_right (by decide) (by omega))
  have h2 : t * 2 ^ b < 2 ^ b' := by
    apply Nat.lt_of_lt_of_le (Nat.mul_lt_mul_of_pos_right h (Nat.two_pow_pos b))
    rw [← Nat.pow_add]
    exact Nat.pow_le_pow_right (by decide) hb
  rw [Nat.mod_eq_of_lt h1, Nat.mod_eq_of_lt h2, Nat.shiftLeft_eq]

/-- The id of millisecond `t`, data center `d`, worker `w`, counter `q` in range is the number with
these four digits in mixed radix. -/
theorem sf_compose (t d w q : Nat) (ht : t < 2 ^ 41) (hd : d < 8) (hw : w < 128) (hq : q < 4096) :
    (((BitVec.ofInt 64 (t : Int)) <<< 22) ||| (BitVec.ofNat 64 d <<< 19) |||
      (BitVec.ofNat 64 w <<< 12) ||| BitVec.ofNat 64 q).toNat =
      t * 2 ^ 22 + d * 2 ^ 19 + w * 2 ^ 12 + q := by
  have e0 : BitVec.ofInt 64 (t : Int) = BitVec.ofNat 64 t := BitVec.ofInt_natCast 64 t
  rw [e0, BitVec.toNat_or, BitVec.toNat_or, BitVec.toNat_or, BitVec.toNat_shiftLeft,
    BitVec.toNat_shiftLeft, BitVec.toNat_shiftLeft, BitVec.toNat_ofNat, BitVec.toNat_ofNat,
    BitVec.toNat_ofNat, BitVec.toNat_ofNat]
  simp only [Nat.shiftLeft_eq]
  have h1 : t % 2 ^ 64 * 2 ^ 22 % 2 ^ 64 = t <<< 22 := nat_comp t 41 22 ht 64 (by decide)
  have h2 : d % 2 ^ 64 * 2 ^ 19 % 2 ^ 64 = d <<< 19 := nat_comp d 3 19 hd 64 (by decide)
  have h3 : w % 2 ^ 64 * 2 ^ 12 % 2 ^ 64 = w <<< 12 := nat_comp w 7 12 hw 64 (by decide)
  have h4 : q % 2 ^ 64 = q := by omega
  rw [h1, h2, h3, h4, Nat.or_assoc, Nat.or_assoc,
    ← Nat.shiftLeft_add_eq_or_of_lt (show q < 2 ^ 12 by omega) w,
    ← Nat.shiftLeft_add_eq_or_of_lt (show w <<< 12 + q < 2 ^ 19 by rw [Nat.shiftLeft_eq]; omega) d,
    ← Nat.shiftLeft_add_eq_or_of_lt
      (show d <<< 19 + (w <<< 12 + q) < 2 ^ 22 by rw [Nat.shiftLeft_eq, Nat.shiftLeft_eq]; omega) t]
  simp only [Nat.shiftLeft_eq]
  omega

theorem mask12 (x : BitVec 64) : (x &&& 0xfff#64).toNat = x.toNat % 4096 := by
  rw [BitVec.toNat_and]
  exact Nat.and_two_pow_sub_one_eq_mod x.toNat 12

/-- A clock reading inside the representable 41-bit range. -/
def SfInRange (t : Int) : Prop := sfEpoch ≤ t ∧ t - sfEpoch ≤ sfTimestampMax

theorem waitAfter_spec {ts : Int} {clock : List Int} {now : Int} {rest : List Int}
    (h : waitAfter ts clock = some (now, rest)) :
    ts < now ∧ ∃ pre, clock = pre ++ now :: rest ∧ ∀ x ∈ pre, x ≤ ts := by
  induction clock with
  | nil => cases h
  | cons c cs ih =>
    rw [waitAfter] at h
    split at h
    · obtain ⟨h1, pre, h2, h3⟩ := ih h
      refine ⟨h1, c :: pre, by rw [h2]; rfl, ?_⟩
      intro x hx
      simp only [List.mem_cons] at hx
      rcases hx with rfl | hx
      · assumption
      · exact h3 x hx
    · simp only [Option.some.injEq, Prod.mk.injEq] at h
      exact ⟨by omega, [], by rw [h.1, h.2]; rfl, by simp⟩

/-- Numeric value of the generator's last (time, counter) pair. -/
def sfKey (s : Snowflake) : Int := (s.timestamp - sfEpoch) * 4096 + s.sequence.toNat

theorem finish_eq (s : Snowflake) (now : Int) (q : BitVec 64) (hd : s.datacenterId.toNat < 8)
    (hw : s.workerId.toNat < 128) (hr : SfInRange now) (hq : q.toNat < 4096) :
    (s.finish now q).1.toNat =
      (now - sfEpoch).toNat * 2 ^ 22 + s.datacenterId.toNat * 2 ^ 19 + s.workerId.toNat * 2 ^ 12
        + q.toNat ∧
    (s.finish now q).2 = { s with timestamp := now, sequence := q } := by
  obtain ⟨r1, r2⟩ := hr
  have hle : ¬ now - sfEpoch > sfTimestampMax := by omega
  simp only [Snowflake.finish, hle, if_false, and_true]
  have ht : now - sfEpoch = (((now - sfEpoch).toNat : Nat) : Int) := by omega
  have e1 : BitVec.ofNat 64 s.datacenterId.toNat = s.datacenterId := BitVec.ofNat_toNat ..
  have e2 : BitVec.ofNat 64 s.workerId.toNat = s.workerId := BitVec.ofNat_toNat ..
  have e3 : BitVec.ofNat 64 q.toNat = q := BitVec.ofNat_toNat ..
  have := sf_compose (now - sfEpoch).toNat s.datacenterId.toNat s.workerId.toNat q.toNat
    (by unfold sfTimestampMax at r2; omega) hd hw hq
  rw [e1, e2, e3, ← ht] at this
  exact this

/-- One call under a non-decreasing clock: the id encodes a strictly larger (time, counter) pair. -/
theorem sf_step {s s' : Snowflake} {id : BitVec 64} {clock clock' : List Int}
    (h : s.nextVal clock = some ((id, s'), clock')) (hd : s.datacenterId.toNat < 8)
    (hw : s.workerId.toNat < 128) (hq : s.sequence.toNat < 4096)
    (hmono : clock.Pairwise (· ≤ ·)) (hge : ∀ c ∈ clock, s.timestamp ≤ c)
    (hr : ∀ c ∈ clock, SfInRange c) :
    s'.datacenterId = s.datacenterId ∧ s'.workerId = s.workerId ∧ s'.sequence.toNat < 4096 ∧
    clock'.Pairwise (· ≤ ·) ∧ (∀ c ∈ clock', s'.timestamp ≤ c) ∧ (∀ c ∈ clock', SfInRange c) ∧
    sfKey s < sfKey s' ∧ SfInRange s'.timestamp ∧
    (id.toNat : Int) = (s'.timestamp - sfEpoch) * 2 ^ 22 + s.datacenterId.toNat * 2 ^ 19
      + s.workerId.toNat * 2 ^ 12 + s'.sequence.toNat := by
  cases clock with
  | nil => cases h
  | cons now rest =>
    have hnow := hr now (by simp)
    have hnowge := hge now (by simp)
    rw [List.pairwise_cons] at hmono
    rw [Snowflake.nextVal] at h
    split at h
    · rename_i heq
      have hqn : ((s.sequence + 1) &&& 0xfff#64).toNat = (s.sequence.toNat + 1) % 4096 := by
        rw [mask12, BitVec.toNat_add]
        have : (1#64).toNat = 1 := rfl
        have : (1 : BitVec 64).toNat = 1 := rfl
        omega
      simp only at h
      split at h
      · rename_i hz
        have hz' : ((s.sequence + 1) &&& 0xfff#64).toNat = 0 := by rw [hz]; rfl
        cases hwait : waitAfter s.timestamp rest with
        | none => rw [hwait] at h; cases h
        | some p =>
          obtain ⟨now', rest'⟩ := p
          rw [hwait] at h
          simp only [Option.map_some, Option.some.injEq, Prod.mk.injEq] at h
          obtain ⟨hf, rfl⟩ := h
          obtain ⟨hlt, pre, hpre, _⟩ := waitAfter_spec hwait
          have hr' := hr now' (by simp [hpre])
          obtain ⟨f1, f2⟩ := finish_eq s now' _ hd hw hr' (by rw [hz']; decide)
          have hs' : s' = { s with timestamp := now', sequence := (s.sequence + 1) &&& 0xfff#64 } := by
            rw [← f2, hf]
          rw [hf] at f1
          simp only at f1
          have hsub := hmono.2
          rw [hpre, List.pairwise_append] at hsub
          obtain ⟨_, hsub2, _⟩ := hsub
          rw [List.pairwise_cons] at hsub2
          subst hs'
          refine ⟨rfl, rfl, ?_, hsub2.2, hsub2.1, ?_, ?_, hr', ?_⟩
          · simp only; rw [hz']; decide
          · intro c hc; exact hr c (by simp [hpre, hc])
          · simp only [sfKey, hz']; omega
          · simp only
            rw [f1]
            have := hr'.1
            omega
      · rename_i hz
        simp only [Option.some.injEq, Prod.mk.injEq] at h
        obtain ⟨hf, rfl⟩ := h
        have hz' : ((s.sequence + 1) &&& 0xfff#64).toNat ≠ 0 := by
          intro hc; apply hz; apply BitVec.eq_of_toNat_eq; rw [hc]; rfl
        obtain ⟨f1, f2⟩ := finish_eq s now _ hd hw hnow (by rw [hqn]; omega)
        have hs' : s' = { s with timestamp := now, sequence := (s.sequence + 1) &&& 0xfff#64 } := by
          rw [← f2, hf]
        rw [hf] at f1
        simp only at f1
        subst hs'
        refine ⟨rfl, rfl, ?_, hmono.2, hmono.1, fun c hc => hr c (by simp [hc]), ?_, hnow, ?_⟩
        · simp only; rw [hqn]; omega
        · simp only [sfKey]; rw [hqn] at hz' ⊢; omega
        · simp only
          rw [f1]
          have := hnow.1
          omega
    · rename_i hne
      simp only [Option.some.injEq, Prod.mk.injEq] at h
      obtain ⟨hf, rfl⟩ := h
      obtain ⟨f1, f2⟩ := finish_eq s now 0 hd hw hnow (by decide)
      have hs' : s' = { s with timestamp := now, sequence := 0 } := by rw [← f2, hf]
      rw [hf] at f1
      simp only at f1
      have z : (0 : BitVec 64).toNat = 0 := rfl
      subst hs'
      refine ⟨rfl, rfl, by simp only [z]; decide, hmono.2, hmono.1, fun c hc => hr c (by simp [hc]),
        ?_, hnow, ?_⟩
      · simp only [sfKey, z]; omega
      · simp only [z]
        rw [f1, z]
        have := hnow.1
        omega

/-- Ids of a run, as numbers, are above the bound given by the starting state and increasing. -/
theorem sf_run_increasing (n : Nat) : ∀ (s : Snowflake) (clock : List Int) (ids : List (BitVec 64)),
    s.run clock n = some ids → s.datacenterId.toNat < 8 → s.workerId.toNat < 128 →
    s.sequence.toNat < 4096 → clock.Pairwise (· ≤ ·) → (∀ c ∈ clock, s.timestamp ≤ c) →
    (∀ c ∈ clock, SfInRange c) →
    ids.length = n ∧ ids.Pairwise (fun a b => a.toNat < b.toNat) ∧
    ∀ id ∈ ids, (s.timestamp - sfEpoch) * 2 ^ 22 + s.datacenterId.toNat * 2 ^ 19
      + s.workerId.toNat * 2 ^ 12 + s.sequence.toNat < (id.toNat : Int) := by
  induction n with
  | zero =>
    intro s clock ids h _ _ _ _ _ _
    simp only [Snowflake.run, Option.some.injEq] at h
    subst h; simp
  | succ n ih =>
    intro s clock ids h hd hw hq hmono hge hr
    rw [Snowflake.run] at h
    cases hx : s.nextVal clock with
    | none => rw [hx] at h; cases h
    | some p =>
      obtain ⟨⟨id, s'⟩, clock'⟩ := p
      rw [hx] at h
      simp only [Option.bind_some] at h
      cases hrun : s'.run clock' n with
      | none => rw [hrun] at h; cases h
      | some ids' =>
        rw [hrun] at h
        simp only [Option.map_some, Option.some.injEq] at h
        subst h
        obtain ⟨e1, e2, hq', hm', hge', hr', hkey, hts, hid⟩ := sf_step hx hd hw hq hmono hge hr
        obtain ⟨l1, l2, l3⟩ := ih s' clock' ids' hrun (by rw [e1]; exact hd) (by rw [e2]; exact hw)
          hq' hm' hge' hr'
        rw [e1, e2] at l3
        have hlt : (s.timestamp - sfEpoch) * 2 ^ 22 + s.datacenterId.toNat * 2 ^ 19
            + s.workerId.toNat * 2 ^ 12 + s.sequence.toNat < (id.toNat : Int) := by
          rw [hid]
          simp only [sfKey] at hkey
          omega
        refine ⟨by simp [l1], ?_, ?_⟩
        · rw [List.pairwise_cons]
          refine ⟨fun b hb => ?_, l2⟩
          have := l3 b hb
          omega
        · intro x hx
          simp only [List.mem_cons] at hx
          rcases hx with rfl | hx
          · exact hlt
          · have := l3 x hx; omega

/-- **C07.** In every history of calls with a non-decreasing clock inside the 41-bit range, the ids
strictly increase (as numbers), so they are all different. -/
theorem snowflake_ids_increasing (d w : BitVec 64) (hd : d.toNat < 8) (hw : w.toNat < 128)
    (clock : List Int) (hmono : clock.Pairwise (· ≤ ·)) (hr : ∀ c ∈ clock, SfInRange c)
    (n : Nat) (ids : List (BitVec 64)) (hrun : (newSnowflake d w).run clock n = some ids) :
    ids.length = n ∧ ids.Pairwise (fun a b => a.toNat < b.toNat) ∧ ids.Nodup ∧
      ∀ id ∈ ids, 0 ≤ id.toInt := by
  have hge : ∀ c ∈ clock, (newSnowflake d w).timestamp ≤ c := by
    intro c hc
    have := (hr c hc).1
    simp only [newSnowflake, sfEpoch] at *
    omega
  obtain ⟨h1, h2, _⟩ := sf_run_increasing n _ clock ids hrun hd hw (by exact (by decide : (0 : BitVec 64).toNat < 4096)) hmono hge hr
  refine ⟨h1, h2, ?_, ?_⟩
  · rw [List.nodup_iff_pairwise_ne]
    exact h2.imp fun hab heq => by rw [heq] at hab; omega
  · -- every id is below 2^63
    have hb : ∀ (n : Nat) (s : Snowflake) (clock : List Int) (ids : List (BitVec 64)),
        s.run clock n = some ids → s.datacenterId.toNat < 8 → s.workerId.toNat < 128 →
        s.sequence.toNat < 4096 → clock.Pairwise (· ≤ ·) → (∀ c ∈ clock, s.timestamp ≤ c) →
        (∀ c ∈ clock, SfInRange c) → ∀ id ∈ ids, id.toNat < 2 ^ 63 := by
      intro n
      induction n with
      | zero =>
        intro s clock ids h _ _ _ _ _ _
        simp only [Snowflake.run, Option.some.injEq] at h
        subst h; simp
      | succ n ih =>
        intro s clock ids h hd hw hq hmono hge hr
        rw [Snowflake.run] at h
        cases hx : s.nextVal clock with
        | none => rw [hx] at h; cases h
        | some p =>
          obtain ⟨⟨id, s'⟩, clock'⟩ := p
          rw [hx] at h
          simp only [Option.bind_some] at h
          cases hrun : s'.run clock' n with
          | none => rw [hrun] at h; cases h
          | some ids' =>
            rw [hrun] at h
            simp only [Option.map_some, Option.some.injEq] at h
            subst h
            obtain ⟨e1, e2, hq', hm', hge', hr', _, hts, hid⟩ := sf_step hx hd hw hq hmono hge hr
            intro x hx
            simp only [List.mem_cons] at hx
            rcases hx with rfl | hx
            · have := hts.2; have := hts.1
              unfold sfTimestampMax at *
              omega
            · exact ih s' clock' ids' hrun (by rw [e1]; exact hd) (by rw [e2]; exact hw) hq' hm' hge'
                hr' x hx
    intro id hid
    have := hb n _ clock ids hrun hd hw (by exact (by decide : (0 : BitVec 64).toNat < 4096)) hmono hge hr id hid
    rw [BitVec.toInt_eq_toNat_of_lt (by omega)]
    omega

/-- The hypotheses are met, also when a millisecond is exhausted: a clock standing still and then
moving on. -/
example : (newSnowflake 1 2).run [1577808000005, 1577808000005, 1577808000009] 3 =
    some [0x1482000#64, 0x1482001#64, 0x2482000#64] := by decide
example : SfInRange 1577808000005 := by constructor <;> decide

/-- Without the clock hypothesis uniqueness fails: whenever a clock steps to another millisecond and back again, at any node and after any history,
the first id of the millisecond is handed out again. -/
theorem snowflake_clock_backwards_fails (s : Snowflake) (t1 t2 : Int) (h1 : SfInRange t1) (h2 : SfInRange t2) (hne : t1 ≠ t2) (h0 : s.timestamp ≠ t1) :
    ∃ a b, s.run [t1, t2, t1] 3 = some [a, b, a] := by
  have hf : ∀ (s : Snowflake) t, SfInRange t → s.finish t 0 =
      (((BitVec.ofInt 64 (t - sfEpoch)) <<< 22) ||| (s.datacenterId <<< 19) ||| (s.workerId <<< 12) ||| 0, { s with timestamp := t, sequence := 0 }) := by
    intro s t h
    unfold Snowflake.finish
    simp only
    rw [if_neg (by have := h.2; unfold sfTimestampMax sfEpoch at *; omega)]
  refine ⟨(s.finish t1 0).1, (s.finish t2 0).1, ?_⟩
  rw [hf s t1 h1, hf s t2 h2]
  simp only [Snowflake.run, Snowflake.nextVal, if_neg h0, hf s t1 h1, Option.bind_some, if_neg hne, hf _ t2 h2, if_neg (Ne.symm hne), hf _ t1 h1,
    Option.map_some]

example : SfInRange 1577808000005 ∧ SfInRange 1577808000004 ∧ (newSnowflake 1 2).timestamp ≠ 1577808000005 ∧
    (newSnowflake 1 2).run [1577808000005, 1577808000004, 1577808000005] 3 = some [0x1482000#64, 0x1082000#64, 0x1482000#64] := by
  unfold SfInRange; decide

/-- Without the range hypothesis uniqueness fails: past the 41-bit range (September 2089) every call returns 0. -/
theorem snowflake_range_fails (s : Snowflake) (clock : List Int) (hr : ∀ c ∈ clock, c - sfEpoch > 2 ^ 41 - 1) (n : Nat)
    (ids : List (BitVec 64)) (hrun : s.run clock n = some ids) : ids = List.replicate n 0 := by
  have hf : ∀ (s : Snowflake) now q, now - sfEpoch > 2 ^ 41 - 1 → (s.finish now q).1 = 0 := by
    intro s now q h
    unfold Snowflake.finish
    simp only
    rw [if_pos (by unfold sfTimestampMax; omega)]
  have hw : ∀ ts (l : List Int) r, waitAfter ts l = some r → r.1 ∈ l ∧ ∀ c ∈ r.2, c ∈ l := by
    intro ts l
    induction l with
    | nil => intro r h; cases h
    | cons x l ih =>
      intro r h
      rw [waitAfter] at h
      split at h
      · obtain ⟨h1, h2⟩ := ih r h
        exact ⟨List.mem_cons_of_mem _ h1, fun c hc => List.mem_cons_of_mem _ (h2 c hc)⟩
      · simp only [Option.some.injEq] at h
        subst h
        exact ⟨List.mem_cons_self, fun c hc => List.mem_cons_of_mem _ hc⟩
  have hn : ∀ (s : Snowflake) clock r, (∀ c ∈ clock, c - sfEpoch > 2 ^ 41 - 1) → s.nextVal clock = some r →
      r.1.1 = 0 ∧ ∀ c ∈ r.2, c ∈ clock := by
    intro s clock r hr h
    cases clock with
    | nil => cases h
    | cons x l =>
      rw [Snowflake.nextVal] at h
      split at h
      · simp only at h
        split at h
        · simp only [Option.map_eq_some_iff] at h
          obtain ⟨q, hq, rfl⟩ := h
          obtain ⟨h1, h2⟩ := hw _ _ _ hq
          exact ⟨hf _ _ _ (hr _ (List.mem_cons_of_mem _ h1)), fun c hc => List.mem_cons_of_mem _ (h2 c hc)⟩
        · simp only [Option.some.injEq] at h
          subst h
          exact ⟨hf _ _ _ (hr _ List.mem_cons_self), fun c hc => List.mem_cons_of_mem _ hc⟩
      · simp only [Option.some.injEq] at h
        subst h
        exact ⟨hf _ _ _ (hr _ List.mem_cons_self), fun c hc => List.mem_cons_of_mem _ hc⟩
  induction n generalizing s clock ids with
  | zero => simp only [Snowflake.run, Option.some.injEq] at hrun; subst hrun; rfl
  | succ n ih =>
    rw [Snowflake.run] at hrun
    cases hx : s.nextVal clock with
    | none => rw [hx] at hrun; cases hrun
    | some p =>
      obtain ⟨h1, h2⟩ := hn s clock p hr hx
      rw [hx] at hrun
      simp only [Option.bind_some, Option.map_eq_some_iff] at hrun
      obtain ⟨ids', h3, rfl⟩ := hrun
      rw [ih _ _ (fun c hc => hr c (h2 c hc)) ids' h3, h1]
      rfl

example : (newSnowflake 1 2).run [3776831255552, 3776831255553] 2 = some [0, 0] := by decide

/-- Every call returns as soon as the clock shows a value above the last one: `NextVal` needs at most
the readings up to the first one later than the generator's time stamp. -/
theorem snowflake_progress (s : Snowflake) (pre : List Int) (c : Int) (post : List Int)
    (hc : s.timestamp < c) : ∃ r, s.nextVal (pre ++ c :: post) = some r := by
  have hw : ∀ (l : List Int), ∃ r, waitAfter s.timestamp (l ++ c :: post) = some r := by
    intro l
    induction l with
    | nil => exact ⟨(c, post), by rw [List.nil_append, waitAfter, if_neg (by omega)]⟩
    | cons x l ih =>
      rw [List.cons_append, waitAfter]
      split
      · exact ih
      · exact ⟨_, rfl⟩
  cases pre with
  | nil =>
    rw [List.nil_append, Snowflake.nextVal, if_neg (by omega)]
    exact ⟨_, rfl⟩
  | cons x pre =>
    rw [List.cons_append, Snowflake.nextVal]
    split
    · simp only
      split
      · obtain ⟨r, hr⟩ := hw pre
        rw [hr]; exact ⟨_, rfl⟩
      · exact ⟨_, rfl⟩
    · exact ⟨_, rfl⟩

/-- **C08.** `Parse` recovers the four components of an id built from in-range components. -/
theorem snowflake_parse (t d w q : Nat) (ht : t < 2 ^ 41) (hd : d < 8) (hw : w < 128)
    (hq : q < 4096) :
    let s : Snowflake := ⟨0, BitVec.ofNat 64 w, BitVec.ofNat 64 d, 0⟩
    snowflakeParse (s.finish (t + sfEpoch) (BitVec.ofNat 64 q)).1 =
      { timestamp := t + sfEpoch, workerId := BitVec.ofNat 64 w, datacenterId := BitVec.ofNat 64 d,
        sequence := BitVec.ofNat 64 q } := by
  intro s
  have hdn : s.datacenterId.toNat = d := by simp only [s, BitVec.toNat_ofNat]; omega
  have hwn : s.workerId.toNat = w := by simp only [s, BitVec.toNat_ofNat]; omega
  have hqn : (BitVec.ofNat 64 q).toNat = q := by rw [BitVec.toNat_ofNat]; omega
  obtain ⟨f1, _⟩ := finish_eq s (t + sfEpoch) (BitVec.ofNat 64 q) (by omega) (by omega)
    ⟨by omega, by unfold sfTimestampMax; omega⟩ (by omega)
  generalize (s.finish (t + sfEpoch) (BitVec.ofNat 64 q)).1 = id at f1
  rw [hdn, hwn, hqn] at f1
  have ht' : ((t : Int) + sfEpoch - sfEpoch).toNat = t := by omega
  rw [ht'] at f1
  have hmsb : id.msb = false := by
    rw [BitVec.msb_eq_false_iff_two_mul_lt]; omega
  have hshift : ∀ k, (id.sshiftRight k).toNat = id.toNat / 2 ^ k := by
    intro k
    rw [BitVec.sshiftRight_eq_of_msb_false hmsb, BitVec.toNat_ushiftRight, Nat.shiftRight_eq_div_pow]
  have hint : (id.sshiftRight 22).toInt = (t : Int) := by
    rw [BitVec.toInt_eq_toNat_of_lt (by rw [hshift]; omega), hshift]
    omega
  have c1 : (id.sshiftRight 19) &&& 0x07#64 = BitVec.ofNat 64 d := by
    apply BitVec.eq_of_toNat_eq
    have : (0x07#64).toNat = 2 ^ 3 - 1 := rfl
    rw [BitVec.toNat_and, hshift, this, Nat.and_two_pow_sub_one_eq_mod, BitVec.toNat_ofNat]
    omega
  have c2 : (id.sshiftRight 12) &&& 0x7f#64 = BitVec.ofNat 64 w := by
    apply BitVec.eq_of_toNat_eq
    have : (0x7f#64).toNat = 2 ^ 7 - 1 := rfl
    rw [BitVec.toNat_and, hshift, this, Nat.and_two_pow_sub_one_eq_mod, BitVec.toNat_ofNat]
    omega
  have c3 : id &&& 0x0fff#64 = BitVec.ofNat 64 q := by
    apply BitVec.eq_of_toNat_eq
    have : (0x0fff#64).toNat = 2 ^ 12 - 1 := rfl
    rw [BitVec.toNat_and, this, Nat.and_two_pow_sub_one_eq_mod, BitVec.toNat_ofNat]
    omega
  simp only [snowflakeParse, hint, c1, c2, c3]

example : (snowflakeParse 0x2482003#64) =
    { timestamp := 1577808000009, workerId := 2, datacenterId := 1, sequence := 3 } := by decide

theorem finish_parse (s : Snowflake) (now : Int) (q : BitVec 64) (hd : s.datacenterId.toNat < 8) (hw : s.workerId.toNat < 128)
    (hr : SfInRange now) (hq : q.toNat < 4096) : snowflakeParse (s.finish now q).1 = { s with timestamp := now, sequence := q } := by
  have h := snowflake_parse (now - sfEpoch).toNat s.datacenterId.toNat s.workerId.toNat q.toNat
    (by have := hr.2; unfold sfTimestampMax at this; omega) hd hw hq
  have e : ((now - sfEpoch).toNat : Int) + sfEpoch = now := by have := hr.1; omega
  simp only [e, BitVec.ofNat_toNat, BitVec.setWidth_eq] at h
  rw [← h]
  simp only [Snowflake.finish]
  split <;> rfl

/-- **C08.** Whatever the generator's state and the clock, `Parse` of the id a call returns gives the generator's data center and
worker, a time the clock showed during the call, and the number within that time: it is the generator's state after the call. -/
theorem snowflake_origin (s s' : Snowflake) (clock rest : List Int) (id : BitVec 64) (h : s.nextVal clock = some ((id, s'), rest))
    (hd : s.datacenterId.toNat < 8) (hw : s.workerId.toNat < 128) (hr : ∀ c ∈ clock, SfInRange c) :
    snowflakeParse id = s' ∧ s'.timestamp ∈ clock ∧ s'.datacenterId = s.datacenterId ∧ s'.workerId = s.workerId ∧
    ∃ used, clock = used ++ rest ∧ used ≠ [] := by
  have key : ∀ (now : Int) (q : BitVec 64), now ∈ clock → q.toNat < 4096 → s.finish now q = (id, s') →
      snowflakeParse id = s' ∧ s'.timestamp ∈ clock ∧ s'.datacenterId = s.datacenterId ∧ s'.workerId = s.workerId := by
    intro now q hn hq e
    have f := finish_parse s now q hd hw (hr now hn) hq
    have f2 := (finish_eq s now q hd hw (hr now hn) hq).2
    rw [e] at f f2
    simp only at f f2
    rw [f, f2]
    exact ⟨rfl, hn, rfl, rfl⟩
  cases clock with
  | nil => cases h
  | cons now clock =>
    rw [Snowflake.nextVal] at h
    split at h
    · dsimp only at h
      split at h
      · cases hwt : waitAfter s.timestamp clock with
        | none => rw [hwt] at h; cases h
        | some p =>
          obtain ⟨now', rest'⟩ := p
          rw [hwt] at h
          simp only [Option.map_some, Option.some.injEq, Prod.mk.injEq] at h
          obtain ⟨hf, rfl⟩ := h
          obtain ⟨_, pre, hpre, _⟩ := waitAfter_spec hwt
          obtain ⟨a, b, c, d⟩ := key now' _ (by simp [hpre]) (by rw [mask12]; omega) hf
          exact ⟨a, b, c, d, now :: (pre ++ [now']), by simp [hpre], by simp⟩
      · simp only [Option.some.injEq, Prod.mk.injEq] at h
        obtain ⟨hf, rfl⟩ := h
        obtain ⟨a, b, c, d⟩ := key now _ (by simp) (by rw [mask12]; omega) hf
        exact ⟨a, b, c, d, [now], rfl, by simp⟩
    · simp only [Option.some.injEq, Prod.mk.injEq] at h
      obtain ⟨hf, rfl⟩ := h
      obtain ⟨a, b, c, d⟩ := key now _ (by simp) (by decide) hf
      exact ⟨a, b, c, d, [now], rfl, by simp⟩

/-- The ids of a history tell the node and the time. -/
theorem snowflake_run_origin (n : Nat) : ∀ (s : Snowflake) (clock : List Int) (ids : List (BitVec 64)), s.run clock n = some ids →
    s.datacenterId.toNat < 8 → s.workerId.toNat < 128 → (∀ c ∈ clock, SfInRange c) →
    ∀ id ∈ ids, (snowflakeParse id).datacenterId = s.datacenterId ∧ (snowflakeParse id).workerId = s.workerId ∧
      (snowflakeParse id).timestamp ∈ clock := by
  induction n with
  | zero =>
    intro s clock ids h _ _ _ id hid
    simp only [Snowflake.run, Option.some.injEq] at h
    subst h; cases hid
  | succ n ih =>
    intro s clock ids h hd hw hr id hid
    rw [Snowflake.run] at h
    cases hx : s.nextVal clock with
    | none => rw [hx] at h; cases h
    | some p =>
      obtain ⟨⟨id0, s'⟩, clock'⟩ := p
      rw [hx] at h
      simp only [Option.bind_some] at h
      cases hrun : s'.run clock' n with
      | none => rw [hrun] at h; cases h
      | some ids' =>
        rw [hrun] at h
        simp only [Option.map_some, Option.some.injEq] at h
        subst h
        obtain ⟨o1, o2, o3, o4, used, o5, _⟩ := snowflake_origin s s' clock clock' id0 hx hd hw hr
        rcases List.mem_cons.1 hid with rfl | hid
        · rw [o1]; exact ⟨o3, o4, o2⟩
        · obtain ⟨g1, g2, g3⟩ := ih s' clock' ids' hrun (by rw [o3]; exact hd) (by rw [o4]; exact hw) (fun c hc => hr c (by simp [o5, hc])) id hid
          exact ⟨g1.trans o3, g2.trans o4, by rw [o5]; simp [g3]⟩

/-- **C08.** Two generators with different node ids never return the same id, however often each is called, whatever their clocks show: they need
not run forward, nor alike. -/
theorem snowflake_nodes_disjoint (d1 w1 d2 w2 : BitVec 64) (hd1 : d1.toNat < 8) (hw1 : w1.toNat < 128) (hd2 : d2.toNat < 8) (hw2 : w2.toNat < 128)
    (hne : d1 ≠ d2 ∨ w1 ≠ w2) (clock1 clock2 : List Int) (hr1 : ∀ c ∈ clock1, SfInRange c) (hr2 : ∀ c ∈ clock2, SfInRange c)
    (n1 n2 : Nat) (ids1 ids2 : List (BitVec 64)) (h1 : (newSnowflake d1 w1).run clock1 n1 = some ids1)
    (h2 : (newSnowflake d2 w2).run clock2 n2 = some ids2) : ∀ id ∈ ids1, id ∉ ids2 := by
  intro id i1 i2
  obtain ⟨a1, a2, _⟩ := snowflake_run_origin n1 _ clock1 ids1 h1 hd1 hw1 hr1 id i1
  obtain ⟨b1, b2, _⟩ := snowflake_run_origin n2 _ clock2 ids2 h2 hd2 hw2 hr2 id i2
  rcases hne with h | h
  · exact h (a1.symm.trans b1)
  · exact h (a2.symm.trans b2)

/-- The same two readings, at two nodes: no id in common. -/
example : ((newSnowflake 1 2).run [1577808000009, 1577808000009] 2).map (·.map BitVec.toNat) = some [0x2482000, 0x2482001] ∧
    ((newSnowflake 1 3).run [1577808000009, 1577808000009] 2).map (·.map BitVec.toNat) = some [0x2483000, 0x2483001] ∧
    SfInRange 1577808000009 := by unfold SfInRange; decide

theorem sf_mod_a (k : Nat) (hk : k < 2199023255552) : k % 18446744073709551616 * 4194304 % 18446744073709551616 = k * 4194304 := by
  rw [Nat.mod_eq_of_lt (by omega : k < 18446744073709551616), Nat.mod_eq_of_lt (by omega)]

theorem sf_mod_b (d : Nat) (hd : d < 16) : d % 18446744073709551616 * 524288 % 18446744073709551616 = d * 524288 := by
  rw [Nat.mod_eq_of_lt (by omega : d < 18446744073709551616), Nat.mod_eq_of_lt (by omega)]

theorem sf_fields_overlap (d k : Nat) (hd : d < 8) (hk : 2 * k + 1 < 2199023255552) :
    (BitVec.ofInt 64 ((2 * k + 1 : Nat) : Int)) <<< 22 ||| BitVec.ofNat 64 d <<< 19 =
      (BitVec.ofInt 64 ((2 * k : Nat) : Int)) <<< 22 ||| BitVec.ofNat 64 (d + 8) <<< 19 := by
  apply BitVec.eq_of_toNat_eq
  rw [BitVec.ofInt_natCast, BitVec.ofInt_natCast]
  simp only [BitVec.toNat_or, BitVec.toNat_shiftLeft, BitVec.toNat_ofNat, Nat.shiftLeft_eq, Nat.reducePow]
  rw [sf_mod_a _ hk, sf_mod_a (2 * k) (by omega), sf_mod_b d (by omega), sf_mod_b (d + 8) (by omega)]
  have b1 := Nat.shiftLeft_add_eq_or_of_lt (i := 22) (b := d * 524288) (by simp only [Nat.reducePow]; omega) (2 * k + 1)
  have b2 := Nat.shiftLeft_add_eq_or_of_lt (i := 23) (b := (d + 8) * 524288) (by simp only [Nat.reducePow]; omega) k
  simp only [Nat.shiftLeft_eq, Nat.reducePow] at b1 b2
  rw [← b1, Nat.mul_comm 2 k, Nat.mul_assoc, ← b2]
  clear b1 b2
  rw [Nat.add_mul, Nat.add_mul, Nat.mul_assoc]
  simp only [Nat.reduceMul]
  rw [Nat.add_right_comm, Nat.add_assoc]

/-- A node number outside the range is not kept apart: at every even millisecond data center `d + 8` hands out, for every worker, the id that data
center `d` hands out a millisecond later. -/
theorem snowflake_node_range_fails (d w k : Nat) (hd : d < 8) (hk : 2 * k + 1 < 2199023255552) :
    ∃ id, (newSnowflake (BitVec.ofNat 64 (d + 8)) (BitVec.ofNat 64 w)).run [sfEpoch + 2 * k] 1 = some [id] ∧
      (newSnowflake (BitVec.ofNat 64 d) (BitVec.ofNat 64 w)).run [sfEpoch + 2 * k + 1] 1 = some [id] := by
  have e1 : (newSnowflake (BitVec.ofNat 64 (d + 8)) (BitVec.ofNat 64 w)).run [sfEpoch + 2 * k] 1 =
      some [((BitVec.ofInt 64 (2 * k : Nat)) <<< 22) ||| (BitVec.ofNat 64 (d + 8) <<< 19) ||| (BitVec.ofNat 64 w <<< 12) ||| 0] := by
    have h0 : (0 : Int) ≠ sfEpoch + 2 * k := by unfold sfEpoch; omega
    have h1 : ¬ sfEpoch + 2 * (k : Int) - sfEpoch > sfTimestampMax := by unfold sfTimestampMax sfEpoch; omega
    have h2 : sfEpoch + 2 * (k : Int) - sfEpoch = ((2 * k : Nat) : Int) := by unfold sfEpoch; omega
    rw [h2] at h1
    simp only [Snowflake.run, Snowflake.nextVal, newSnowflake, if_neg h0, Snowflake.finish, h2, if_neg h1, Option.bind_some, Option.map_some]
  have e2 : (newSnowflake (BitVec.ofNat 64 d) (BitVec.ofNat 64 w)).run [sfEpoch + 2 * k + 1] 1 =
      some [((BitVec.ofInt 64 (2 * k + 1 : Nat)) <<< 22) ||| (BitVec.ofNat 64 d <<< 19) ||| (BitVec.ofNat 64 w <<< 12) ||| 0] := by
    have h0 : (0 : Int) ≠ sfEpoch + 2 * k + 1 := by unfold sfEpoch; omega
    have h1 : ¬ sfEpoch + 2 * (k : Int) + 1 - sfEpoch > sfTimestampMax := by unfold sfTimestampMax sfEpoch; omega
    have h2 : sfEpoch + 2 * (k : Int) + 1 - sfEpoch = ((2 * k + 1 : Nat) : Int) := by unfold sfEpoch; omega
    rw [h2] at h1
    simp only [Snowflake.run, Snowflake.nextVal, newSnowflake, if_neg h0, Snowflake.finish, h2, if_neg h1, Option.bind_some, Option.map_some]
  refine ⟨_, e1, e2.trans ?_⟩
  have := sf_fields_overlap d k hd hk
  rw [this]

example : (newSnowflake 8 0).run [1577808000008] 1 = some [0x2400000#64] ∧ (newSnowflake 0 0).run [1577808000009] 1 = some [0x2400000#64] := by decide

end Gosms
