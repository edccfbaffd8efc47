import Verif.Model.Sequences
import Verif.Props.Snowflake

namespace Gosms

/-! ## C09, C10: Snowflake32 -/

/-- A reading of `passedSeconds`: seconds since midnight. -/
def SecOfDay (t : Int) : Prop := 0 ≤ t ∧ t ≤ 86399

theorem sf32_compose (t d w q : Nat) (ht : t < 2 ^ 17) (hd : d < 4) (hw : w < 8) (hq : q < 512) :
    (((BitVec.ofInt 32 (t : Int)) <<< 14) ||| (BitVec.ofNat 32 d <<< 12) |||
      (BitVec.ofNat 32 w <<< 9) ||| BitVec.ofNat 32 q).toNat =
      t * 2 ^ 14 + d * 2 ^ 12 + w * 2 ^ 9 + q := by
  have e0 : BitVec.ofInt 32 (t : Int) = BitVec.ofNat 32 t := BitVec.ofInt_natCast 32 t
  rw [e0, BitVec.toNat_or, BitVec.toNat_or, BitVec.toNat_or, BitVec.toNat_shiftLeft,
    BitVec.toNat_shiftLeft, BitVec.toNat_shiftLeft, BitVec.toNat_ofNat, BitVec.toNat_ofNat,
    BitVec.toNat_ofNat, BitVec.toNat_ofNat]
  simp only [Nat.shiftLeft_eq]
  have h1 : t % 2 ^ 32 * 2 ^ 14 % 2 ^ 32 = t <<< 14 := nat_comp t 17 14 ht 32 (by decide)
  have h2 : d % 2 ^ 32 * 2 ^ 12 % 2 ^ 32 = d <<< 12 := nat_comp d 2 12 hd 32 (by decide)
  have h3 : w % 2 ^ 32 * 2 ^ 9 % 2 ^ 32 = w <<< 9 := nat_comp w 3 9 hw 32 (by decide)
  have h4 : q % 2 ^ 32 = q := by omega
  rw [h1, h2, h3, h4, Nat.or_assoc, Nat.or_assoc,
    ← Nat.shiftLeft_add_eq_or_of_lt (show q < 2 ^ 9 by omega) w,
    ← Nat.shiftLeft_add_eq_or_of_lt (show w <<< 9 + q < 2 ^ 12 by rw [Nat.shiftLeft_eq]; omega) d,
    ← Nat.shiftLeft_add_eq_or_of_lt
      (show d <<< 12 + (w <<< 9 + q) < 2 ^ 14 by rw [Nat.shiftLeft_eq, Nat.shiftLeft_eq]; omega) t]
  simp only [Nat.shiftLeft_eq]
  omega

theorem mask9 (x : BitVec 32) : (x &&& 0x1ff#32).toNat = x.toNat % 512 := by
  rw [BitVec.toNat_and]
  exact Nat.and_two_pow_sub_one_eq_mod x.toNat 9

theorem finish32_eq (s : Snowflake32) (now : Int) (q : BitVec 32) (hd : s.datacenter.toNat < 4)
    (hw : s.worker.toNat < 8) (hr : SecOfDay now) (hq : q.toNat < 512) :
    (s.finish now q).1.toNat =
      now.toNat * 2 ^ 14 + s.datacenter.toNat * 2 ^ 12 + s.worker.toNat * 2 ^ 9 + q.toNat := by
  obtain ⟨r1, r2⟩ := hr
  have ht : now = ((now.toNat : Nat) : Int) := by omega
  have e1 : BitVec.ofNat 32 s.datacenter.toNat = s.datacenter := BitVec.ofNat_toNat ..
  have e2 : BitVec.ofNat 32 s.worker.toNat = s.worker := BitVec.ofNat_toNat ..
  have e3 : BitVec.ofNat 32 q.toNat = q := BitVec.ofNat_toNat ..
  have := sf32_compose now.toNat s.datacenter.toNat s.worker.toNat q.toNat (by omega) hd hw hq
  rw [e1, e2, e3, ← ht] at this
  exact this

theorem sf32_step {s s' : Snowflake32} {id : BitVec 32} {clock clock' : List Int}
    (h : s.nextVal clock = some ((id, s'), clock')) (hd : s.datacenter.toNat < 4)
    (hw : s.worker.toNat < 8) (hq : s.sequence.toNat < 512)
    (hmono : clock.Pairwise (· ≤ ·)) (hge : ∀ c ∈ clock, s.seconds ≤ c)
    (hr : ∀ c ∈ clock, SecOfDay c) :
    s'.datacenter = s.datacenter ∧ s'.worker = s.worker ∧ s'.sequence.toNat < 512 ∧
    clock'.Pairwise (· ≤ ·) ∧ (∀ c ∈ clock', s'.seconds ≤ c) ∧ (∀ c ∈ clock', SecOfDay c) ∧
    s.seconds * 512 + s.sequence.toNat < s'.seconds * 512 + s'.sequence.toNat ∧
    SecOfDay s'.seconds ∧
    (id.toNat : Int) = s'.seconds * 2 ^ 14 + s.datacenter.toNat * 2 ^ 12
      + s.worker.toNat * 2 ^ 9 + s'.sequence.toNat := by
  cases clock with
  | nil => cases h
  | cons now rest =>
    have hnow := hr now (by simp)
    have hnowge := hge now (by simp)
    rw [List.pairwise_cons] at hmono
    rw [Snowflake32.nextVal] at h
    split at h
    · rename_i heq
      have hqn : ((s.sequence + 1) &&& 0x1ff#32).toNat = (s.sequence.toNat + 1) % 512 := by
        rw [mask9, BitVec.toNat_add]
        have : (1 : BitVec 32).toNat = 1 := rfl
        omega
      simp only at h
      split at h
      · rename_i hz
        have hz' : ((s.sequence + 1) &&& 0x1ff#32).toNat = 0 := by rw [hz]; rfl
        cases hwait : waitAfter s.seconds rest with
        | none => rw [hwait] at h; cases h
        | some p =>
          obtain ⟨now', rest'⟩ := p
          rw [hwait] at h
          simp only [Option.map_some, Option.some.injEq, Prod.mk.injEq] at h
          obtain ⟨hf, rfl⟩ := h
          obtain ⟨hlt, pre, hpre, _⟩ := waitAfter_spec hwait
          have hr' := hr now' (by simp [hpre])
          have f1 := finish32_eq s now' _ hd hw hr' (by rw [hz']; decide)
          have hs' : s' = { s with seconds := now', sequence := (s.sequence + 1) &&& 0x1ff#32 } := by
            have := congrArg Prod.snd hf
            exact this.symm
          rw [hf] at f1
          simp only at f1
          have hsub := hmono.2
          rw [hpre, List.pairwise_append] at hsub
          obtain ⟨_, hsub2, _⟩ := hsub
          rw [List.pairwise_cons] at hsub2
          subst hs'
          refine ⟨rfl, rfl, ?_, hsub2.2, hsub2.1, ?_, ?_, hr', ?_⟩
          · simp only; rw [hz']; decide
          · intro c hc; exact hr c (by simp [hpre, hc])
          · simp only [hz']; omega
          · simp only
            rw [f1]
            have := hr'.1
            omega
      · rename_i hz
        simp only [Option.some.injEq, Prod.mk.injEq] at h
        obtain ⟨hf, rfl⟩ := h
        have hz' : ((s.sequence + 1) &&& 0x1ff#32).toNat ≠ 0 := by
          intro hc; apply hz; apply BitVec.eq_of_toNat_eq; rw [hc]; rfl
        have f1 := finish32_eq s now _ hd hw hnow (by rw [hqn]; omega)
        have hs' : s' = { s with seconds := now, sequence := (s.sequence + 1) &&& 0x1ff#32 } :=
          (congrArg Prod.snd hf).symm
        rw [hf] at f1
        simp only at f1
        subst hs'
        refine ⟨rfl, rfl, ?_, hmono.2, hmono.1, fun c hc => hr c (by simp [hc]), ?_, hnow, ?_⟩
        · simp only; rw [hqn]; omega
        · simp only; rw [hqn] at hz' ⊢; omega
        · simp only
          rw [f1]
          have := hnow.1
          omega
    · rename_i hne
      simp only [Option.some.injEq, Prod.mk.injEq] at h
      obtain ⟨hf, rfl⟩ := h
      have f1 := finish32_eq s now 0 hd hw hnow (by decide)
      have hs' : s' = { s with seconds := now, sequence := 0 } := (congrArg Prod.snd hf).symm
      rw [hf] at f1
      simp only at f1
      have z : (0 : BitVec 32).toNat = 0 := rfl
      subst hs'
      refine ⟨rfl, rfl, by simp only [z]; decide, hmono.2, hmono.1, fun c hc => hr c (by simp [hc]),
        ?_, hnow, ?_⟩
      · simp only [z]; omega
      · simp only [z]
        rw [f1, z]
        have := hnow.1
        omega

theorem sf32_run_increasing (n : Nat) : ∀ (s : Snowflake32) (clock : List Int)
    (ids : List (BitVec 32)) (sf : Snowflake32) (cf : List Int),
    s.run clock n = some (ids, sf, cf) → s.datacenter.toNat < 4 → s.worker.toNat < 8 →
    s.sequence.toNat < 512 → clock.Pairwise (· ≤ ·) → (∀ c ∈ clock, s.seconds ≤ c) →
    (∀ c ∈ clock, SecOfDay c) →
    ids.length = n ∧ ids.Pairwise (fun a b => a.toNat < b.toNat) ∧
    (∀ id ∈ ids, id.toNat < 2 ^ 31) ∧
    ∀ id ∈ ids, s.seconds * 2 ^ 14 + s.datacenter.toNat * 2 ^ 12
      + s.worker.toNat * 2 ^ 9 + s.sequence.toNat < (id.toNat : Int) := by
  induction n with
  | zero =>
    intro s clock ids sf cf h _ _ _ _ _ _
    simp only [Snowflake32.run, Option.some.injEq, Prod.mk.injEq] at h
    rw [← h.1]; simp
  | succ n ih =>
    intro s clock ids sf cf h hd hw hq hmono hge hr
    rw [Snowflake32.run] at h
    cases hx : s.nextVal clock with
    | none => rw [hx] at h; cases h
    | some p =>
      obtain ⟨⟨id, s'⟩, clock'⟩ := p
      rw [hx] at h
      simp only [Option.bind_some] at h
      cases hrun : s'.run clock' n with
      | none => rw [hrun] at h; cases h
      | some q =>
        obtain ⟨ids', sf', cf'⟩ := q
        rw [hrun] at h
        simp only [Option.map_some, Option.some.injEq, Prod.mk.injEq] at h
        obtain ⟨rfl, rfl, rfl⟩ := h
        obtain ⟨e1, e2, hq', hm', hge', hr', hkey, hts, hid⟩ := sf32_step hx hd hw hq hmono hge hr
        obtain ⟨l1, l2, l4, l3⟩ := ih s' clock' ids' sf' cf' hrun (by rw [e1]; exact hd)
          (by rw [e2]; exact hw) hq' hm' hge' hr'
        rw [e1, e2] at l3
        refine ⟨by simp [l1], ?_, ?_, ?_⟩
        · rw [List.pairwise_cons]
          refine ⟨fun b hb => ?_, l2⟩
          have := l3 b hb
          omega
        · intro x hx
          simp only [List.mem_cons] at hx
          rcases hx with rfl | hx
          · have := hts.1; have := hts.2; omega
          · exact l4 x hx
        · intro x hx
          simp only [List.mem_cons] at hx
          rcases hx with rfl | hx
          · omega
          · have := l3 x hx; omega

/-- **C09.** During one day (readings do not go backwards) the ids returned strictly increase, are
non-negative as `int32`, and hence are all different. -/
theorem snowflake32_ids_increasing (d w : BitVec 32) (hd : d.toNat < 4) (hw : w.toNat < 8)
    (clock : List Int) (hmono : clock.Pairwise (· ≤ ·)) (hr : ∀ c ∈ clock, SecOfDay c)
    (n : Nat) (ids : List (BitVec 32)) (sf : Snowflake32) (cf : List Int)
    (hrun : (newSnowflake32 d w).run clock n = some (ids, sf, cf)) :
    ids.length = n ∧ ids.Pairwise (fun a b => a.toNat < b.toNat) ∧ ids.Nodup ∧
      ∀ id ∈ ids, 0 ≤ id.toInt := by
  have hge : ∀ c ∈ clock, (newSnowflake32 d w).seconds ≤ c := fun c hc => (hr c hc).1
  obtain ⟨h1, h2, h3, _⟩ := sf32_run_increasing n _ clock ids sf cf hrun hd hw (by exact (by decide : (0 : BitVec 32).toNat < 512)) hmono hge hr
  refine ⟨h1, h2, ?_, fun id hid => ?_⟩
  · rw [List.nodup_iff_pairwise_ne]
    exact h2.imp fun hab heq => by rw [heq] at hab; omega
  · rw [BitVec.toInt_eq_toNat_of_lt (by have := h3 id hid; omega)]
    omega

/-- **C09.** `Parse` recovers the components. -/
theorem snowflake32_parse (t d w q : Nat) (ht : t ≤ 86399) (hd : d < 4) (hw : w < 8) (hq : q < 512) :
    let s : Snowflake32 := ⟨0, BitVec.ofNat 32 d, BitVec.ofNat 32 w, 0⟩
    snowflake32Parse (s.finish t (BitVec.ofNat 32 q)).1 =
      { seconds := t, datacenter := BitVec.ofNat 32 d, worker := BitVec.ofNat 32 w,
        sequence := BitVec.ofNat 32 q } := by
  intro s
  have hdn : s.datacenter.toNat = d := by simp only [s, BitVec.toNat_ofNat]; omega
  have hwn : s.worker.toNat = w := by simp only [s, BitVec.toNat_ofNat]; omega
  have hqn : (BitVec.ofNat 32 q).toNat = q := by rw [BitVec.toNat_ofNat]; omega
  have f1 := finish32_eq s t (BitVec.ofNat 32 q) (by omega) (by omega)
    ⟨by omega, by omega⟩ (by omega)
  generalize (s.finish t (BitVec.ofNat 32 q)).1 = id at f1
  rw [hdn, hwn, hqn] at f1
  have ht' : (t : Int).toNat = t := by omega
  rw [ht'] at f1
  have hmsb : id.msb = false := by
    rw [BitVec.msb_eq_false_iff_two_mul_lt]; omega
  have hshift : ∀ k, (id.sshiftRight k).toNat = id.toNat / 2 ^ k := by
    intro k
    rw [BitVec.sshiftRight_eq_of_msb_false hmsb, BitVec.toNat_ushiftRight, Nat.shiftRight_eq_div_pow]
  have hint : (id.sshiftRight 14).toInt = (t : Int) := by
    rw [BitVec.toInt_eq_toNat_of_lt (by rw [hshift]; omega), hshift]
    omega
  have c1 : (id.sshiftRight 12) &&& 0x03#32 = BitVec.ofNat 32 d := by
    apply BitVec.eq_of_toNat_eq
    have : (0x03#32).toNat = 2 ^ 2 - 1 := rfl
    rw [BitVec.toNat_and, hshift, this, Nat.and_two_pow_sub_one_eq_mod, BitVec.toNat_ofNat]
    omega
  have c2 : (id.sshiftRight 9) &&& 0x07#32 = BitVec.ofNat 32 w := by
    apply BitVec.eq_of_toNat_eq
    have : (0x07#32).toNat = 2 ^ 3 - 1 := rfl
    rw [BitVec.toNat_and, hshift, this, Nat.and_two_pow_sub_one_eq_mod, BitVec.toNat_ofNat]
    omega
  have c3 : id &&& 0x01ff#32 = BitVec.ofNat 32 q := by
    apply BitVec.eq_of_toNat_eq
    have : (0x01ff#32).toNat = 2 ^ 9 - 1 := rfl
    rw [BitVec.toNat_and, this, Nat.and_two_pow_sub_one_eq_mod, BitVec.toNat_ofNat]
    omega
  simp only [snowflake32Parse, hint, c1, c2, c3]

example : ((newSnowflake32 1 2).run [100, 100, 101] 3).map (·.1) =
    some [0x191400#32, 0x191401#32, 0x195400#32] := by decide

theorem finish32_parse (s : Snowflake32) (now : Int) (q : BitVec 32) (hd : s.datacenter.toNat < 4) (hw : s.worker.toNat < 8)
    (hr : SecOfDay now) (hq : q.toNat < 512) : snowflake32Parse (s.finish now q).1 = { s with seconds := now, sequence := q } := by
  have h := snowflake32_parse now.toNat s.datacenter.toNat s.worker.toNat q.toNat (by have := hr.2; omega) hd hw hq
  have e : (now.toNat : Int) = now := by have := hr.1; omega
  simp only [e, BitVec.ofNat_toNat, BitVec.setWidth_eq] at h
  rw [← h]
  rfl

/-- **C09.** Whatever the generator's state and the clock, `Parse` of the id a call returns is the generator's state after the call: its data
center and worker, a second the clock showed during the call, and the number within it. -/
theorem snowflake32_origin (s s' : Snowflake32) (clock rest : List Int) (id : BitVec 32) (h : s.nextVal clock = some ((id, s'), rest))
    (hd : s.datacenter.toNat < 4) (hw : s.worker.toNat < 8) (hr : ∀ c ∈ clock, SecOfDay c) :
    snowflake32Parse id = s' ∧ s'.seconds ∈ clock ∧ s'.datacenter = s.datacenter ∧ s'.worker = s.worker ∧
    ∃ used, clock = used ++ rest ∧ used ≠ [] := by
  have key : ∀ (now : Int) (q : BitVec 32), now ∈ clock → q.toNat < 512 → s.finish now q = (id, s') →
      snowflake32Parse id = s' ∧ s'.seconds ∈ clock ∧ s'.datacenter = s.datacenter ∧ s'.worker = s.worker := by
    intro now q hn hq e
    have f := finish32_parse s now q hd hw (hr now hn) hq
    have f2 : (s.finish now q).2 = { s with seconds := now, sequence := q } := rfl
    rw [e] at f f2
    simp only at f f2
    rw [f, f2]
    exact ⟨rfl, hn, rfl, rfl⟩
  cases clock with
  | nil => cases h
  | cons now clock =>
    rw [Snowflake32.nextVal] at h
    split at h
    · dsimp only at h
      split at h
      · cases hwt : waitAfter s.seconds clock with
        | none => rw [hwt] at h; cases h
        | some p =>
          obtain ⟨now', rest'⟩ := p
          rw [hwt] at h
          simp only [Option.map_some, Option.some.injEq, Prod.mk.injEq] at h
          obtain ⟨hf, rfl⟩ := h
          obtain ⟨_, pre, hpre, _⟩ := waitAfter_spec hwt
          obtain ⟨a, b, c, d⟩ := key now' _ (by simp [hpre]) (by rw [mask9]; omega) hf
          exact ⟨a, b, c, d, now :: (pre ++ [now']), by simp [hpre], by simp⟩
      · simp only [Option.some.injEq, Prod.mk.injEq] at h
        obtain ⟨hf, rfl⟩ := h
        obtain ⟨a, b, c, d⟩ := key now _ (by simp) (by rw [mask9]; omega) hf
        exact ⟨a, b, c, d, [now], rfl, by simp⟩
    · simp only [Option.some.injEq, Prod.mk.injEq] at h
      obtain ⟨hf, rfl⟩ := h
      obtain ⟨a, b, c, d⟩ := key now _ (by simp) (by decide) hf
      exact ⟨a, b, c, d, [now], rfl, by simp⟩

example : ((newSnowflake32 1 2).nextVal [100]).map (fun x => (x.1.1.toNat, x.1.2.seconds)) = some (0x191400, 100) := by decide

/-- Calls at one second: the counter runs through 0, 1, 2, ... -/
theorem sf32_same_second (d w : BitVec 32) (sec : Int) (k : Nat) : ∀ (q : Nat) (rest : List Int),
    q + k < 512 →
    ∃ ids, (Snowflake32.mk sec d w (BitVec.ofNat 32 q)).run (List.replicate k sec ++ rest) k =
      some (ids, Snowflake32.mk sec d w (BitVec.ofNat 32 (q + k)), rest) := by
  induction k with
  | zero => intro q rest _; exact ⟨[], rfl⟩
  | succ k ih =>
    intro q rest hq
    obtain ⟨ids, h⟩ := ih (q + 1) rest (by omega)
    have hn : ((BitVec.ofNat 32 q + 1) &&& 0x1ff#32) = BitVec.ofNat 32 (q + 1) := by
      apply BitVec.eq_of_toNat_eq
      rw [mask9, BitVec.toNat_add, BitVec.toNat_ofNat, BitVec.toNat_ofNat]
      have : (1 : BitVec 32).toNat = 1 := rfl
      omega
    have hz : ¬ (BitVec.ofNat 32 (q + 1) = 0) := by
      intro hc
      have := congrArg BitVec.toNat hc
      rw [BitVec.toNat_ofNat] at this
      have z : (0 : BitVec 32).toNat = 0 := rfl
      omega
    rw [List.replicate_succ, List.cons_append, Snowflake32.run, Snowflake32.nextVal]
    simp only [if_true, hn, hz, if_false, Option.bind_some, Snowflake32.finish]
    rw [h]
    have e : q + 1 + k = q + (k + 1) := by omega
    rw [e]
    exact ⟨_, rfl⟩

/-- **C10 fails.** After 512 ids have been drawn in the last second of the day (23:59:59), the next
call never returns, whatever the clock shows afterwards (`passedSeconds` is at most 86399 and the
loop waits for something larger); the generator's mutex is held, so all later calls hang too. -/
theorem snowflake32_hangs_fails (d w : BitVec 32) :
    ∃ (s : Snowflake32) (ids : List (BitVec 32)),
      (newSnowflake32 d w).run (List.replicate 512 86399) 512 = some (ids, s, []) ∧
      ∀ clock : List Int, (∀ c ∈ clock, SecOfDay c) → s.nextVal (86399 :: clock) = none := by
  obtain ⟨ids, h⟩ := sf32_same_second d w 86399 511 0 [] (by omega)
  refine ⟨Snowflake32.mk 86399 d w (BitVec.ofNat 32 511),
    ((newSnowflake32 d w).finish 86399 0).1 :: ids, ?_, ?_⟩
  · rw [show (512 : Nat) = 511 + 1 from rfl, List.replicate_succ, Snowflake32.run,
      Snowflake32.nextVal]
    have hne : ¬ (newSnowflake32 d w).seconds = 86399 := (by decide : ¬ (0 : Int) = 86399)
    rw [if_neg hne]
    simp only [newSnowflake32, Option.bind_some, Snowflake32.finish]
    rw [List.append_nil] at h
    have e : (BitVec.ofNat 32 0) = (0 : BitVec 32) := rfl
    rw [e] at h
    rw [h]
    rfl
  · intro clock hclock
    have hw : waitAfter 86399 clock = none := by
      induction clock with
      | nil => rfl
      | cons c cs ih =>
        rw [waitAfter, if_pos (hclock c (by simp)).2, ih fun x hx => hclock x (by simp [hx])]
    rw [Snowflake32.nextVal]
    have hz : ((BitVec.ofNat 32 511 + 1) &&& 0x1ff#32) = 0 := by decide
    simp only [if_true, hz, hw, Option.map_none]

/-- **C10 (what holds).** A call returns at once unless 512 ids were already drawn in the current
second, and in that case it returns as soon as the clock shows a later second of the same day.
Missing: the last second of the day, see `snowflake32_hangs_fails`. -/
theorem snowflake32_progress_partial (s : Snowflake32) (now : Int) (rest : List Int) :
    (¬ (s.seconds = now ∧ (s.sequence + 1) &&& 0x1ff#32 = 0) →
      ∃ r, s.nextVal (now :: rest) = some r) ∧
    ((∃ c ∈ rest, s.seconds < c) → ∃ r, s.nextVal (now :: rest) = some r) := by
  constructor
  · intro h
    rw [Snowflake32.nextVal]
    split
    · rename_i heq
      simp only
      rw [if_neg (fun hz => h ⟨heq, hz⟩)]
      exact ⟨_, rfl⟩
    · exact ⟨_, rfl⟩
  · rintro ⟨c, hc, hlt⟩
    have hw : ∃ r, waitAfter s.seconds rest = some r := by
      induction rest with
      | nil => simp at hc
      | cons x l ih =>
        rw [waitAfter]
        split
        · rename_i hle
          simp only [List.mem_cons] at hc
          rcases hc with rfl | hc
          · omega
          · exact ih hc
        · exact ⟨_, rfl⟩
    rw [Snowflake32.nextVal]
    split
    · simp only
      split
      · obtain ⟨r, hr⟩ := hw
        rw [hr]; exact ⟨_, rfl⟩
      · exact ⟨_, rfl⟩
    · exact ⟨_, rfl⟩


end Gosms
