import Verif.Props.Times
import Verif.Props.Bcd
import Verif.Props.Snowflake

/-!
# C135: ids that carry a date without a year

SMGP message ids carry month, day, hour and minute. With the calendar of `Model/Times.lean` the condition of C04 ("the minute never returns") becomes a
condition on moments: a clock that does not go back, for less than a year.
-/

namespace Gosms.Times

/-- The minute of the clock in `zone`, counted from the beginning of 2000. -/
def minuteOf (zone t : Int) : Int := (t / 1000000000 + zone) / 60

theorem d2_inj {a b : Nat} (ha : a < 100) (hb : b < 100) (h : d2 a = d2 b) : a = b := by
  have h1 := twos_last ha
  rw [h, twos_last hb] at h1
  simp only [Option.some.injEq, List.cons.injEq, and_true] at h1
  exact h1.symm

theorem stamp_parts {x y : Clock} (hx : x.Valid) (hy : y.Valid) (h : x.mmddhhmm = y.mmddhhmm) :
    x.month = y.month ∧ x.day = y.day ∧ x.hour = y.hour ∧ x.minute = y.minute := by
  obtain ⟨_, a2, a3, a4, a5, a6⟩ := hx
  obtain ⟨_, b2, b3, b4, b5, b6⟩ := hy
  unfold Clock.mmddhhmm at h
  obtain ⟨h, e4⟩ := List.append_inj' h rfl
  obtain ⟨h, e3⟩ := List.append_inj' h rfl
  obtain ⟨e1, e2⟩ := List.append_inj' h rfl
  exact ⟨d2_inj (by omega) (by omega) e1, d2_inj (by omega) (by omega) e2, d2_inj (by omega) (by omega) e3,
    d2_inj (by omega) (by omega) e4⟩

theorem stamp_digits (c : Clock) : IsDigits c.mmddhhmm ∧ c.mmddhhmm.length = 8 := by
  refine ⟨?_, rfl⟩
  intro b hb
  have hd : ∀ d, d < 10 → 0x30 ≤ (digit d).toNat ∧ (digit d).toNat ≤ 0x39 := by decide
  have h2 : ∀ n, ∀ b ∈ d2 n, 0x30 ≤ b.toNat ∧ b.toNat ≤ 0x39 := by
    intro n b hb
    simp only [d2, List.mem_cons, List.not_mem_nil, or_false] at hb
    rcases hb with rfl | rfl
    · exact hd _ (by omega)
    · exact hd _ (by omega)
  unfold Clock.mmddhhmm at hb
  simp only [List.mem_append] at hb
  rcases hb with ((hb | hb) | hb) | hb <;> exact h2 _ _ hb

/-- Two moments less than 365 days less a minute apart show the same month, day, hour and minute only within one minute. -/
theorem same_stamp_iff {zone s t : Int} (hs : Shown zone s) (ht : Shown zone t) (hle : s ≤ t)
    (hspan : t - s < (365 * 86400 - 60) * 1000000000) :
    (clockAt zone s).mmddhhmm = (clockAt zone t).mmddhhmm ↔ minuteOf zone s = minuteOf zone t := by
  have key : ∀ n : Nat, (civil n).mmddhhmm = (civil (n / 60 * 60)).mmddhhmm := by
    intro n
    have e1 : n / 60 * 60 / 86400 = n / 86400 := by omega
    have e2 : n / 60 * 60 % 86400 / 3600 = n % 86400 / 3600 := by omega
    have e3 : n / 60 * 60 % 3600 / 60 = n % 3600 / 60 := by omega
    unfold civil Clock.mmddhhmm
    simp only [e1, e2, e3]
  unfold clockAt minuteOf
  obtain ⟨s1, s2⟩ := hs
  obtain ⟨t1, t2⟩ := ht
  generalize ha : (s / 1000000000 + zone).toNat = a
  generalize hb : (t / 1000000000 + zone).toNat = b
  have ha' : s / 1000000000 + zone = a := by omega
  have hb' : t / 1000000000 + zone = b := by omega
  have hab : a ≤ b := by omega
  have hd : b - a < 365 * 86400 - 59 := by omega
  rw [ha', hb']
  constructor
  · intro h
    obtain ⟨e1, e2, e3, e4⟩ := stamp_parts (civil_valid (n := a) (by omega)) (civil_valid (n := b) (by omega)) h
    have ca := civil_seconds a
    have cb := civil_seconds b
    have va := civil_valid (n := a) (by omega)
    have vb := civil_valid (n := b) (by omega)
    have u1 := va.second
    have u2 := vb.second
    rw [e1, e2, e3, e4] at ca
    generalize (civil a).year = y at *
    generalize (civil b).year = y' at *
    generalize (civil b).month = mo at *
    generalize (civil b).day = d at *
    generalize (civil b).hour = h at *
    generalize (civil b).minute = mi at *
    generalize (civil a).second = sa at *
    generalize (civil b).second = sb at *
    unfold Spec.Times.seconds Spec.Times.daysBefore at ca cb
    generalize List.getD _ _ _ = before at *
    have hyy : y = y' := by
      rcases Nat.lt_trichotomy y y' with hl | he | hl
      · exfalso
        split at ca <;> split at cb <;> omega
      · exact he
      · exfalso
        split at ca <;> split at cb <;> omega
    subst hyy
    omega
  · intro h
    rw [key a, key b]
    have : a / 60 = b / 60 := by omega
    rw [this]

/-- **C135: SMGP message ids are unique for a year**: whatever the moments of the draws, on a clock that does not go back, over less than 365 days less a minute,
with at most a million draws in a minute of the clock: as many ids as draws, and no id twice. -/
theorem bcd_unique_for_a_year_partial (zone : Int) (tf : BcdSeq) (node : Bytes) (hn : tf.HasNode node) (hfresh : tf.timestamp = [])
    (ts : List Int) (hshown : ∀ t ∈ ts, Shown zone t) (hclock : ts.Pairwise (· ≤ ·))
    (hspan : ∀ s ∈ ts, ∀ t ∈ ts, t - s < (365 * 86400 - 60) * 1000000000)
    (hrate : ∀ k, ts.countP (fun t => minuteOf zone t = k) ≤ 1000000) :
    (bcdRun (fun _ => zone) tf ts).length = ts.length ∧ (bcdRun (fun _ => zone) tf ts).Nodup := by
  have hiff : ∀ s ∈ ts, ∀ t ∈ ts, (clockAt zone s).mmddhhmm = (clockAt zone t).mmddhhmm ↔ minuteOf zone s = minuteOf zone t := by
    intro s hs t ht
    rcases Int.le_total s t with h | h
    · exact same_stamp_iff (hshown s hs) (hshown t ht) h (hspan s hs t ht)
    · rw [eq_comm, same_stamp_iff (hshown t ht) (hshown s hs) h (hspan t ht s hs), eq_comm]
  have hmono : ∀ s t : Int, s ≤ t → minuteOf zone s ≤ minuteOf zone t := by
    intro s t h; unfold minuteOf; omega
  have hb := bcd_ids_unique tf node (ts.map fun t => (clockAt zone t).mmddhhmm) hn hfresh ?_ ?_ ?_
  · unfold bcdRun
    rw [hb.1, List.length_map]
    exact ⟨rfl, hb.2⟩
  · intro m hm
    obtain ⟨t, _, rfl⟩ := List.mem_map.1 hm
    exact stamp_digits _
  · intro i j k hk hij hjk h
    simp only [List.length_map] at hk
    simp only [List.getElem_map] at h ⊢
    rw [hiff _ (List.getElem_mem _) _ (List.getElem_mem _)] at h ⊢
    rw [List.pairwise_iff_getElem] at hclock
    have h1 := hmono _ _ (hclock i j (by omega) (by omega) hij)
    have h2 := hmono _ _ (hclock j k (by omega) (by omega) hjk)
    omega
  · intro m hm
    obtain ⟨t, ht, rfl⟩ := List.mem_map.1 hm
    rw [List.count, List.countP_map]
    refine Nat.le_trans (Nat.le_of_eq ?_) (hrate (minuteOf zone t))
    apply List.countP_congr
    intro s hs
    simp only [Function.comp, beq_iff_eq, decide_eq_true_eq]
    exact hiff s hs t ht

/-! ## A year later -/

theorem four_years (n : Nat) : civil (n + 1461 * 86400) = { civil n with year := (civil n).year + 4 } := by
  have e1 : (n + 1461 * 86400) / 86400 = n / 86400 + 1461 := by omega
  have e2 : (n / 86400 + 1461) % 1461 = n / 86400 % 1461 := by omega
  have e3 : (n / 86400 + 1461) / 1461 = n / 86400 / 1461 + 1 := by omega
  have e4 : (n + 1461 * 86400) % 86400 = n % 86400 := by omega
  have e5 : (n + 1461 * 86400) % 3600 = n % 3600 := by omega
  have e6 : (n + 1461 * 86400) % 60 = n % 60 := by omega
  unfold civil
  simp only [e1, e2, e3, e4, e5, e6, Clock.mk.injEq, and_self, and_true]
  omega

theorem one_year (n : Nat) (h : (civil n).year % 4 = 1 ∨ (civil n).year % 4 = 2) :
    civil (n + 365 * 86400) = { civil n with year := (civil n).year + 1 } := by
  have hr : n / 86400 % 1461 < 1461 := Nat.mod_lt _ (by decide)
  have hy : (civil n).year = 4 * (n / 86400 / 1461) + (n / 86400 % 1461 - 1) / 365 := rfl
  rw [hy] at h
  have e1 : (n + 365 * 86400) / 86400 = n / 86400 + 365 := by omega
  have e4 : (n + 365 * 86400) % 86400 = n % 86400 := by omega
  have e5 : (n + 365 * 86400) % 3600 = n % 3600 := by omega
  have e6 : (n + 365 * 86400) % 60 = n % 60 := by omega
  have e2 : (n / 86400 + 365) % 1461 = n / 86400 % 1461 + 365 := by omega
  have e3 : (n / 86400 + 365) / 1461 = n / 86400 / 1461 := by omega
  unfold civil
  simp only [e1, e2, e3, e4, e5, e6]
  generalize n / 86400 % 1461 = r at *
  have e7 : (r + 365 - 1) / 365 = (r - 1) / 365 + 1 := by omega
  have e8 : (r - 1) / 365 ≠ 0 := by omega
  simp only [e7, e8, Nat.succ_ne_zero, if_false]
  have e9 : r + 365 - (365 * ((r - 1) / 365 + 1) + 1) = r - (365 * ((r - 1) / 365) + 1) := by omega
  simp only [e9, Clock.mk.injEq, and_self, and_true]
  omega

/-- The moments one year after a year that is not a leap year and not before one, and four years after any, show the same month, day, hour and minute. -/
theorem later_same_stamp {zone t t' : Int} (ht : Shown zone t)
    (h : t' = t + 1461 * 86400 * 1000000000 ∨
      t' = t + 365 * 86400 * 1000000000 ∧ ((clockAt zone t).year % 4 = 1 ∨ (clockAt zone t).year % 4 = 2)) :
    (clockAt zone t').mmddhhmm = (clockAt zone t).mmddhhmm := by
  have h0 := ht.1
  unfold clockAt
  rcases h with h | ⟨h, hy⟩
  · have : (t' / 1000000000 + zone).toNat = (t / 1000000000 + zone).toNat + 1461 * 86400 := by omega
    rw [this, four_years]; rfl
  · have : (t' / 1000000000 + zone).toNat = (t / 1000000000 + zone).toNat + 365 * 86400 := by omega
    rw [this, one_year _ hy]; rfl

theorem bcd_run_append (xs ys : List Bytes) : ∀ tf : BcdSeq,
    tf.run (xs ++ ys) = tf.run xs ++ (xs.foldl (fun s m => (s.nextVal m).2) tf).run ys := by
  induction xs with
  | nil => intro tf; rfl
  | cons x xs ih => intro tf; simp only [List.cons_append, BcdSeq.run, List.foldl_cons, ih]

theorem bcd_state (xs : List Bytes) : ∀ tf : BcdSeq,
    (xs.foldl (fun s m => (s.nextVal m).2) tf).worker = tf.worker ∧
    (∀ m, xs.getLast? = some m → (xs.foldl (fun s m => (s.nextVal m).2) tf).timestamp = m) := by
  induction xs with
  | nil => intro tf; exact ⟨rfl, fun m h => by simp at h⟩
  | cons x xs ih =>
    intro tf
    rw [List.foldl_cons]
    refine ⟨(ih _).1, fun m h => ?_⟩
    cases xs with
    | nil => simp only [List.getLast?_singleton, Option.some.injEq] at h; subst h; rfl
    | cons y ys => exact (ih _).2 m (by rw [List.getLast?_cons_cons] at h; exact h)

/-- Two draws at moments that show the same minute, with a draw in another minute just before the second one, get the same id. -/
theorem bcd_same_stamp_again (zone : Int → Int) (tf : BcdSeq) (hfresh : tf.timestamp = []) (t t' : Int)
    (hst : (clockAt (zone t') t').mmddhhmm = (clockAt (zone t) t).mmddhhmm)
    (between : List Int) (u : Int) (hu : (clockAt (zone u) u).mmddhhmm ≠ (clockAt (zone t) t).mmddhhmm) :
    ∃ id, (bcdRun zone tf (t :: between ++ [u, t'])).head? = some id ∧
      (bcdRun zone tf (t :: between ++ [u, t'])).getLast? = some id := by
  have hlen : (clockAt (zone t) t).mmddhhmm ≠ [] := by
    intro e
    have := (stamp_digits (clockAt (zone t) t)).2
    rw [e] at this; simp at this
  unfold bcdRun
  have e : (t :: between ++ [u, t']).map (fun t => (clockAt (zone t) t).mmddhhmm) =
      ((clockAt (zone t) t).mmddhhmm :: (between.map fun t => (clockAt (zone t) t).mmddhhmm) ++ [(clockAt (zone u) u).mmddhhmm]) ++
        [(clockAt (zone t) t).mmddhhmm] := by
    simp [hst]
  rw [e, bcd_run_append]
  generalize hxs : ((clockAt (zone t) t).mmddhhmm :: (between.map fun t => (clockAt (zone t) t).mmddhhmm) ++
    [(clockAt (zone u) u).mmddhhmm]) = xs
  obtain ⟨w, l⟩ := bcd_state xs tf
  have hl := l (clockAt (zone u) u).mmddhhmm (by rw [← hxs, List.getLast?_append]; rfl)
  generalize xs.foldl (fun s m => (s.nextVal m).2) tf = tf' at *
  refine ⟨(tf.nextVal (clockAt (zone t) t).mmddhhmm).1, ?_, ?_⟩
  · rw [← hxs]; rfl
  · rw [List.getLast?_append]
    simp only [BcdSeq.run, List.getLast?_singleton, Option.some_or, Option.some.injEq]
    unfold BcdSeq.nextVal
    simp only [hfresh, hl, w, hu, hlen.symm, if_false]

/-- **C135 fails after a year.** Any generator, any moment `t` of a first draw, any draws in between, the last of them not in the minute of the year that `t` shows:
the draw four years after `t` - and one year after it, in two years of four - gives the id of the first draw again. -/
theorem bcd_year_later_fails (zone : Int) (tf : BcdSeq) (hfresh : tf.timestamp = []) (t t' : Int) (ht : Shown zone t)
    (h : t' = t + 1461 * 86400 * 1000000000 ∨
      t' = t + 365 * 86400 * 1000000000 ∧ ((clockAt zone t).year % 4 = 1 ∨ (clockAt zone t).year % 4 = 2))
    (between : List Int) (u : Int) (hu : (clockAt zone u).mmddhhmm ≠ (clockAt zone t).mmddhhmm) :
    ∃ id, (bcdRun (fun _ => zone) tf (t :: between ++ [u, t'])).head? = some id ∧
      (bcdRun (fun _ => zone) tf (t :: between ++ [u, t'])).getLast? = some id :=
  bcd_same_stamp_again (fun _ => zone) tf hfresh t t' (later_same_stamp ht h) between u hu

/-- **C135 fails at the end of summer time.** Where the clock of the process is put back by `back` seconds, a draw `back` seconds after a first one, with the clock put
back in between, gives the id of the first one again (if the draw just before it was in another minute of the clock). -/
theorem bcd_clock_put_back_fails (zone : Int → Int) (tf : BcdSeq) (hfresh : tf.timestamp = []) (t back : Int)
    (hback : zone (t + back * 1000000000) = zone t - back)
    (between : List Int) (u : Int) (hu : (clockAt (zone u) u).mmddhhmm ≠ (clockAt (zone t) t).mmddhhmm) :
    ∃ id, (bcdRun zone tf (t :: between ++ [u, t + back * 1000000000])).head? = some id ∧
      (bcdRun zone tf (t :: between ++ [u, t + back * 1000000000])).getLast? = some id := by
  refine bcd_same_stamp_again zone tf hfresh t _ ?_ between u hu
  rw [hback]
  unfold clockAt
  congr 3
  omega

/-- A clock put back by an hour half an hour after the moment: the draws before, at and after. -/
example : ∃ zone : Int → Int, zone (aMoment + 3600 * 1000000000) = zone aMoment - 3600 ∧
    (clockAt (zone (aMoment + 60000000000)) (aMoment + 60000000000)).mmddhhmm ≠ (clockAt (zone aMoment) aMoment).mmddhhmm :=
  ⟨fun t => if t < aMoment + 1800 * 1000000000 then 7200 else 3600, by decide +kernel, by decide +kernel⟩

/-- Moments of the theorems: three draws within two minutes; the same date one year after 2026, and another minute in between. -/
example : (∀ t ∈ [aMoment, aMoment, aMoment + 60000000000], Shown 28800 t) ∧
    [aMoment, aMoment, aMoment + 60000000000].Pairwise (· ≤ ·) ∧ (clockAt 28800 aMoment).year % 4 = 2 ∧
    (clockAt 28800 (aMoment + 60000000000)).mmddhhmm ≠ (clockAt 28800 aMoment).mmddhhmm := by decide +kernel

/-! ## Snowflake ids and the calendar -/

/-- The clock in milliseconds since 1970 UTC at a date and time of the years 2000 to 2099 in the time zone UTC+8 (10957 days are the years 1970 to 1999). -/
def beijing (year month day hour minute second : Nat) : Int :=
  ((10957 * 86400 + Spec.Times.seconds year month day hour minute second : Nat) - 8 * 3600 : Int) * 1000

/-- C07, C08: the documented "from 2020-01-01 00:00:00, valid for 69 years": ids can be drawn from the beginning of 2020 (UTC+8) to the 6th of September
2089, 15:47:35.551. -/
theorem snowflake_valid_years (t : Int) : SfInRange t ↔ beijing 20 1 1 0 0 0 ≤ t ∧ t ≤ beijing 89 9 6 15 47 35 + 551 := by
  have e1 : beijing 20 1 1 0 0 0 = 1577808000000 := by decide +kernel
  have e2 : beijing 89 9 6 15 47 35 = 3776831255000 := by decide +kernel
  rw [e1, e2]
  unfold SfInRange sfEpoch sfTimestampMax
  omega

/-- C08: an id tells its time as documented: its upper 42 bits are the milliseconds from the beginning of 2020 (UTC+8) to a time the clock
showed during the call. -/
theorem snowflake_time (s s' : Snowflake) (clock rest : List Int) (id : BitVec 64) (h : s.nextVal clock = some ((id, s'), rest))
    (hd : s.datacenterId.toNat < 8) (hw : s.workerId.toNat < 128)
    (hr : ∀ c ∈ clock, beijing 20 1 1 0 0 0 ≤ c ∧ c ≤ beijing 89 9 6 15 47 35 + 551) :
    ∃ t ∈ clock, ((id.toNat / 2 ^ 22 : Nat) : Int) = t - beijing 20 1 1 0 0 0 := by
  have hr' : ∀ c ∈ clock, SfInRange c := fun c hc => (snowflake_valid_years c).mpr (hr c hc)
  have key : ∀ (now : Int) (q : BitVec 64), now ∈ clock → q.toNat < 4096 → s.finish now q = (id, s') →
      ∃ t ∈ clock, ((id.toNat / 2 ^ 22 : Nat) : Int) = t - beijing 20 1 1 0 0 0 := by
    intro now q hn hq e
    have f := (finish_eq s now q hd hw (hr' now hn) hq).1
    rw [e] at f
    simp only at f
    refine ⟨now, hn, ?_⟩
    have e1 : beijing 20 1 1 0 0 0 = 1577808000000 := by decide +kernel
    have := (hr' now hn).1
    rw [e1, f]
    unfold sfEpoch at *
    omega
  have wait : ∀ ts (l : List Int) r, waitAfter ts l = some r → r.1 ∈ l := by
    intro ts l
    induction l with
    | nil => intro r h; cases h
    | cons x l ih =>
      intro r h
      rw [waitAfter] at h
      split at h
      · exact List.mem_cons_of_mem _ (ih r h)
      · cases h; exact List.mem_cons_self
  cases clock with
  | nil => cases h
  | cons now l =>
    rw [Snowflake.nextVal] at h
    have q : ((s.sequence + 1) &&& 0xfff#64).toNat < 4096 := by
      rw [BitVec.toNat_and]
      exact Nat.lt_of_le_of_lt Nat.and_le_right (by decide)
    split at h
    · simp only at h
      split at h
      · cases hx : waitAfter s.timestamp l with
        | none => rw [hx] at h; cases h
        | some r =>
          rw [hx] at h
          simp only [Option.map_some, Option.some.injEq, Prod.mk.injEq] at h
          exact key r.1 _ (List.mem_cons_of_mem _ (wait _ _ _ hx)) q h.1
      · simp only [Option.some.injEq, Prod.mk.injEq] at h
        exact key now _ List.mem_cons_self q h.1
    · simp only [Option.some.injEq, Prod.mk.injEq] at h
      exact key now 0 List.mem_cons_self (by decide) h.1

/-- C07 ends with the 6th of September 2089: every id drawn later is 0. -/
theorem snowflake_after_2089_fails (s : Snowflake) (clock : List Int) (hr : ∀ c ∈ clock, beijing 89 9 6 15 47 36 ≤ c) (n : Nat)
    (ids : List (BitVec 64)) (hrun : s.run clock n = some ids) : ids = List.replicate n 0 := by
  refine snowflake_range_fails s clock (fun c hc => ?_) n ids hrun
  have := hr c hc
  have e2 : beijing 89 9 6 15 47 36 = 3776831256000 := by decide +kernel
  rw [e2] at this
  unfold sfEpoch
  omega

/-- An id of the 16th of November 2026, 18:00 in Beijing. -/
example : ((newSnowflake 1 1).nextVal [beijing 26 11 16 18 0 0]).map (fun r => (r.1.1.toNat / 2 ^ 22 : Nat)) =
    some (2511 * 86400000 + 18 * 3600000) := by decide +kernel

end Gosms.Times
