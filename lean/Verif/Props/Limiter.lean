import Verif.Model.Limiter

/-!
# C63: configured throughput
-/

namespace Gosms.Limiter

/-- Clock readings that never go back. -/
def Monotone (ts : List Nat) : Prop := ts.Pairwise (· ≤ ·)

/-- Number of calls admitted. -/
def admitted (outs : List Bool) : Nat := outs.count true

theorem run_concat (l : Limiter) (ts : List Nat) (t : Nat) :
    run l (ts ++ [t]) = ((allow (run l ts).1 t).1, (run l ts).2 ++ [(allow (run l ts).1 t).2]) := by
  simp [run]

/-- Induction from the back. -/
theorem list_snoc_induction {α : Type} {P : List α → Prop} (nil : P [])
    (snoc : ∀ l a, P l → P (l ++ [a])) (l : List α) : P l := by
  have : ∀ r : List α, P r.reverse := by
    intro r
    induction r with
    | nil => exact nil
    | cons a r ih => rw [List.reverse_cons]; exact snoc _ _ ih
  simpa using this l.reverse

theorem run_length (l : Limiter) (ts : List Nat) : (run l ts).2.length = ts.length := by
  induction ts using list_snoc_induction with
  | nil => rfl
  | snoc ts t ih => rw [run_concat]; simp [ih]

theorem run_outs (l : Limiter) (outs : List Bool) (ts : List Nat) :
    ts.foldl (fun s t => ((allow s.1 t).1, s.2 ++ [(allow s.1 t).2])) (l, outs) =
      ((run l ts).1, outs ++ (run l ts).2) := by
  induction ts using list_snoc_induction with
  | nil => simp [run]
  | snoc ts t ih => rw [run_concat, List.foldl_append, ih]; simp

theorem run_append (l : Limiter) (a b : List Nat) :
    run l (a ++ b) = ((run (run l a).1 b).1, (run l a).2 ++ (run (run l a).1 b).2) := by
  unfold run
  rw [List.foldl_append]
  exact run_outs _ _ _

theorem allow_keep (l : Limiter) (t : Nat) :
    (allow l t).1.interval = l.interval ∧ (allow l t).1.burst = l.burst := by
  unfold allow
  split
  · exact ⟨rfl, rfl⟩
  · simp only
    split <;> exact ⟨rfl, rfl⟩

theorem run_keep (l : Limiter) (ts : List Nat) :
    (run l ts).1.interval = l.interval ∧ (run l ts).1.burst = l.burst := by
  induction ts using list_snoc_induction with
  | nil => exact ⟨rfl, rfl⟩
  | snoc ts t ih =>
    rw [run_concat]
    exact ⟨(allow_keep _ _).1.trans ih.1, (allow_keep _ _).2.trans ih.2⟩

/-- What is left in the bucket and what was admitted never exceed what was there and what flowed in. -/
theorem allow_cases {l : Limiter} {ev : Nat} (he : l.interval = some ev) (t : Nat) :
    (ev ≤ min (l.burst * ev) (l.credit + (t - l.last)) ∧
      allow l t = ({ l with credit := min (l.burst * ev) (l.credit + (t - l.last)) - ev, last := t }, true)) ∨
    (min (l.burst * ev) (l.credit + (t - l.last)) < ev ∧ allow l t = (l, false)) := by
  unfold allow
  rw [he]
  simp only
  split
  · rename_i h; exact .inl ⟨h, rfl⟩
  · rename_i h; exact .inr ⟨by omega, rfl⟩

/-- State invariant relative to the starting time `t0`: the bucket holds at most `burst` tokens, and at most
what was in it at `t0` plus what flowed in, minus what was taken. -/
theorem run_bound (l : Limiter) (ev t0 : Nat) (he : l.interval = some ev)
    (hc : l.credit ≤ l.burst * ev) (h0 : l.last ≤ t0) (ts : List Nat) (hmono : Monotone (t0 :: ts)) :
    (run l ts).1.credit ≤ l.burst * ev ∧
    (∀ t, (∀ x ∈ t0 :: ts, x ≤ t) → (run l ts).1.last ≤ t ∧
      (run l ts).1.credit + (t - (run l ts).1.last) + admitted (run l ts).2 * ev ≤
        l.credit + (t - l.last) ∧
      min (l.burst * ev) ((run l ts).1.credit + (t - (run l ts).1.last)) + admitted (run l ts).2 * ev ≤
        l.burst * ev + (t - t0)) := by
  induction ts using list_snoc_induction with
  | nil =>
    refine ⟨hc, fun t ht => ⟨?_, ?_, ?_⟩⟩
    · have := ht t0 (by simp); simp only [run, List.foldl_nil]; omega
    · simp [run, admitted]
    · simp only [run, List.foldl_nil, admitted, List.count_nil]; omega
  | snoc ts u ih =>
    have hm' : Monotone (t0 :: ts) := by
      have : (t0 :: (ts ++ [u])) = (t0 :: ts) ++ [u] := rfl
      rw [Monotone, this, List.pairwise_append] at hmono
      exact hmono.1
    have hu : ∀ x ∈ t0 :: ts, x ≤ u := by
      have : (t0 :: (ts ++ [u])) = (t0 :: ts) ++ [u] := rfl
      rw [Monotone, this, List.pairwise_append] at hmono
      intro x hx
      exact hmono.2.2 x hx u (by simp)
    obtain ⟨ih1, ih2⟩ := ih hm'
    obtain ⟨a1, a2, a3⟩ := ih2 u hu
    rw [run_concat]
    have hk := run_keep l ts
    have hle : min (l.burst * ev) ((run l ts).1.credit + (u - (run l ts).1.last)) ≤ l.burst * ev := Nat.min_le_left _ _
    have hle2 : min (l.burst * ev) ((run l ts).1.credit + (u - (run l ts).1.last)) ≤
      (run l ts).1.credit + (u - (run l ts).1.last) := Nat.min_le_right _ _
    rcases allow_cases (hk.1.trans he) u with ⟨h1, h2⟩ | ⟨h1, h2⟩
    · rw [hk.2] at h1 h2
      rw [h2]
      dsimp only
      refine ⟨by omega, fun t ht => ?_⟩
      have htu : u ≤ t := ht u (by simp)
      have ht0 : t0 ≤ u := hu t0 (by simp)
      have hcount : admitted ((run l ts).2 ++ [true]) * ev = admitted (run l ts).2 * ev + ev := by
        simp [admitted, List.count_append, Nat.add_mul]
      have : min (l.burst * ev)
        (min (l.burst * ev) ((run l ts).1.credit + (u - (run l ts).1.last)) - ev + (t - u)) ≤
        min (l.burst * ev) ((run l ts).1.credit + (u - (run l ts).1.last)) - ev + (t - u) := Nat.min_le_right _ _
      rw [hcount]
      refine ⟨htu, ?_, ?_⟩
      · omega
      · omega
    · rw [h2]
      dsimp only
      refine ⟨ih1, fun t ht => ?_⟩
      have hcount : admitted ((run l ts).2 ++ [false]) = admitted (run l ts).2 := by
        simp [admitted, List.count_append]
      rw [hcount]
      exact ih2 t (fun x hx => ht x (by
        rcases List.mem_cons.1 hx with rfl | hx
        · simp
        · simp [hx]))

/-- Upper bound: in any stretch of calls of any history, from its first call at `t1` to its last at `tn`, at
most `burst + (tn - t1) / interval` calls are admitted. -/
theorem limiter_upper (ev burst : Nat) (hev : 0 < ev) (before window : List Nat) (t1 tn : Nat)
    (hmono : Monotone (before ++ t1 :: window)) (hlast : ∀ t ∈ t1 :: window, t ≤ tn) :
    admitted ((run (new ev burst) (before ++ t1 :: window)).2.drop before.length) ≤
      burst + (tn - t1) / ev := by
  have hnew : new (ev : Int) burst = ⟨some ev, burst, burst * ev, 0⟩ := by
    unfold new; rw [if_neg (by omega)]; simp
  rw [hnew]
  obtain ⟨l, hl⟩ : ∃ l, l = (run ⟨some ev, burst, burst * ev, 0⟩ before).1 := ⟨_, rfl⟩
  have hk := run_keep ⟨some ev, burst, burst * ev, 0⟩ before
  rw [Monotone, List.pairwise_append] at hmono
  have hb := run_bound ⟨some ev, burst, burst * ev, 0⟩ ev 0 rfl (Nat.le_refl _) (Nat.le_refl _) before
    (List.pairwise_cons.2 ⟨fun _ _ => Nat.zero_le _, hmono.1⟩)
  rw [run_append, List.drop_left' (run_length _ _), ← hl]
  rw [← hl] at hk hb
  have hlast1 : l.last ≤ t1 := (hb.2 t1 (by
    intro x hx
    rcases List.mem_cons.1 hx with rfl | hx
    · exact Nat.zero_le _
    · exact hmono.2.2 x hx t1 (by simp))).1
  have h2 := run_bound l ev t1 hk.1 (by rw [hk.2]; exact hb.1) hlast1 (t1 :: window)
    (List.pairwise_cons.2 ⟨fun x hx => by
      rcases List.mem_cons.1 hx with rfl | hx
      · exact Nat.le_refl _
      · exact (List.pairwise_cons.1 hmono.2.1).1 x hx, hmono.2.1⟩)
  have h3 := (h2.2 tn (fun x hx => by
    rcases List.mem_cons.1 hx with rfl | hx
    · exact hlast x (by simp)
    · exact hlast x hx)).2.2
  rw [hk.2] at h3
  have h4 : admitted (run l (t1 :: window)).2 * ev ≤ burst * ev + (tn - t1) := by
    have : ∀ a b c : Nat, a + b ≤ c → b ≤ c := fun a b c h => by omega
    exact this _ _ _ h3
  have h5 : (burst + (tn - t1) / ev) = (burst * ev + (tn - t1)) / ev := by
    rw [Nat.add_comm (burst * ev), Nat.add_mul_div_right _ _ hev, Nat.add_comm]
  rw [h5]
  exact (Nat.le_div_iff_mul_le hev).2 h4

/-- Lower bound: a call is refused only if the rate was used up. With a burst of at least one, if the call at
`t` after the calls `ts` is refused, there is an earlier call such that from it on at least
`burst + (t - its time) / interval` calls were admitted. -/
theorem limiter_lower (ev burst : Nat) (hev : 0 < ev) (hb : 0 < burst) (ts : List Nat) (t : Nat)
    (hmono : Monotone (ts ++ [t])) (href : (allow (run (new ev burst) ts).1 t).2 = false) :
    ∃ n, ∃ h : n < ts.length,
      burst + (t - ts[n]) / ev ≤ admitted ((run (new ev burst) ts).2.drop n) := by
  have hnew : new (ev : Int) burst = ⟨some ev, burst, burst * ev, 0⟩ := by
    unfold new; rw [if_neg (by omega)]; simp
  rw [hnew] at href ⊢
  generalize hl0 : (⟨some ev, burst, burst * ev, 0⟩ : Limiter) = l0 at href ⊢
  have hi0 : l0.interval = some ev := by rw [← hl0]
  have hb0 : l0.burst = burst := by rw [← hl0]
  have hc0 : l0.credit = burst * ev := by rw [← hl0]
  have hB : ev ≤ burst * ev := Nat.le_mul_of_pos_left _ hb
  -- either the bucket was full all along, or it was full at some admitted call and not since
  have key : Monotone ts → ((run l0 ts).1 = l0 ∨ ∃ n, ∃ h : n < ts.length,
      ts[n] ≤ (run l0 ts).1.last ∧ (∀ x, (∀ y ∈ ts, y ≤ x) → (run l0 ts).1.last ≤ x) ∧
      (run l0 ts).1.credit + admitted ((run l0 ts).2.drop n) * ev =
        burst * ev + ((run l0 ts).1.last - ts[n])) := by
    clear href hmono
    induction ts using list_snoc_induction with
    | nil => intro _; exact .inl rfl
    | snoc ts u ih =>
      intro hm
      rw [Monotone, List.pairwise_append] at hm
      have hk := run_keep l0 ts
      have hlen := run_length l0 ts
      rw [run_concat]
      rcases allow_cases (hk.1.trans hi0) u with ⟨h1, h2⟩ | ⟨h1, h2⟩
      · rw [h2, hk.2, hb0]
        rw [hk.2, hb0] at h1
        dsimp only
        right
        have full : burst * ev ≤ (run l0 ts).1.credit + (u - (run l0 ts).1.last) →
            ∃ n, ∃ h : n < (ts ++ [u]).length, (ts ++ [u])[n] ≤ u ∧
              (∀ x, (∀ y ∈ ts ++ [u], y ≤ x) → u ≤ x) ∧
              min (burst * ev) ((run l0 ts).1.credit + (u - (run l0 ts).1.last)) - ev +
                admitted (((run l0 ts).2 ++ [true]).drop n) * ev = burst * ev + (u - (ts ++ [u])[n]) := by
          intro hfull
          refine ⟨ts.length, by simp, by simp, fun x hx => hx u (by simp), ?_⟩
          rw [List.drop_left' hlen]
          simp only [admitted, List.count_singleton_self, Nat.one_mul, List.getElem_concat_length]
          rw [Nat.min_eq_left hfull]
          omega
        by_cases hfull : burst * ev ≤ (run l0 ts).1.credit + (u - (run l0 ts).1.last)
        · exact full hfull
        · clear full
          rcases ih hm.1 with h0 | ⟨n, hn, e1, e2, e3⟩
          · exact absurd (by rw [h0, hc0]; omega) hfull
          · refine ⟨n, by simp; omega, ?_, fun x hx => hx u (by simp), ?_⟩
            · rw [List.getElem_append_left hn]
              exact hm.2.2 _ (List.getElem_mem hn) u (by simp)
            · have hlu : (run l0 ts).1.last ≤ u := e2 u (fun y hy => hm.2.2 y hy u (by simp))
              rw [List.getElem_append_left hn, List.drop_append_of_le_length (by omega)]
              have hcount : admitted (((run l0 ts).2.drop n) ++ [true]) * ev =
                  admitted ((run l0 ts).2.drop n) * ev + ev := by
                simp [admitted, List.count_append, Nat.add_mul]
              rw [hcount, Nat.min_eq_right (by omega)]
              rw [Nat.min_eq_right (by omega)] at h1
              omega
      · rw [h2]
        dsimp only
        rcases ih hm.1 with h0 | ⟨n, hn, e1, e2, e3⟩
        · exact .inl h0
        · refine .inr ⟨n, by simp; omega, ?_, ?_, ?_⟩
          · rw [List.getElem_append_left hn]; exact e1
          · intro x hx; exact e2 x (fun y hy => hx y (by simp [hy]))
          · rw [List.getElem_append_left hn, List.drop_append_of_le_length (by omega)]
            have hcount : admitted (((run l0 ts).2.drop n) ++ [false]) =
                admitted ((run l0 ts).2.drop n) := by
              simp [admitted, List.count_append]
            rw [hcount]; exact e3
  rw [Monotone, List.pairwise_append] at hmono
  have hk := run_keep l0 ts
  rcases allow_cases (hk.1.trans hi0) t with ⟨_, h2⟩ | ⟨h1, _⟩
  · rw [h2] at href; cases href
  rw [hk.2, hb0] at h1
  rcases key hmono.1 with h0 | ⟨n, hn, e1, e2, e3⟩
  · rw [h0, hc0] at h1
    omega
  · refine ⟨n, hn, ?_⟩
    have hlt : (run l0 ts).1.last ≤ t := e2 t (fun y hy => hmono.2.2 y hy t (by simp))
    have h6 : burst * ev + (t - ts[n]) < (admitted ((run l0 ts).2.drop n) + 1) * ev := by
      rw [Nat.add_mul, Nat.one_mul]
      omega
    have h5 : (burst + (t - ts[n]) / ev) = (burst * ev + (t - ts[n])) / ev := by
      rw [Nat.add_comm (burst * ev), Nat.add_mul_div_right _ _ hev, Nat.add_comm]
    rw [h5]
    have := (Nat.div_lt_iff_lt_mul hev).2 h6
    omega

/-- In particular calls at least `interval` apart are all admitted. -/
theorem limiter_spaced (ev burst : Nat) (hev : 0 < ev) (hb : 0 < burst) (ts : List Nat)
    (hsp : ts.Pairwise (fun a b => a + ev ≤ b)) : ∀ b ∈ (run (new ev burst) ts).2, b = true := by
  have hnew : new (ev : Int) burst = ⟨some ev, burst, burst * ev, 0⟩ := by
    unfold new; rw [if_neg (by omega)]; simp
  rw [hnew]
  have hB : ev ≤ burst * ev := Nat.le_mul_of_pos_left _ hb
  have key : (∀ b ∈ (run ⟨some ev, burst, burst * ev, 0⟩ ts).2, b = true) ∧
      ((run ⟨some ev, burst, burst * ev, 0⟩ ts).1.credit = burst * ev ∨
        (run ⟨some ev, burst, burst * ev, 0⟩ ts).1.last ∈ ts) := by
    induction ts using list_snoc_induction with
    | nil => exact ⟨by simp [run], .inl rfl⟩
    | snoc ts u ih =>
      rw [List.pairwise_append] at hsp
      obtain ⟨h1, h2⟩ := ih hsp.1
      have hk := run_keep ⟨some ev, burst, burst * ev, 0⟩ ts
      rw [run_concat]
      rcases allow_cases hk.1 u with ⟨_, h4⟩ | ⟨h3, _⟩
      · rw [h4]
        refine ⟨?_, .inr (by simp)⟩
        intro b hb'
        rcases List.mem_append.1 hb' with hb' | hb'
        · exact h1 b hb'
        · simpa using hb'
      · exfalso
        rw [hk.2] at h3
        rcases h2 with h2 | h2
        · rw [h2] at h3; dsimp only at h3; omega
        · have := hsp.2.2 _ h2 u (by simp)
          dsimp only at h3
          omega
  exact key.1

/-- C63 for throughputs from 1 to a million per second and a window of at least one message. `us` is the
interval the server uses, in whole microseconds: `us = ⌊10^6 / T⌋`. Calls at least `1/T` seconds apart
(`T` per second) are all admitted; no stretch of calls sees more than the window plus one per `us`
microseconds. -/
theorem throughput_partial (T : Nat) (hT : 0 < T) (hT2 : T ≤ 1000000) (window : Nat) (hw : 0 < window) :
    ∃ us : Nat, 0 < us ∧ us * T ≤ 1000000 ∧ 1000000 < (us + 1) * T ∧
      (∀ ts : List Nat, ts.Pairwise (fun a b => 1000000000 ≤ (b - a) * T) →
        ∀ b ∈ (run (setupLimiter T window) ts).2, b = true) ∧
      (∀ before stretch t1 tn, Monotone (before ++ t1 :: stretch) → (∀ t ∈ t1 :: stretch, t ≤ tn) →
        admitted ((run (setupLimiter T window) (before ++ t1 :: stretch)).2.drop before.length) ≤
          window + (tn - t1) / (us * 1000)) := by
  have hpos : 0 < 1000000 / T := Nat.div_pos hT2 hT
  have hset : setupLimiter (T : Int) window = new ((1000000 / T * 1000 : Nat) : Int) window := by
    unfold setupLimiter serverInterval
    rw [if_pos (by omega)]
    congr 1
  refine ⟨1000000 / T, hpos, Nat.div_mul_le_self _ _, ?_, ?_, ?_⟩
  · have := Nat.lt_mul_div_succ 1000000 hT
    rw [Nat.mul_comm]; exact this
  · intro ts hp
    rw [hset]
    refine limiter_spaced _ _ (by omega) hw ts (hp.imp ?_)
    intro a b hab
    have h1 : 1000000 / T * 1000 * T ≤ 1000000000 := by
      have := Nat.div_mul_le_self 1000000 T
      have e : 1000000 / T * 1000 * T = (1000000 / T * T) * 1000 := by
        rw [Nat.mul_assoc, Nat.mul_comm 1000 T, ← Nat.mul_assoc]
      omega
    have h2 : 1000000 / T * 1000 * T ≤ (b - a) * T := Nat.le_trans h1 hab
    have h3 : 1000000 / T * 1000 ≤ b - a := Nat.le_of_mul_le_mul_right h2 hT
    have h4 : 0 < b - a := by omega
    omega
  · intro before stretch t1 tn hm hl
    rw [hset]
    exact limiter_upper _ _ (by omega) before stretch t1 tn hm hl

/-- Spacing of half a second meets the hypothesis for two per second. -/
example : ([0, 500000000, 1000000000] : List Nat).Pairwise (fun a b => 1000000000 ≤ (b - a) * 2) := by decide
example : (run (setupLimiter 2 1) [0, 1, 500000000]).2 = [true, false, true] := by decide

/-- Unset means one message per ten milliseconds, 100 per second. -/
theorem throughput_default (window : Nat) :
    setupLimiter 0 window = new 10000000 window ∧ setupLimiter 0 window = setupLimiter 100 window := by
  have h : serverInterval 0 = 10000000 := by decide
  have h2 : serverInterval 100 = 10000000 := by decide
  unfold setupLimiter
  rw [h, h2]
  exact ⟨rfl, rfl⟩

/-- The upper bound fails for every throughput above a million, and for every negative one: any
number of calls at any times is admitted. -/
theorem throughput_unlimited_fails (T : Int) (hT : T > 1000000 ∨ T < 0) (window : Nat) (ts : List Nat) :
    ∀ b ∈ (run (setupLimiter T window) ts).2, b = true := by
  have hI : serverInterval T ≤ 0 := by
    unfold serverInterval
    rw [if_pos (by omega)]
    rcases hT with h | h
    · rw [Int.tdiv_eq_zero_of_lt (by omega) (by omega)]
      omega
    · have h0 : Int.tdiv 1000000 T ≤ 0 := by
        have e : T = -(-T) := by omega
        rw [e, Int.tdiv_neg]
        have := Int.tdiv_nonneg (a := 1000000) (b := -T) (by omega) (by omega)
        omega
      omega
  have hnew : setupLimiter T window = ⟨none, window, 0, 0⟩ := by
    unfold setupLimiter new; rw [if_pos hI]
  rw [hnew]
  have key : (∀ b ∈ (run ⟨none, window, 0, 0⟩ ts).2, b = true) ∧ (run ⟨none, window, 0, 0⟩ ts).1.interval = none := by
    induction ts using list_snoc_induction with
    | nil => exact ⟨by simp [run], rfl⟩
    | snoc ts t ih =>
      rw [run_concat]
      have : allow (run ⟨none, window, 0, 0⟩ ts).1 t = ((run ⟨none, window, 0, 0⟩ ts).1, true) := by
        unfold allow; rw [ih.2]
      rw [this]
      refine ⟨fun b hb => ?_, ih.2⟩
      rcases List.mem_append.1 hb with hb | hb
      · exact ih.1 b hb
      · simpa using hb
  exact key.1

/-- The lower bound fails for every throughput up to a million if the account's window is 0 (also when it is
not configured): nothing is ever admitted. -/
theorem throughput_no_window_fails (T : Nat) (hT2 : T ≤ 1000000) (ts : List Nat) :
    ∀ b ∈ (run (setupLimiter T 0) ts).2, b = false := by
  obtain ⟨ev, hev, hset⟩ : ∃ ev : Nat, 0 < ev ∧ setupLimiter (T : Int) 0 = ⟨some ev, 0, 0, 0⟩ := by
    by_cases h0 : T = 0
    · subst h0; exact ⟨10000000, by omega, by decide⟩
    · have hpos : 0 < 1000000 / T := Nat.div_pos hT2 (by omega)
      refine ⟨1000000 / T * 1000, by omega, ?_⟩
      have : setupLimiter (T : Int) 0 = new ((1000000 / T * 1000 : Nat) : Int) 0 := by
        unfold setupLimiter serverInterval
        rw [if_pos (by omega)]
        congr 1
      rw [this]
      unfold new
      rw [if_neg (by omega)]
      simp only [Int.toNat_natCast, Nat.zero_mul]
  rw [hset]
  have key : (∀ b ∈ (run ⟨some ev, 0, 0, 0⟩ ts).2, b = false) := by
    induction ts using list_snoc_induction with
    | nil => simp [run]
    | snoc ts t ih =>
      rw [run_concat]
      have hk := run_keep ⟨some ev, 0, 0, 0⟩ ts
      rcases allow_cases hk.1 t with ⟨h1, _⟩ | ⟨_, h2⟩
      · rw [hk.2] at h1; dsimp only at h1; omega
      · rw [h2]
        intro b hb
        rcases List.mem_append.1 hb with hb | hb
        · exact ih b hb
        · simpa using hb
  exact key

/-- The client's limiter is the server's for a positive throughput, and the default otherwise. -/
theorem client_limiter (T : Int) (window : Nat) :
    clientLimiter T window = if T > 0 then setupLimiter T window else setupLimiter 0 window := by
  unfold clientLimiter clientInterval setupLimiter serverInterval
  by_cases h : T > 0
  · rw [if_pos h, if_pos h, if_pos (by omega)]
  · rw [if_neg h, if_neg h, if_neg (by simp)]

/-! ## C109: the client's window -/

theorem clientFactory_of_pos (M : Int) (hM : 0 < M) (W : Nat) (T : Int) : clientFactory M W T = some (clientLimiter T W) := by
  unfold clientFactory clientWindow
  rw [if_pos hM, if_neg (by omega)]
  simp

/-- C109, the part that holds: with a window `W` and at least one connection configured, and a throughput from 1 to a million, of
the messages sent at one moment no more than `W` are let through, whatever was sent before. -/
theorem client_window_burst_partial (M : Int) (hM : 0 < M) (W T : Nat) (hT : 0 < T) (hT2 : T ≤ 1000000) :
    ∃ l, clientFactory M W T = some l ∧
      ∀ (before : List Nat) (t k : Nat), Monotone (before ++ List.replicate (k + 1) t) →
        admitted ((run l (before ++ List.replicate (k + 1) t)).2.drop before.length) ≤ W := by
  refine ⟨_, clientFactory_of_pos M hM W T, ?_⟩
  intro before t k hmono
  have hpos : 0 < 1000000 / T := Nat.div_pos hT2 hT
  have e : clientLimiter T W = new ((1000000 / T * 1000 : Nat) : Int) W := by
    unfold clientLimiter clientInterval
    rw [if_pos (by omega)]
    congr 1
  rw [e]
  rw [List.replicate_succ] at hmono ⊢
  have := limiter_upper (1000000 / T * 1000) W (by omega) before (List.replicate k t) t t hmono
    (by intro x hx; rcases List.mem_cons.1 hx with rfl | hx
        · exact Nat.le_refl _
        · rw [(List.mem_replicate.1 hx).2]; exact Nat.le_refl _)
  simpa using this

/-- C109 fails: whatever window is configured, any number of messages is let through although no answer has come to any of them (answers
have no part in it), if they are sent at the configured throughput. -/
theorem client_window_fails (M : Int) (hM : 0 < M) (W T : Nat) (hW : 0 < W) (hT : 0 < T) (hT2 : T ≤ 1000000) (n : Nat) :
    ∃ l, clientFactory M W T = some l ∧
      ∃ ts : List Nat, ts.length = n ∧ ts.Pairwise (fun a b => 1000000000 ≤ (b - a) * T) ∧ admitted (run l ts).2 = n := by
  refine ⟨_, clientFactory_of_pos M hM W T, (List.range n).map (· * 1000000000), by simp, ?_, ?_⟩
  · rw [List.pairwise_map]
    refine List.pairwise_lt_range.imp fun {a b} h => ?_
    have : 1000000000 ≤ b * 1000000000 - a * 1000000000 := by omega
    exact Nat.le_trans this (Nat.le_mul_of_pos_right _ hT)
  · have hall : ∀ b ∈ (run (clientLimiter T W) ((List.range n).map (· * 1000000000))).2, b = true := by
      rw [client_limiter, if_pos (by omega)]
      obtain ⟨us, _, _, _, h, _⟩ := throughput_partial T hT hT2 W hW
      apply h
      rw [List.pairwise_map]
      refine List.pairwise_lt_range.imp fun {a b} h => ?_
      have : 1000000000 ≤ b * 1000000000 - a * 1000000000 := by omega
      exact Nat.le_trans this (Nat.le_mul_of_pos_right _ hT)
    have hlen := run_length (clientLimiter T W) ((List.range n).map (· * 1000000000))
    unfold admitted
    rw [List.count_eq_length.2 fun b hb => (hall b hb).symm, hlen]
    simp

/-- C109 fails: without a positive number of connections configured, the window configured has no effect, not even a negative one; it is
16. -/
theorem client_window_ignored_fails (M : Int) (hM : M ≤ 0) (W T : Int) :
    clientFactory M W T = clientFactory 1 16 T := by
  unfold clientFactory clientWindow
  rw [if_neg (by omega)]
  rfl

/-- C109 fails: with connections but no window configured nothing is ever sent, for every throughput up to a million (also for none). -/
theorem client_no_window_fails (M : Int) (hM : 0 < M) (T : Int) (hT2 : T ≤ 1000000) :
    ∃ l, clientFactory M 0 T = some l ∧ ∀ ts : List Nat, ∀ b ∈ (run l ts).2, b = false := by
  refine ⟨_, clientFactory_of_pos M hM 0 T, fun ts => ?_⟩
  rw [client_limiter]
  by_cases h : T > 0
  · rw [if_pos h]
    have := throughput_no_window_fails T.toNat (by omega) ts
    rwa [show ((T.toNat : Nat) : Int) = T by omega] at this
  · rw [if_neg h]
    exact throughput_no_window_fails 0 (by omega) ts

/-- C109 fails: a negative window makes the client panic at the first message (and never send again, C107). -/
theorem client_negative_window_fails (M W T : Int) : clientFactory M W T = none ↔ 0 < M ∧ W < 0 := by
  unfold clientFactory clientWindow
  by_cases hM : M > 0
  · rw [if_pos hM]
    by_cases hW : W < 0
    · rw [if_pos hW]; simp [hM, hW]
    · rw [if_neg hW]; simp [hM, hW]
  · rw [if_neg hM]; simp; omega

/-- Non-vacuity: a window of 2 at 2 per second. -/
example : (clientFactory 3 2 2).map (fun l => (run l [0, 0, 0, 500000000, 1000000000]).2) =
    some [true, true, false, true, true] := by decide

end Gosms.Limiter
