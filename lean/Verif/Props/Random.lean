import Verif.Model.Random

/-!
# C82: random numbers and simulated rates
-/

namespace Gosms.Random

/-- A random number from a range: with a lower bound below the upper one it is in the range, and every number of the range can come. -/
theorem randNum_range (min max : Int) (h : min < max) :
    (∀ r, ∃ x, randNum r min max = some x ∧ min ≤ x ∧ x < max) ∧
    ∀ x, min ≤ x → x < max → ∃ r, randNum r min max = some x := by
  have hn : ¬ max - min ≤ 0 := by omega
  have hp : 0 < (max - min).toNat := by omega
  refine ⟨fun r => ?_, fun x h1 h2 => ⟨(x - min).toNat, ?_⟩⟩
  · refine ⟨_, by simp only [randNum, intn, if_neg hn, Option.map_some]; rfl, ?_, ?_⟩
    · omega
    · have := Nat.mod_lt r hp
      omega
  · simp only [randNum, intn, if_neg hn, Option.map_some, Option.some.injEq]
    rw [Nat.mod_eq_of_lt (by omega)]
    omega

/-- It panics otherwise: an empty or inverted range has no value. -/
theorem randNum_empty_fails (r : Nat) (min max : Int) (h : max ≤ min) : randNum r min max = none := by
  simp only [randNum, intn, if_pos (show max - min ≤ 0 by omega), Option.map_none]

theorem length_filter_le (n k : Nat) (h : k < n) : ((List.range n).filter fun i => decide (i ≤ k)).length = k + 1 := by
  have : n = (k + 1) + (n - (k + 1)) := by omega
  rw [this, List.range_add, List.filter_append, List.length_append]
  have h1 : ((List.range (k + 1)).filter fun i => decide (i ≤ k)) = List.range (k + 1) := by
    rw [List.filter_eq_self]
    intro a ha
    rw [List.mem_range] at ha
    simpa using Nat.le_of_lt_succ ha
  have h2 : ((List.map (fun x => k + 1 + x) (List.range (n - (k + 1)))).filter fun i => decide (i ≤ k)) = [] := by
    rw [List.filter_eq_nil_iff]
    intro a ha
    obtain ⟨b, _, rfl⟩ := List.mem_map.1 ha
    simp only [decide_eq_true_eq]
    omega
  rw [h1, h2]
  simp

variable {F : Type} [LT F] [DecidableLT F]

/-- How many of the 10000 equally likely rolls pass (the dice do not say stop) at the configured rate. -/
def passing (q : Nat → F) (rate : F) : Nat := ((List.range 10000).filter fun r => !diceCheck q r rate).length

/-- The order of the floating point numbers as far as it is used: `q k`, the number k / 10000, grows with k. -/
structure Ordered (q : Nat → F) : Prop where
  mono : ∀ i j, i < j → q i < q j
  irrefl : ∀ a : F, ¬ a < a
  trans : ∀ a b c : F, a < b → b < c → a < c

theorem Ordered.lt_iff {q : Nat → F} (h : Ordered q) (i j : Nat) : q i < q j ↔ i < j := by
  refine ⟨fun hq => ?_, h.mono i j⟩
  rcases Nat.lt_trichotomy i j with hl | rfl | hl
  · exact hl
  · exact absurd hq (h.irrefl _)
  · exact absurd (h.trans _ _ _ hq (h.mono _ _ hl)) (h.irrefl _)

/-- C82: with a success rate of k / 10000, k + 1 of 10000 rolls succeed: one more than the rate says. (Rate 1 and more: all.) -/
theorem rate_partial (q : Nat → F) (h : Ordered q) (k : Nat) (hk : k ≤ 9999) : passing q (q k) = k + 1 := by
  unfold passing diceCheck
  have key : ((List.range 10000).filter fun r => !decide (q k < q (r % 10000))) =
      (List.range 10000).filter fun i => decide (i ≤ k) := ?key
  · rw [key, length_filter_le 10000 k (by omega)]
  apply List.filter_congr
  intro i hi
  rw [List.mem_range] at hi
  rw [Nat.mod_eq_of_lt hi]
  have := h.lt_iff k i
  by_cases hki : k < i
  · simp [this.2 hki, hki]
  · have h1 : ¬ q k < q i := fun hh => hki (this.1 hh)
    simp [h1, Nat.le_of_not_lt hki]

/-- A rate of at least 0.9999 lets everything pass. -/
theorem rate_one (q : Nat → F) (rate : F) (h : ∀ k, k < 10000 → ¬ rate < q k) : passing q rate = 10000 := by
  unfold passing diceCheck
  have : ((List.range 10000).filter fun r => !decide (rate < q (r % 10000))) = List.range 10000 := by
    rw [List.filter_eq_self]
    intro a ha
    have := h (a % 10000) (Nat.mod_lt _ (by decide))
    simp [this]
  rw [this, List.length_range]

/-- C82 fails: a success rate of 0 still lets one roll in 10000 pass. -/
theorem rate_zero_fails (q : Nat → F) (h : Ordered q) : passing q (q 0) = 1 ∧ diceCheck q 0 (q 0) = false := by
  refine ⟨rate_partial q h 0 (by decide), ?_⟩
  simp only [diceCheck, Nat.zero_mod, decide_eq_false_iff_not]
  exact h.irrefl _

/-- Numbers that behave so: ten-thousandths as natural numbers. The shipped rate 0.96 passes 9601 of 10000. -/
example : Ordered (fun k : Nat => k) ∧ passing (fun k : Nat => k) 9600 = 9601 :=
  ⟨⟨fun _ _ h => h, Nat.lt_irrefl, fun _ _ _ => Nat.lt_trans⟩,
    rate_partial (fun k : Nat => k) ⟨fun _ _ h => h, Nat.lt_irrefl, fun _ _ _ => Nat.lt_trans⟩ 9600 (by decide)⟩

/-- The shipped processing times, 1 to 3 ms: 1 or 2. -/
example : randNum 0 1 3 = some 1 ∧ randNum 1 1 3 = some 2 ∧ randNum 7 0 0 = none := by decide

end Gosms.Random
