import Verif.Model.Sequences

namespace Gosms

/-! ## C05, C06: CycleSequence -/

theorem nat_shl_mod_low (x a b c : Nat) (h1 : c ≤ a) (h2 : c ≤ b) :
    x * 2 ^ a % 2 ^ b % 2 ^ c = 0 := by
  rw [Nat.mod_mod_of_dvd _ (Nat.pow_dvd_pow 2 h2)]
  exact Nat.mod_eq_zero_of_dvd (Nat.dvd_mul_left_of_dvd (Nat.pow_dvd_pow 2 h1) _)

theorem nat_hi31 (x : Nat) : x * 2 ^ 31 % 2 ^ 32 / 2 ^ 28 = x % 2 * 8 := by omega
theorem nat_hi28 (x : Nat) : x * 2 ^ 28 % 2 ^ 32 / 2 ^ 28 = x % 16 := by omega
theorem nat_hi0 (k : Nat) (h : k < 2 ^ 26) : k % 2 ^ 32 / 2 ^ 28 = 0 := by omega

theorem mask26 (x : BitVec 32) : (x &&& 0x03ffffff#32).toNat = x.toNat % 2 ^ 26 := by
  rw [BitVec.toNat_and]
  exact Nat.and_two_pow_sub_one_eq_mod x.toNat 26

theorem cycle_nth (s : CycleSeq) (hs : s.sequence.toNat < 2 ^ 26) (n : Nat) :
    s.nth n = (s.datacenter <<< 31) ||| (s.worker <<< 28) |||
      BitVec.ofNat 32 ((s.sequence.toNat + (n + 1)) % 2 ^ 26) := by
  have hstep : ∀ t : CycleSeq, t.sequence.toNat < 2 ^ 26 →
      t.nextVal.2.sequence.toNat = (t.sequence.toNat + 1) % 2 ^ 26 := by
    intro t ht
    simp only [CycleSeq.nextVal, mask26, BitVec.toNat_add]
    have : (1 : BitVec 32).toNat = 1 := rfl
    rw [this]; omega
  induction n generalizing s with
  | zero =>
    simp only [CycleSeq.nth, CycleSeq.nextVal]
    congr 1
    apply BitVec.eq_of_toNat_eq
    have := hstep s hs
    simp only [CycleSeq.nextVal] at this
    rw [this, BitVec.toNat_ofNat]; omega
  | succ n ih =>
    rw [CycleSeq.nth, ih s.nextVal.2 (by rw [hstep s hs]; omega), hstep s hs]
    have e1 : s.nextVal.2.datacenter = s.datacenter := rfl
    have e2 : s.nextVal.2.worker = s.worker := rfl
    rw [e1, e2]
    congr 2
    omega

/-- The low 26 bits of a value are the counter. -/
theorem cycle_low_bits (d w : BitVec 32) (k : Nat) (hk : k < 2 ^ 26) :
    ((d <<< 31) ||| (w <<< 28) ||| BitVec.ofNat 32 k).toNat % 2 ^ 26 = k := by
  rw [BitVec.toNat_or, BitVec.toNat_or, BitVec.toNat_shiftLeft, BitVec.toNat_shiftLeft,
    BitVec.toNat_ofNat, Nat.or_mod_two_pow, Nat.or_mod_two_pow, Nat.shiftLeft_eq, Nat.shiftLeft_eq]
  have h1 : d.toNat * 2 ^ 31 % 2 ^ 32 % 2 ^ 26 = 0 := nat_shl_mod_low _ _ _ _ (by decide) (by decide)
  have h2 : w.toNat * 2 ^ 28 % 2 ^ 32 % 2 ^ 26 = 0 := nat_shl_mod_low _ _ _ _ (by decide) (by decide)
  have h3 : k % 2 ^ 32 % 2 ^ 26 = k := by omega
  rw [h1, h2, h3]; simp

/-- The high bits: bits 28-30 are the worker, bit 31 the lowest bit of the data center. -/
theorem cycle_high_bits (d w : BitVec 32) (k : Nat) (hk : k < 2 ^ 26) :
    ((d <<< 31) ||| (w <<< 28) ||| BitVec.ofNat 32 k).toNat / 2 ^ 28 =
      (d.toNat % 2 * 8) ||| (w.toNat % 16) := by
  rw [BitVec.toNat_or, BitVec.toNat_or, BitVec.toNat_shiftLeft, BitVec.toNat_shiftLeft,
    BitVec.toNat_ofNat, ← Nat.shiftRight_eq_div_pow, Nat.shiftRight_or_distrib,
    Nat.shiftRight_or_distrib, Nat.shiftLeft_eq, Nat.shiftLeft_eq, Nat.shiftRight_eq_div_pow,
    Nat.shiftRight_eq_div_pow, Nat.shiftRight_eq_div_pow]
  have h1 : d.toNat * 2 ^ 31 % 2 ^ 32 / 2 ^ 28 = d.toNat % 2 * 8 := nat_hi31 _
  have h2 : w.toNat * 2 ^ 28 % 2 ^ 32 / 2 ^ 28 = w.toNat % 16 := nat_hi28 _
  have h3 : k % 2 ^ 32 / 2 ^ 28 = 0 := nat_hi0 k hk
  rw [h1, h2, h3]; simp

theorem new_seq_lt (d w : BitVec 32) : (newCycleSequence d w).sequence.toNat < 2 ^ 26 :=
  (by decide : (0 : BitVec 32).toNat < 2 ^ 26)

/-- **C05.** Two calls of the same generator at positions `i`, `j` return the same value exactly when
`i` and `j` differ by a multiple of 2^26; in particular 2^26 consecutive values are all different. -/
theorem cycle_unique (d w : BitVec 32) (i j : Nat) :
    (newCycleSequence d w).nth i = (newCycleSequence d w).nth j ↔ i % 2 ^ 26 = j % 2 ^ 26 := by
  rw [cycle_nth _ (new_seq_lt _ _), cycle_nth _ (new_seq_lt _ _)]
  simp only [newCycleSequence]
  have z : (0 : BitVec 32).toNat = 0 := rfl
  rw [z, Nat.zero_add, Nat.zero_add]
  constructor
  · intro h
    have := congrArg (fun x : BitVec 32 => x.toNat % 2 ^ 26) h
    rw [cycle_low_bits _ _ _ (by omega), cycle_low_bits _ _ _ (by omega)] at this
    omega
  · intro h
    have : (i + 1) % 2 ^ 26 = (j + 1) % 2 ^ 26 := by omega
    rw [this]

/-- C05 in the form used by callers: within any window of 2^26 calls values are pairwise distinct. -/
theorem cycle_window_nodup (d w : BitVec 32) (start : Nat) :
    ((List.range (2 ^ 26)).map fun k => (newCycleSequence d w).nth (start + k)).Nodup := by
  rw [List.nodup_iff_pairwise_ne, List.pairwise_map]
  apply List.Pairwise.imp_of_mem _ (List.pairwise_lt_range (n := 2 ^ 26))
  intro a b ha hb hab heq
  rw [List.mem_range] at ha hb
  rw [cycle_unique] at heq
  omega

example : (newCycleSequence 1 2).nth 0 = 0xA0000001#32 ∧ (newCycleSequence 1 2).nth 4 = 0xA0000005#32 := by
  decide

/-- **C06 (what holds).** Generators with different workers 0-7 never return the same value, whatever
the data center; neither do generators whose data centers differ in parity. Missing: data centers
0/2 and 1/3 are not separated, see `cycle_datacenter_collision_fails`. -/
theorem cycle_nodes_disjoint_partial (d1 w1 d2 w2 : BitVec 32) (hw1 : w1.toNat < 8)
    (hw2 : w2.toNat < 8) (h : w1 ≠ w2 ∨ d1.toNat % 2 ≠ d2.toNat % 2) (i j : Nat) :
    (newCycleSequence d1 w1).nth i ≠ (newCycleSequence d2 w2).nth j := by
  intro heq
  rw [cycle_nth _ (new_seq_lt _ _), cycle_nth _ (new_seq_lt _ _)] at heq
  have := congrArg (fun x : BitVec 32 => x.toNat / 2 ^ 28) heq
  simp only [newCycleSequence] at this
  rw [cycle_high_bits _ _ _ (Nat.mod_lt _ (by decide)),
    cycle_high_bits _ _ _ (Nat.mod_lt _ (by decide))] at this
  have g : ∀ a b : Nat, a < 8 → (b * 8 ||| a) = b * 8 + a := by
    intro a b ha
    have := Nat.shiftLeft_add_eq_or_of_lt (i := 3) (b := a) ha b
    rw [Nat.shiftLeft_eq] at this
    exact this.symm
  rw [Nat.mod_eq_of_lt (by omega : w1.toNat < 16), Nat.mod_eq_of_lt (by omega : w2.toNat < 16),
    g _ _ hw1, g _ _ hw2] at this
  rcases h with h | h
  · apply h
    apply BitVec.eq_of_toNat_eq
    omega
  · omega

/-- **C06 fails**: generators of the same worker whose data centers are both even or both odd, as 0 and 2 or 1 and 3 of the documented range 0-3,
return the same value on every call. -/
theorem cycle_datacenter_collision_fails (d1 d2 w : BitVec 32) (h : d1.toNat % 2 = d2.toNat % 2) (n : Nat) :
    (newCycleSequence d1 w).nth n = (newCycleSequence d2 w).nth n := by
  rw [cycle_nth _ (new_seq_lt _ _), cycle_nth _ (new_seq_lt _ _)]
  have : d1 <<< 31 = d2 <<< 31 := by
    apply BitVec.eq_of_toNat_eq
    rw [BitVec.toNat_shiftLeft, BitVec.toNat_shiftLeft, Nat.shiftLeft_eq, Nat.shiftLeft_eq]
    omega
  simp only [newCycleSequence, this]

example : (0 : BitVec 32).toNat % 2 = (2 : BitVec 32).toNat % 2 ∧ (newCycleSequence 0 5).nth 6 = (newCycleSequence 2 5).nth 6 ∧
    (newCycleSequence 0 5).nth 6 = 0x50000007#32 := by decide

/-- So two generators have a value in common exactly when their workers are the same and their data centers are both even or both odd. -/
theorem cycle_nodes_collide_iff (d1 w1 d2 w2 : BitVec 32) (hw1 : w1.toNat < 8) (hw2 : w2.toNat < 8) :
    (∃ i j, (newCycleSequence d1 w1).nth i = (newCycleSequence d2 w2).nth j) ↔ w1 = w2 ∧ d1.toNat % 2 = d2.toNat % 2 := by
  constructor
  · rintro ⟨i, j, h⟩
    by_cases hw : w1 = w2
    · by_cases hd : d1.toNat % 2 = d2.toNat % 2
      · exact ⟨hw, hd⟩
      · exact absurd h (cycle_nodes_disjoint_partial d1 w1 d2 w2 hw1 hw2 (.inr hd) i j)
    · exact absurd h (cycle_nodes_disjoint_partial d1 w1 d2 w2 hw1 hw2 (.inl hw) i j)
  · rintro ⟨rfl, hd⟩
    exact ⟨0, 0, cycle_datacenter_collision_fails d1 d2 w1 hd 0⟩

end Gosms
