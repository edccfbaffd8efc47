import Verif.Model.Utils

/-! Helper lemmas for the model of utils/utils.go. -/

namespace Gosms

theorem trimStr_nil : trimStr [] = [] := rfl

theorem trimStr_cons (x : UInt8) (b : Bytes) :
    trimStr (x :: b) = if x = 0 then [] else x :: trimStr b := by
  unfold trimStr indexZero
  rw [List.findIdx?_cons]
  by_cases hx : x = 0
  · simp [hx]
  · simp only [beq_iff_eq, hx, if_false]
    cases List.findIdx? (fun x => x == 0) b <;> simp

theorem trimStr_eq_takeWhile (b : Bytes) : trimStr b = b.takeWhile (· ≠ 0) := by
  induction b with
  | nil => rfl
  | cons x b ih =>
    rw [trimStr_cons]
    by_cases hx : x = 0
    · simp [hx]
    · simp [hx, ih]

theorem trimStr_of_no_zero {s : Bytes} (h : 0 ∉ s) : trimStr s = s := by
  induction s with
  | nil => rfl
  | cons x s ih =>
    simp only [List.mem_cons, not_or] at h
    rw [trimStr_cons, if_neg (fun e => h.1 e.symm), ih h.2]

theorem trimStr_append_zero {s : Bytes} (h : 0 ∉ s) (t : Bytes) : trimStr (s ++ 0 :: t) = s := by
  induction s with
  | nil => simp [trimStr_cons]
  | cons x s ih =>
    simp only [List.mem_cons, not_or] at h
    rw [List.cons_append, trimStr_cons, if_neg (fun e => h.1 e.symm), ih h.2]

theorem trimStr_append_zeros {s : Bytes} (h : 0 ∉ s) (n : Nat) : trimStr (s ++ zeros n) = s := by
  cases n with
  | zero => simp [trimStr_of_no_zero h]
  | succ n =>
    have : zeros (n + 1) = 0 :: zeros n := rfl
    rw [this, trimStr_append_zero h]

/-- What a receiver gets back from a fixed-width field. -/
theorem trimStr_pad {n : Nat} {s : Bytes} (h : s.length ≤ n) (h0 : 0 ∉ s) : trimStr (pad n s) = s := by
  rw [pad_of_le h, trimStr_append_zeros h0]

theorem zero_not_mem_trimStr (b : Bytes) : 0 ∉ trimStr b := by
  induction b with
  | nil => simp [trimStr_nil]
  | cons x b ih =>
    rw [trimStr_cons]
    by_cases hx : x = 0
    · simp [hx]
    · rw [if_neg hx]
      simp only [List.mem_cons, not_or]
      exact ⟨fun e => hx e.symm, ih⟩

theorem trimStr_trimStr (b : Bytes) : trimStr (trimStr b) = trimStr b :=
  trimStr_of_no_zero (zero_not_mem_trimStr b)

theorem trimStr_take (n : Nat) (s : Bytes) (h0 : 0 ∉ s) : trimStr (pad n s) = s.take n := by
  rw [pad]
  exact trimStr_append_zeros (fun h => h0 (List.mem_of_mem_take h)) _

theorem trimStr_length_le (b : Bytes) : (trimStr b).length ≤ b.length := by
  induction b with
  | nil => simp [trimStr_nil]
  | cons x b ih => rw [trimStr_cons]; split <;> simp; omega

theorem mapM_option_eq_some {α β : Type} (f : α → Option β) (g : α → β) (l : List α)
    (h : ∀ a ∈ l, f a = some (g a)) : l.mapM f = some (l.map g) := by
  induction l with
  | nil => rfl
  | cons a l ih =>
    rw [List.mapM_cons, h a (by simp), ih fun b hb => h b (by simp [hb])]
    rfl

/-! decimal digits -/

theorem digit_toNat {d : Nat} (h : d < 10) : (digit d).toNat = 0x30 + d := by
  rw [digit, u8_ofNat_toNat (by omega)]

theorem atoi_append_digit (s : Bytes) {d : Nat} (h : d < 10) :
    atoi (s ++ [digit d]) = atoi s * 10 + d := by
  simp only [atoi, List.foldl_append, List.foldl_cons, List.foldl_nil]
  rw [digit_toNat h]; omega

theorem atoi_dec (v : Nat) : atoi (dec v) = v := by
  induction v using Nat.strongRecOn with
  | _ v ih =>
    unfold dec
    split
    · rename_i h
      have := atoi_append_digit [] h
      simpa [atoi] using this
    · rw [atoi_append_digit _ (by omega), ih (v / 10) (by omega)]; omega

/-- fixed-width decimal: the last `n` decimal digits of `v` -/
def fixDec : Nat → Nat → Bytes
  | 0, _ => []
  | n + 1, v => fixDec n (v / 10) ++ [digit (v % 10)]

@[simp] theorem length_fixDec (n v : Nat) : (fixDec n v).length = n := by
  induction n generalizing v with
  | zero => rfl
  | succ n ih => simp [fixDec, ih]

theorem atoi_fixDec (n v : Nat) : atoi (fixDec n v) = v % 10 ^ n := by
  induction n generalizing v with
  | zero => simp [fixDec, atoi, Nat.mod_one]
  | succ n ih =>
    rw [fixDec, atoi_append_digit _ (by omega), ih, Nat.pow_succ, Nat.mul_comm (10 ^ n) 10,
      Nat.mod_mul]
    omega

theorem fixDec_zero (n : Nat) : fixDec n 0 = List.replicate n 0x30 := by
  induction n with
  | zero => rfl
  | succ n ih =>
    rw [fixDec, Nat.zero_div, ih, List.replicate_succ']
    rfl

theorem length_dec_pos (v : Nat) : 1 ≤ (dec v).length := by
  unfold dec; split <;> simp

/-- Left-padding with '0' gives the fixed-width form. -/
theorem padLeft_dec (n v : Nat) (hn : 1 ≤ n) (h : v < 10 ^ n) :
    (dec v).length ≤ n ∧ List.replicate (n - (dec v).length) 0x30 ++ dec v = fixDec n v := by
  induction n generalizing v with
  | zero => omega
  | succ n ih =>
    unfold dec
    split
    · rename_i hv
      refine ⟨by simp, ?_⟩
      rw [fixDec, Nat.mod_eq_of_lt hv, Nat.div_eq_of_lt hv, fixDec_zero]
      simp
    · rename_i hv
      have hn1 : 1 ≤ n := by
        rcases Nat.eq_zero_or_pos n with h0 | h0
        · subst h0; omega
        · exact h0
      have hlt : v / 10 < 10 ^ n := by
        rw [Nat.pow_succ] at h; omega
      obtain ⟨h1, h2⟩ := ih (v / 10) hn1 hlt
      refine ⟨by simp; omega, ?_⟩
      rw [fixDec, ← h2]
      simp only [List.length_append, List.length_singleton, List.append_assoc]
      congr 2
      omega

theorem fixDec_add (n m v : Nat) : fixDec (n + m) v = fixDec n (v / 10 ^ m) ++ fixDec m v := by
  induction m generalizing v with
  | zero => simp [fixDec]
  | succ m ih =>
    rw [← Nat.add_assoc, fixDec, ih, fixDec, ← List.append_assoc, Nat.div_div_eq_div_mul,
      Nat.pow_succ, Nat.mul_comm 10]

theorem fixDec_mod (n v : Nat) : fixDec n (v % 10 ^ n) = fixDec n v := by
  induction n generalizing v with
  | zero => rfl
  | succ n ih =>
    rw [fixDec, fixDec]
    have h1 : v % 10 ^ (n + 1) / 10 = v / 10 % 10 ^ n := by
      rw [Nat.pow_succ, Nat.mul_comm, Nat.mod_mul]
      omega
    have h2 : v % 10 ^ (n + 1) % 10 = v % 10 :=
      Nat.mod_mod_of_dvd _ ⟨10 ^ n, by rw [Nat.pow_succ, Nat.mul_comm]⟩
    rw [h1, h2, ih]

theorem d2_eq_fixDec (n : Nat) : d2 n = fixDec 2 n := rfl

theorem fixDec_inj {n a b : Nat} (ha : a < 10 ^ n) (hb : b < 10 ^ n)
    (h : fixDec n a = fixDec n b) : a = b := by
  have := congrArg atoi h
  rwa [atoi_fixDec, atoi_fixDec, Nat.mod_eq_of_lt ha, Nat.mod_eq_of_lt hb] at this

/-- a string of `n` digits is the fixed-width form of its value -/
theorem fixDec_atoi (s : Bytes) (h : ∀ c ∈ s, 0x30 ≤ c.toNat ∧ c.toNat ≤ 0x39) :
    fixDec s.length (atoi s) = s ∧ atoi s < 10 ^ s.length := by
  induction s using snoc_induction with
  | nil => simp [fixDec, atoi]
  | snoc s x ih =>
    obtain ⟨h1, h2⟩ := ih fun c hc => h c (by simp [hc])
    have hx := h x (by simp)
    have hd : x = digit (x.toNat - 0x30) := by
      have : 0x30 + (x.toNat - 0x30) = x.toNat := by omega
      rw [digit, this]; simp
    have e : atoi (s ++ [x]) = atoi s * 10 + (x.toNat - 0x30) := by
      simp [atoi, List.foldl_append]
    have e1 : (atoi s * 10 + (x.toNat - 0x30)) / 10 = atoi s := by omega
    have e2 : (atoi s * 10 + (x.toNat - 0x30)) % 10 = x.toNat - 0x30 := by omega
    rw [e, List.length_append, List.length_singleton, fixDec, e1, e2, h1, ← hd, Nat.pow_succ]
    exact ⟨rfl, by omega⟩

/-! hexadecimal -/

theorem length_hexLoop (v k : Nat) : (hexLoop v k).length = k + 1 := by
  induction k with
  | zero => rfl
  | succ k ih => simp [hexLoop, ih]

theorem and15 (n : Nat) : n &&& 0x0f = n % 16 := Nat.and_two_pow_sub_one_eq_mod n 4

end Gosms
