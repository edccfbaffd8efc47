import Verif.Lemmas.Utils
import Verif.Spec.Utils

/-!
# Properties of utils/utils.go
C01 octet strings, C02 hexadecimal ids, C16 coding decision, C17 UCS2, C18-C20 long messages,
and the agreement of the two results of `Now` (used by C25).
-/

namespace Gosms

/-! ## C01 -/

/-- `OctetString(s, n)` has exactly `n` bytes: `s` and NULs if `s` is short, a suffix of `s` if it
is long. -/
theorem octetString_exact (s : Bytes) (n : Nat) :
    (octetString s n).length = n ∧
    (s.length ≤ n → octetString s n = s ++ List.replicate (n - s.length) 0) ∧
    (n ≤ s.length → ∃ cut, s = cut ++ octetString s n) := by
  unfold octetString
  by_cases h1 : s.length = n
  · rw [if_pos h1]
    refine ⟨h1, fun _ => ?_, fun _ => ⟨[], rfl⟩⟩
    simp [h1]
  · rw [if_neg h1]
    by_cases h2 : s.length > n
    · rw [if_pos h2]
      refine ⟨by simp; omega, fun h => by omega, fun _ => ⟨s.take (s.length - n), ?_⟩⟩
      exact (List.take_append_drop _ _).symm
    · rw [if_neg h2]
      exact ⟨by simp; omega, fun _ => rfl, fun h => by omega⟩

example : octetString [0x31, 0x32, 0x33] 5 = [0x31, 0x32, 0x33, 0, 0] := by decide
example : octetString [0x31, 0x32, 0x33] 2 = [0x32, 0x33] := by decide

/-- Trimming gives a fixed-width field's string back. -/
theorem trim_octetString (s : Bytes) (n : Nat) (hlen : s.length ≤ n) (hnul : 0 ∉ s) :
    trimStr (octetString s n) = s := by
  rw [(octetString_exact s n).2.1 hlen]
  exact trimStr_append_zeros hnul _

example : ([0x31, 0x32] : Bytes).length ≤ 4 ∧ (0 : UInt8) ∉ ([0x31, 0x32] : Bytes) := by decide

/-- `TrimStr` returns exactly the part before the first NUL (everything if there is none), and is
idempotent. -/
theorem trimStr_exact (b : Bytes) :
    (∃ rest, b = trimStr b ++ rest ∧ (rest = [] ∨ ∃ t, rest = 0 :: t)) ∧ 0 ∉ trimStr b ∧
    trimStr (trimStr b) = trimStr b := by
  refine ⟨?_, zero_not_mem_trimStr b, trimStr_trimStr b⟩
  induction b with
  | nil => exact ⟨[], rfl, Or.inl rfl⟩
  | cons x b ih =>
    obtain ⟨rest, h1, h2⟩ := ih
    rw [trimStr_cons]
    by_cases hx : x = 0
    · exact ⟨x :: b, by simp [hx], Or.inr ⟨b, by rw [hx]⟩⟩
    · refine ⟨rest, ?_, h2⟩
      rw [if_neg hx, List.cons_append, ← h1]

example : trimStr [0x31, 0x32, 0, 0x33] = [0x31, 0x32] := by decide

/-- A recipient list written as consecutive fixed-width fields is read back by
`Bytes2StringSlice`. -/
theorem bytes2StringSlice_fields (phones : List Bytes) (pl : Nat) (hpl : 0 < pl)
    (hne : phones ≠ []) (hfit : ∀ p ∈ phones, p.length ≤ pl ∧ 0 ∉ p) :
    bytes2StringSlice (phones.flatMap fun p => octetString p pl) pl = some phones := by
  have hoct : ∀ p ∈ phones, octetString p pl = pad pl p := by
    intro p hp
    rw [(octetString_exact p pl).2.1 (hfit p hp).1, pad_of_le (hfit p hp).1]; rfl
  have hflat : (phones.flatMap fun p => octetString p pl) = phones.flatMap (pad pl) := by
    clear hne hfit
    induction phones with
    | nil => rfl
    | cons p ps ih =>
      simp only [List.flatMap_cons]
      rw [hoct p (by simp), ih fun q hq => hoct q (by simp [hq])]
  rw [hflat]
  have hlen : (phones.flatMap (pad pl)).length = phones.length * pl := by
    clear hne hfit hoct hflat
    induction phones with
    | nil => simp
    | cons p ps ih => simp only [List.flatMap_cons, List.length_append, ih, length_pad,
        List.length_cons, Nat.add_mul]; omega
  have hget : ∀ i (hi : i < phones.length),
      ((phones.flatMap (pad pl)).drop (i * pl)).take pl = pad pl phones[i] := by
    clear hne hfit hoct hflat hlen
    induction phones with
    | nil => intro i hi; simp at hi
    | cons p ps ih =>
      intro i hi
      cases i with
      | zero =>
        simp only [List.flatMap_cons, Nat.zero_mul, List.drop_zero, List.getElem_cons_zero]
        rw [List.take_append_of_le_length (by simp), List.take_of_length_le (by simp)]
      | succ i =>
        have hi' : i < ps.length := by simpa using hi
        simp only [List.flatMap_cons, List.getElem_cons_succ]
        rw [List.drop_append]
        have h1 : (i + 1) * pl - (pad pl p).length = i * pl := by
          rw [length_pad, Nat.add_mul]; omega
        have h2 : (pad pl p).drop ((i + 1) * pl) = [] := by
          apply List.drop_eq_nil_of_le; rw [length_pad, Nat.add_mul]; omega
        rw [h1, h2, List.nil_append, ih i hi']
  unfold bytes2StringSlice
  by_cases h1 : phones.length = 1
  · obtain ⟨p, rfl⟩ := List.length_eq_one_iff.mp h1
    simp only [List.flatMap_cons, List.flatMap_nil, List.append_nil, length_pad, Nat.le_refl,
      if_true]
    rw [trimStr_pad (hfit p (by simp)).1 (hfit p (by simp)).2]
  · have h2 : 2 ≤ phones.length := by
      have := List.length_pos_iff.mpr hne; omega
    have h3 : ¬ (phones.flatMap (pad pl)).length ≤ pl := by
      rw [hlen]
      have := Nat.mul_le_mul_right pl h2
      omega
    rw [if_neg h3, if_neg (by omega), hlen, Nat.mul_div_cancel _ hpl]
    rw [mapM_option_eq_some _ (fun i => if h : i < phones.length then phones[i] else [])]
    · congr 1
      apply List.ext_getElem
      · simp
      · intro i h4 h5
        simp [h5]
    · intro i hi
      rw [List.mem_range] at hi
      rw [dif_pos hi, goSlice]
      have hb : i * pl ≤ (i + 1) * pl ∧ (i + 1) * pl ≤ (phones.flatMap (pad pl)).length := by
        rw [hlen]
        exact ⟨Nat.mul_le_mul_right _ (by omega), Nat.mul_le_mul_right _ (by omega)⟩
      rw [if_pos hb]
      have h6 : (i + 1) * pl - i * pl = pl := by rw [Nat.add_mul]; omega
      rw [h6, hget i hi]
      simp only [Option.map_some]
      have hm := hfit phones[i] (List.getElem_mem hi)
      rw [trimStr_pad hm.1 hm.2]

example : bytes2StringSlice (([[0x31, 0x33], [0x31, 0x38, 0x36]] : List Bytes).flatMap
    fun p => octetString p 4) 4 = some [[0x31, 0x33], [0x31, 0x38, 0x36]] := by decide

/-! ## C02 -/

theorem hexDigitVal_numTable {d : Nat} (h : d < 16) :
    Spec.hexDigitVal (numTable.getD d 0) = some d := by
  have : ∀ d : Fin 16, Spec.hexDigitVal (numTable.getD d.val 0) = some d.val := by decide
  exact this ⟨d, h⟩

theorem hexVal_hexLoop (v k : Nat) : ∀ a : Nat,
    (hexLoop v k).foldl
      (fun acc b => acc.bind fun a => (Spec.hexDigitVal b).map fun d => a * 16 + d) (some a)
      = some (a * 16 ^ (k + 1) + v % 16 ^ (k + 1)) := by
  induction k with
  | zero =>
    intro a
    simp only [hexLoop, List.foldl_cons, List.foldl_nil, Option.bind_some, and15]
    rw [hexDigitVal_numTable (Nat.mod_lt _ (by decide))]
    simp
  | succ k ih =>
    intro a
    simp only [hexLoop, List.foldl_cons, Option.bind_some, and15]
    rw [hexDigitVal_numTable (Nat.mod_lt _ (by decide))]
    simp only [Option.map_some]
    rw [ih]
    have e : (2 : Nat) ^ (4 * (k + 1)) = 16 ^ (k + 1) := by rw [Nat.pow_mul]
    rw [Nat.shiftRight_eq_div_pow, e]
    congr 1
    rw [Nat.pow_succ 16 (k + 1), Nat.mod_mul (x := v) (a := 16 ^ (k + 1)) (b := 16),
      Nat.add_mul, Nat.mul_assoc, Nat.mul_comm 16 (16 ^ (k + 1)),
      Nat.mul_comm (v / 16 ^ (k + 1) % 16)]
    omega

/-- The 64-bit rendering is 16 lower-case hex digits denoting the value. -/
theorem uint64HexString_value (v : UInt64) :
    (uint64HexString v).length = 16 ∧ Spec.hexVal (uint64HexString v) = some v.toNat := by
  refine ⟨length_hexLoop _ _, ?_⟩
  rw [Spec.hexVal, uint64HexString, hexVal_hexLoop]
  have h := v.toNat_lt
  congr 1
  omega

/-- The 32-bit rendering is 8 lower-case hex digits denoting the value. -/
theorem uint32HexString_value (v : UInt32) :
    (uint32HexString v).length = 8 ∧ Spec.hexVal (uint32HexString v) = some v.toNat := by
  refine ⟨length_hexLoop _ _, ?_⟩
  rw [Spec.hexVal, uint32HexString, hexVal_hexLoop]
  have h := v.toNat_lt
  congr 1
  omega

/-- Different message ids have different renderings. -/
theorem uint64HexString_injective (v w : UInt64) (h : uint64HexString v = uint64HexString w) :
    v = w := by
  have h1 := (uint64HexString_value v).2
  have h2 := (uint64HexString_value w).2
  rw [h, h2] at h1
  exact (UInt64.toNat_inj.mp (Option.some.inj h1)).symm

theorem uint32HexString_injective (v w : UInt32) (h : uint32HexString v = uint32HexString w) :
    v = w := by
  have h1 := (uint32HexString_value v).2
  have h2 := (uint32HexString_value w).2
  rw [h, h2] at h1
  exact (UInt32.toNat_inj.mp (Option.some.inj h1)).symm

example : uint32HexString 0xdeadbeef = [0x64, 0x65, 0x61, 0x64, 0x62, 0x65, 0x65, 0x66] := by decide
example : Spec.hexVal [0x64, 0x65, 0x61, 0x64] = some 0xdead := by decide

/-! ## Time stamps (used by the login properties) -/

theorem mmddhhmmss_eq_fixDec (c : Clock) (h : c.Valid) :
    c.mmddhhmmss = fixDec 10 (c.month * 100000000 + c.day * 1000000 + c.hour * 10000
      + c.minute * 100 + c.second) := by
  obtain ⟨_, h1, h2, h3, h4, h5⟩ := h
  generalize hv : c.month * 100000000 + c.day * 1000000 + c.hour * 10000 + c.minute * 100
    + c.second = v
  rw [fixDec_add 8 2, fixDec_add 6 2, fixDec_add 4 2, fixDec_add 2 2]
  simp only [Clock.mmddhhmmss, d2_eq_fixDec]
  have e : ∀ a b, a % 100 = b % 100 → fixDec 2 a = fixDec 2 b := by
    intro a b hab
    rw [← fixDec_mod 2 a, ← fixDec_mod 2 b]
    congr 1
  congr 1
  · congr 1
    · congr 1
      · congr 1
        · exact e _ _ (by omega)
        · exact e _ _ (by omega)
      · exact e _ _ (by omega)
    · exact e _ _ (by omega)
  · exact e _ _ (by omega)

/-- The two results of `Now` agree: rendering the number with `TimeStamp2Str` gives the string.
The server recomputes the digest from the number, the client from the string. -/
theorem now_consistent (c : Clock) (h : c.Valid) :
    timeStamp2Str (now c).2 = (now c).1 ∧ (now c).1.length = 10 := by
  rw [now, mmddhhmmss_eq_fixDec c h]
  obtain ⟨_, h1, h2, h3, h4, h5⟩ := h
  generalize hv : c.month * 100000000 + c.day * 1000000 + c.hour * 10000 + c.minute * 100
    + c.second = v
  have hlt : v < 10 ^ 10 := by omega
  have h32 : v < 4294967296 := by omega
  refine ⟨?_, by simp⟩
  simp only [atoi_fixDec, Nat.mod_eq_of_lt hlt, timeStamp2Str]
  have e : (UInt32.ofNat v).toNat = v := by simp only [UInt32.toNat_ofNat']; omega
  rw [e]
  exact (padLeft_dec 10 v (by omega) hlt).2

example : (Clock.mk 23 2 3 4 5 6).Valid := ⟨by decide, by decide, by decide, by decide, by decide, by decide⟩
example : timeStamp2Str (now (Clock.mk 23 2 3 4 5 6)).2 = ascii "0203040506" := by
  rw [(now_consistent (Clock.mk 23 2 3 4 5 6) ⟨by decide, by decide, by decide, by decide,
    by decide, by decide⟩).1]
  decide

/-! ## C16 -/

theorem length_runes_utf8 (cs : List Char) :
    (runes (utf8 cs)).length ≤ (utf8 cs).length ∧
    ((utf8 cs).length = (runes (utf8 cs)).length ↔ ∀ c ∈ cs, c.toNat < 128) := by
  rw [runes_utf8]
  induction cs with
  | nil => simp [utf8]
  | cons c cs ih =>
    obtain ⟨h1, h2⟩ := ih
    have hp := length_utf8Enc_pos c.toNat
    rw [utf8_cons, List.length_append]
    simp only [List.map_cons, List.length_cons, List.mem_cons, forall_eq_or_imp]
    rw [← h2, ← length_utf8Enc_one (r := c.toNat)]
    constructor
    · omega
    · omega

/-- `MsgFmt` chooses the 7-bit coding exactly for ASCII texts, and UCS2 for all others. -/
theorem msgFmt_ascii_iff (cs : List Char) :
    (msgFmt (utf8 cs) = 0 ↔ ∀ c ∈ cs, c.toNat < 128) ∧
    (msgFmt (utf8 cs) = 8 ↔ ∃ c ∈ cs, 128 ≤ c.toNat) := by
  have key : msgFmt (utf8 cs) = 0 ↔ ∀ c ∈ cs, c.toNat < 128 := by
    obtain ⟨h1, h2⟩ := length_runes_utf8 cs
    rw [← h2]
    unfold msgFmt
    split
    · rename_i hlt
      simp only [true_iff]
      rw [runes_utf8, List.length_map] at *
      cases cs with
      | nil => simp [utf8]
      | cons c cs =>
        have := length_utf8Enc_pos c.toNat
        rw [utf8_cons, List.length_append] at hlt ⊢
        cases cs with
        | nil => simp [utf8] at hlt ⊢; omega
        | cons c' cs =>
          have := length_utf8Enc_pos c'.toNat
          rw [utf8_cons, List.length_append] at hlt; omega
    · split
      · simp [*]
      · rename_i hne
        constructor
        · intro h; exact absurd h (by decide)
        · intro h; exact absurd h hne
  refine ⟨key, ?_⟩
  have h08 : msgFmt (utf8 cs) = 0 ∨ msgFmt (utf8 cs) = 8 := by
    unfold msgFmt; split
    · exact Or.inl rfl
    · split
      · exact Or.inl rfl
      · exact Or.inr rfl
  constructor
  · intro h8
    apply Classical.byContradiction
    intro hn
    have : msgFmt (utf8 cs) = 0 := key.mpr fun c hc => by
      apply Classical.byContradiction
      intro h; exact hn ⟨c, hc, by omega⟩
    rw [this] at h8; exact absurd h8 (by decide)
  · rintro ⟨c, hc, h128⟩
    rcases h08 with h0 | h8
    · have := key.mp h0 c hc; omega
    · exact h8

example : msgFmt (utf8 "hello".toList) = 0 ∧ msgFmt (utf8 "你好".toList) = 8 := by
  constructor
  · exact (msgFmt_ascii_iff _).1.mpr (by decide)
  · exact (msgFmt_ascii_iff _).2.mpr ⟨'你', by decide, by decide⟩

/-- `Utf8ToUcs2` rejects exactly the byte strings that are not the UTF-8 form of a text. -/
theorem utf8ToUcs2_error_iff (s : Bytes) :
    utf8ToUcs2 s = none ↔ ¬ ∃ cs : List Char, s = utf8 cs := by
  rw [← validUtf8_iff, utf8ToUcs2]
  split <;> simp [*]

/-! ## C17 -/

/-- UCS2 transcoding is lossless for every text, with 2 bytes per BMP character and 4 for the
others. -/
theorem ucs2_roundtrip (cs : List Char) :
    ∃ u, utf8ToUcs2 (utf8 cs) = some u ∧ ucs2ToUtf8 u = utf8 cs ∧
      u.length = (cs.map fun c => if c.toNat < 0x10000 then 2 else 4).sum := by
  refine ⟨(cs.map Char.toNat).flatMap utf16Enc, ?_, ?_, ?_⟩
  · rw [utf8ToUcs2, validUtf8_utf8, runes_utf8]; simp
  · rw [ucs2ToUtf8, List.flatMap_map, decode16_utf16, List.flatMap_map]
    rfl
  · induction cs with
    | nil => rfl
    | cons c cs ih =>
      simp only [List.map_cons, List.flatMap_cons, List.length_append, List.sum_cons, ih]
      congr 1
      unfold utf16Enc; split <;> simp

example : utf8ToUcs2 (utf8 ['A', '你', '😀']) =
    some [0x00, 0x41, 0x4F, 0x60, 0xD8, 0x3D, 0xDE, 0x00] := by
  have h : utf8ToUcs2 (utf8 ['A', '你', '😀']) =
      some ((['A', '你', '😀'].map Char.toNat).flatMap utf16Enc) := by
    rw [utf8ToUcs2, validUtf8_utf8, runes_utf8]; simp
  rw [h]; decide

end Gosms
