import Verif.Go.Bytes

/-!
# Go's view of text: UTF-8 byte strings and runes

`[]rune(s)`, `range s`, `utf8.ValidString` (standard library `unicode/utf8`), and the UTF-16BE
transcoders of `golang.org/x/text/encoding/unicode` used by `utils.Utf8ToUcs2`/`Ucs2ToUtf8`.
-/

set_option linter.unusedSimpArgs false

namespace Gosms

/-- UTF-8 encoding of one code point (`utf8.AppendRune`, standard library). -/
def utf8Enc (r : Nat) : Bytes :=
  if r < 0x80 then [UInt8.ofNat r]
  else if r < 0x800 then [UInt8.ofNat (0xC0 + r / 64), UInt8.ofNat (0x80 + r % 64)]
  else if r < 0x10000 then
    [UInt8.ofNat (0xE0 + r / 4096), UInt8.ofNat (0x80 + r / 64 % 64), UInt8.ofNat (0x80 + r % 64)]
  else
    [UInt8.ofNat (0xF0 + r / 262144), UInt8.ofNat (0x80 + r / 4096 % 64),
     UInt8.ofNat (0x80 + r / 64 % 64), UInt8.ofNat (0x80 + r % 64)]

/-- The UTF-8 byte string of a text. -/
def utf8 (cs : List Char) : Bytes := cs.flatMap fun c => utf8Enc c.toNat

/-- `utf8.DecodeRune` on a non-empty string `b0 :: rest` (standard library): the code point and the
number of *further* bytes it uses, or `none` for an invalid sequence (which Go reports as
U+FFFD of width 1). -/
def decodeMulti (b0 : UInt8) (rest : Bytes) : Option (Nat × Nat) :=
  let c := b0.toNat
  if c < 0x80 then some (c, 0)
  else if c < 0xC2 then none
  else if c < 0xE0 then
    match rest with
    | b1 :: _ =>
      if 0x80 ≤ b1.toNat ∧ b1.toNat ≤ 0xBF then some ((c - 0xC0) * 64 + (b1.toNat - 0x80), 1) else none
    | _ => none
  else if c < 0xF0 then
    match rest with
    | b1 :: b2 :: _ =>
      if 0x80 ≤ b1.toNat ∧ b1.toNat ≤ 0xBF ∧ (c = 0xE0 → 0xA0 ≤ b1.toNat) ∧
          (c = 0xED → b1.toNat ≤ 0x9F) ∧ 0x80 ≤ b2.toNat ∧ b2.toNat ≤ 0xBF then
        some ((c - 0xE0) * 4096 + (b1.toNat - 0x80) * 64 + (b2.toNat - 0x80), 2)
      else none
    | _ => none
  else if c < 0xF5 then
    match rest with
    | b1 :: b2 :: b3 :: _ =>
      if 0x80 ≤ b1.toNat ∧ b1.toNat ≤ 0xBF ∧ (c = 0xF0 → 0x90 ≤ b1.toNat) ∧
          (c = 0xF4 → b1.toNat ≤ 0x8F) ∧ 0x80 ≤ b2.toNat ∧ b2.toNat ≤ 0xBF ∧
          0x80 ≤ b3.toNat ∧ b3.toNat ≤ 0xBF then
        some ((c - 0xF0) * 262144 + (b1.toNat - 0x80) * 4096 + (b2.toNat - 0x80) * 64
          + (b3.toNat - 0x80), 3)
      else none
    | _ => none
  else none

/-- `[]rune(s)` / the runes of `range s`: invalid bytes become U+FFFD. -/
def runes : Bytes → List Nat
  | [] => []
  | b0 :: rest =>
    match decodeMulti b0 rest with
    | some (r, n) => r :: runes (rest.drop n)
    | none => 0xFFFD :: runes rest
termination_by b => b.length
decreasing_by all_goals (simp only [List.length_cons, List.length_drop]; omega)

/-- `utf8.ValidString(s)` -/
def validUtf8 : Bytes → Bool
  | [] => true
  | b0 :: rest =>
    match decodeMulti b0 rest with
    | some (_, n) => validUtf8 (rest.drop n)
    | none => false
termination_by b => b.length
decreasing_by all_goals (simp only [List.length_cons, List.length_drop]; omega)

/-- UTF-16BE bytes of one code point (`x/text` UTF-16 encoder, big endian, no BOM). -/
def utf16Enc (r : Nat) : Bytes :=
  if r < 0x10000 then toBE 2 r
  else toBE 2 (0xD800 + (r - 0x10000) / 1024) ++ toBE 2 (0xDC00 + (r - 0x10000) % 1024)

/-- `utf16.DecodeRune` (standard library). -/
def surrogatePair (x y : Nat) : Nat :=
  if 0xD800 ≤ x ∧ x < 0xDC00 ∧ 0xDC00 ≤ y ∧ y < 0xE000 then
    (x - 0xD800) * 1024 + (y - 0xDC00) + 0x10000
  else 0xFFFD

/-- The next 16-bit unit, if there is one and it is a low surrogate. -/
def lowNext : Bytes → Option Nat
  | c :: d :: _ =>
    if 0xDC00 ≤ c.toNat * 256 + d.toNat ∧ c.toNat * 256 + d.toNat < 0xE000 then
      some (c.toNat * 256 + d.toNat)
    else none
  | _ => none

/-- `x/text` UTF-16 decoder, big endian, ignoring BOMs: code points of a byte string. Unpaired
surrogates and a trailing odd byte become U+FFFD. -/
def decode16 : Bytes → List Nat
  | [] => []
  | [_] => [0xFFFD]
  | a :: b :: rest =>
    if 0xD800 ≤ a.toNat * 256 + b.toNat ∧ a.toNat * 256 + b.toNat < 0xE000 then
      match lowNext rest with
      | some y => surrogatePair (a.toNat * 256 + b.toNat) y :: decode16 (rest.drop 2)
      | none => 0xFFFD :: decode16 rest
    else (a.toNat * 256 + b.toNat) :: decode16 rest
termination_by b => b.length
decreasing_by all_goals (simp only [List.length_cons, List.length_drop]; omega)

/-! ### Lemmas -/

theorem char_scalar (c : Char) : c.toNat < 0xD800 ∨ (0xE000 ≤ c.toNat ∧ c.toNat < 0x110000) := by
  have := c.valid
  simp only [UInt32.isValidChar, Nat.isValidChar] at this
  simp only [Char.toNat]
  omega

theorem u8_ofNat_toNat {n : Nat} (h : n < 256) : (UInt8.ofNat n).toNat = n := by
  simp only [UInt8.toNat_ofNat']; omega

theorem decodeMulti_utf8Enc {r : Nat} (h : r < 0xD800 ∨ (0xE000 ≤ r ∧ r < 0x110000))
    (tail : Bytes) :
    ∃ b0 rest, utf8Enc r ++ tail = b0 :: rest ∧
      decodeMulti b0 rest = some (r, (utf8Enc r).length - 1) ∧
      rest.drop ((utf8Enc r).length - 1) = tail := by
  unfold utf8Enc
  split
  · simp only [List.cons_append, List.nil_append]
    refine ⟨_, _, rfl, ?_, rfl⟩
    have : (UInt8.ofNat r).toNat = r := u8_ofNat_toNat (by omega)
    simp only [decodeMulti, this]
    rw [if_pos (by assumption)]; rfl
  split
  · simp only [List.cons_append, List.nil_append]
    refine ⟨_, _, rfl, ?_, rfl⟩
    have h0 : (UInt8.ofNat (0xC0 + r / 64)).toNat = 0xC0 + r / 64 := u8_ofNat_toNat (by omega)
    have h1 : (UInt8.ofNat (0x80 + r % 64)).toNat = 0x80 + r % 64 := u8_ofNat_toNat (by omega)
    simp only [decodeMulti, h0, List.cons_append, List.nil_append, h1]
    rw [if_neg (by omega), if_neg (by omega), if_pos (by omega), if_pos (by omega)]
    refine congrArg some (Prod.ext ?_ rfl)
    simp only [Nat.add_sub_cancel_left]
    omega
  split
  · simp only [List.cons_append, List.nil_append]
    refine ⟨_, _, rfl, ?_, rfl⟩
    have h0 : (UInt8.ofNat (0xE0 + r / 4096)).toNat = 0xE0 + r / 4096 := u8_ofNat_toNat (by omega)
    have h1 : (UInt8.ofNat (0x80 + r / 64 % 64)).toNat = 0x80 + r / 64 % 64 :=
      u8_ofNat_toNat (by omega)
    have h2 : (UInt8.ofNat (0x80 + r % 64)).toNat = 0x80 + r % 64 := u8_ofNat_toNat (by omega)
    simp only [decodeMulti, h0, List.cons_append, List.nil_append, h1, h2]
    rw [if_neg (by omega), if_neg (by omega), if_neg (by omega), if_pos (by omega)]
    rw [if_pos (by omega)]
    refine congrArg some (Prod.ext ?_ rfl)
    simp only [Nat.add_sub_cancel_left]
    omega
  · simp only [List.cons_append, List.nil_append]
    refine ⟨_, _, rfl, ?_, rfl⟩
    have h0 : (UInt8.ofNat (0xF0 + r / 262144)).toNat = 0xF0 + r / 262144 :=
      u8_ofNat_toNat (by omega)
    have h1 : (UInt8.ofNat (0x80 + r / 4096 % 64)).toNat = 0x80 + r / 4096 % 64 :=
      u8_ofNat_toNat (by omega)
    have h2 : (UInt8.ofNat (0x80 + r / 64 % 64)).toNat = 0x80 + r / 64 % 64 :=
      u8_ofNat_toNat (by omega)
    have h3 : (UInt8.ofNat (0x80 + r % 64)).toNat = 0x80 + r % 64 := u8_ofNat_toNat (by omega)
    simp only [decodeMulti, h0, List.cons_append, List.nil_append, h1, h2, h3]
    rw [if_neg (by omega), if_neg (by omega), if_neg (by omega), if_neg (by omega),
      if_pos (by omega)]
    rw [if_pos (by omega)]
    refine congrArg some (Prod.ext ?_ rfl)
    simp only [Nat.add_sub_cancel_left]
    omega

theorem runes_utf8Enc_append {r : Nat} (h : r < 0xD800 ∨ (0xE000 ≤ r ∧ r < 0x110000))
    (tail : Bytes) : runes (utf8Enc r ++ tail) = r :: runes tail := by
  obtain ⟨b0, rest, h1, h2, h3⟩ := decodeMulti_utf8Enc h tail
  rw [h1, runes, h2]
  simp only [h3]

theorem validUtf8_utf8Enc_append {r : Nat} (h : r < 0xD800 ∨ (0xE000 ≤ r ∧ r < 0x110000))
    (tail : Bytes) : validUtf8 (utf8Enc r ++ tail) = validUtf8 tail := by
  obtain ⟨b0, rest, h1, h2, h3⟩ := decodeMulti_utf8Enc h tail
  rw [h1, validUtf8, h2]
  simp only [h3]

theorem utf8_cons (c : Char) (cs : List Char) : utf8 (c :: cs) = utf8Enc c.toNat ++ utf8 cs := rfl

/-- Decoding the UTF-8 bytes of a text gives its code points. -/
theorem runes_utf8 (cs : List Char) : runes (utf8 cs) = cs.map Char.toNat := by
  induction cs with
  | nil => simp [utf8, runes]
  | cons c cs ih => rw [utf8_cons, runes_utf8Enc_append (char_scalar c), ih]; rfl

theorem validUtf8_utf8 (cs : List Char) : validUtf8 (utf8 cs) = true := by
  induction cs with
  | nil => simp [utf8, validUtf8]
  | cons c cs ih => rw [utf8_cons, validUtf8_utf8Enc_append (char_scalar c), ih]

/-- A decodable sequence is the encoding of a scalar value. -/
theorem decodeMulti_sound {b0 : UInt8} {rest : Bytes} {r n : Nat}
    (h : decodeMulti b0 rest = some (r, n)) :
    (r < 0xD800 ∨ (0xE000 ≤ r ∧ r < 0x110000)) ∧ b0 :: rest = utf8Enc r ++ rest.drop n := by
  have hb : ∀ b : UInt8, ∀ k, k = b.toNat → UInt8.ofNat k = b := by
    intro b k hk; subst hk; simp
  have l0 := b0.toNat_lt
  unfold decodeMulti at h
  simp only at h
  split at h
  · simp only [Option.some.injEq, Prod.mk.injEq] at h
    obtain ⟨rfl, rfl⟩ := h
    refine ⟨by omega, ?_⟩
    rw [utf8Enc, if_pos (by assumption)]; simp
  split at h
  · cases h
  split at h
  · split at h
    · rename_i b1 tl
      split at h
      · simp only [Option.some.injEq, Prod.mk.injEq] at h
        obtain ⟨rfl, rfl⟩ := h
        have l1 := b1.toNat_lt
        refine ⟨by omega, ?_⟩
        rw [utf8Enc, if_neg (by omega), if_pos (by omega), hb b0 _ (by omega), hb b1 _ (by omega)]
        simp
      · cases h
    · cases h
  split at h
  · split at h
    · rename_i b1 b2 tl
      split at h
      · rename_i hc
        simp only [Option.some.injEq, Prod.mk.injEq] at h
        obtain ⟨rfl, rfl⟩ := h
        have l1 := b1.toNat_lt
        have l2 := b2.toNat_lt
        refine ⟨by omega, ?_⟩
        rw [utf8Enc, if_neg (by omega), if_neg (by omega), if_pos (by omega), hb b0 _ (by omega),
          hb b1 _ (by omega), hb b2 _ (by omega)]
        simp
      · cases h
    · cases h
  split at h
  · split at h
    · rename_i b1 b2 b3 tl
      split at h
      · rename_i hc
        simp only [Option.some.injEq, Prod.mk.injEq] at h
        obtain ⟨rfl, rfl⟩ := h
        have l1 := b1.toNat_lt
        have l2 := b2.toNat_lt
        have l3 := b3.toNat_lt
        refine ⟨by omega, ?_⟩
        rw [utf8Enc, if_neg (by omega), if_neg (by omega), if_neg (by omega), hb b0 _ (by omega),
          hb b1 _ (by omega), hb b2 _ (by omega), hb b3 _ (by omega)]
        simp
      · cases h
    · cases h
  · cases h

/-- Go's `utf8.ValidString` accepts exactly the byte strings that are the UTF-8 form of a text. -/
theorem validUtf8_iff (b : Bytes) : validUtf8 b = true ↔ ∃ cs : List Char, b = utf8 cs := by
  constructor
  · generalize hn : b.length = n
    intro h
    induction n using Nat.strongRecOn generalizing b with
    | _ n ih =>
      cases b with
      | nil => exact ⟨[], rfl⟩
      | cons b0 rest =>
        rw [validUtf8] at h
        cases hd : decodeMulti b0 rest with
        | none => rw [hd] at h; cases h
        | some p =>
          obtain ⟨r, k⟩ := p
          rw [hd] at h
          simp only at h
          obtain ⟨hs, he⟩ := decodeMulti_sound hd
          have hlen : (rest.drop k).length < n := by
            simp only [List.length_cons, List.length_drop] at hn ⊢; omega
          obtain ⟨cs, hcs⟩ := ih _ hlen (rest.drop k) rfl h
          have hv : r.isValidChar := by
            simp only [Nat.isValidChar]; omega
          refine ⟨Char.ofNat r :: cs, ?_⟩
          rw [utf8_cons, he, hcs]
          have : (Char.ofNat r).toNat = r := by simp [Char.toNat, Char.ofNat, hv, Char.ofNatAux]
          rw [this]
  · rintro ⟨cs, rfl⟩; exact validUtf8_utf8 cs

theorem length_utf8Enc_one {r : Nat} : (utf8Enc r).length = 1 ↔ r < 0x80 := by
  unfold utf8Enc
  split
  · simp; assumption
  split
  · simp; omega
  split <;> simp <;> omega

theorem length_utf8Enc_pos (r : Nat) : 1 ≤ (utf8Enc r).length := by
  unfold utf8Enc
  split
  · simp
  split
  · simp
  split <;> simp

theorem toBE2 (v : Nat) : toBE 2 v = [UInt8.ofNat (v / 256 % 256), UInt8.ofNat (v % 256)] := by
  simp [toBE]

set_option maxRecDepth 100000 in
theorem decode16_utf16Enc_append {r : Nat} (h : r < 0xD800 ∨ (0xE000 ≤ r ∧ r < 0x110000))
    (tail : Bytes) : decode16 (utf16Enc r ++ tail) = r :: decode16 tail := by
  unfold utf16Enc
  split
  · rw [toBE2]
    have h0 : (UInt8.ofNat (r / 256 % 256)).toNat = r / 256 % 256 := u8_ofNat_toNat (by omega)
    have h1 : (UInt8.ofNat (r % 256)).toNat = r % 256 := u8_ofNat_toNat (by omega)
    simp only [List.cons_append, List.nil_append]
    rw [decode16]
    simp only [h0, h1]
    rw [if_neg (by omega)]
    congr 1; omega
  · simp only [toBE2]
    generalize hx : 0xD800 + (r - 0x10000) / 1024 = x
    generalize hy : 0xDC00 + (r - 0x10000) % 1024 = y
    have h0 : (UInt8.ofNat (x / 256 % 256)).toNat = x / 256 % 256 := u8_ofNat_toNat (by omega)
    have h1 : (UInt8.ofNat (x % 256)).toNat = x % 256 := u8_ofNat_toNat (by omega)
    have h2 : (UInt8.ofNat (y / 256 % 256)).toNat = y / 256 % 256 := u8_ofNat_toNat (by omega)
    have h3 : (UInt8.ofNat (y % 256)).toNat = y % 256 := u8_ofNat_toNat (by omega)
    simp only [List.cons_append, List.nil_append]
    rw [decode16]
    have hl : lowNext (UInt8.ofNat (y / 256 % 256) :: UInt8.ofNat (y % 256) :: tail) = some y := by
      simp only [lowNext, h2, h3]
      have e : y / 256 % 256 * 256 + y % 256 = y := by omega
      rw [e, if_pos (by omega)]
    rw [hl]
    simp only [h0, h1, List.drop_succ_cons, List.drop_zero]
    have e : x / 256 % 256 * 256 + x % 256 = x := by omega
    have e2 : surrogatePair x y = r := by
      unfold surrogatePair
      split <;> omega
    rw [e, if_pos (by omega), e2]

theorem decode16_utf16 (cs : List Char) :
    decode16 (cs.flatMap fun c => utf16Enc c.toNat) = cs.map Char.toNat := by
  induction cs with
  | nil => simp [decode16]
  | cons c cs ih =>
    rw [List.flatMap_cons, decode16_utf16Enc_append (char_scalar c), ih]; rfl

end Gosms
