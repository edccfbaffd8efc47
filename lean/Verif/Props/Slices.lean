import Verif.Lemmas.Utils
import Verif.Spec.Utils

/-!
# C18-C20: splitting of long messages (utils/utils.go `ToTPUDHISlices`, `MsgSlices`)
-/

namespace Gosms

/-- Number of slices: the content length divided by the body size, rounded up. -/
def sliceCount (len bodyLen : Nat) : Nat := (len + bodyLen - 1) / bodyLen

/-- The slices, written out. -/
def sliceBody (content : Bytes) (bodyLen i : Nat) : Bytes :=
  if i + 1 ≠ sliceCount content.length bodyLen then (content.drop (bodyLen * i)).take bodyLen
  else content.take (content.length % bodyLen)

theorem sliceCount_eq (len bodyLen : Nat) (hb : 0 < bodyLen) :
    (if len % bodyLen ≠ 0 then len / bodyLen + 1 else len / bodyLen) = sliceCount len bodyLen := by
  unfold sliceCount
  have h1 := Nat.div_add_mod len bodyLen
  have h2 := Nat.mod_lt len hb
  generalize hq : len / bodyLen = q at *
  generalize hr : len % bodyLen = r at *
  split
  · have : len + bodyLen - 1 = bodyLen * (q + 1) + (r - 1) := by rw [Nat.mul_add]; omega
    rw [this, Nat.mul_add_div hb, Nat.div_eq_of_lt (by omega)]
  · have : len + bodyLen - 1 = bodyLen * q + (bodyLen - 1) := by omega
    rw [this, Nat.mul_add_div hb, Nat.div_eq_of_lt (by omega)]; omega

theorem toTPUDHISlices_long (g : UInt8) (c : Bytes) (pkg : Nat) (hp : 6 < pkg) (hc : pkg ≤ c.length) :
    toTPUDHISlices g c pkg = some ((List.range (sliceCount c.length (pkg - 6))).map fun i =>
      Spec.udhHeader g (UInt8.ofNat (sliceCount c.length (pkg - 6))) (UInt8.ofNat (i + 1))
        ++ sliceBody c (pkg - 6) i) := by
  have hb : 0 < pkg - 6 := by omega
  unfold toTPUDHISlices
  rw [if_neg (by omega), if_neg (by omega)]
  simp only [sliceCount_eq _ _ hb]
  generalize hbl : pkg - 6 = b at *
  have hdm := Nat.div_add_mod c.length b
  have hml := Nat.mod_lt c.length hb
  apply mapM_option_eq_some
  intro i hi
  rw [List.mem_range] at hi
  unfold udhSlice
  simp only [hbl]
  have hcnt := sliceCount_eq c.length b hb
  by_cases hl : i + 1 = sliceCount c.length b
  · have : ¬ i ≠ sliceCount c.length b - 1 := by omega
    rw [if_neg this, goSlice, if_pos (by omega)]
    simp only [Option.map_some, sliceBody, List.drop_zero, Nat.sub_zero]
    rw [if_neg (by simpa using hl), pad_eq_self (by simp; omega)]
    rfl
  · have : i ≠ sliceCount c.length b - 1 := by omega
    have hq : i + 1 ≤ c.length / b := by
      split at hcnt <;> omega
    have hle : b * (i + 1) ≤ c.length := by
      have := Nat.mul_le_mul_left b hq
      omega
    have hbi : b * i ≤ b * (i + 1) := Nat.mul_le_mul_left _ (by omega)
    rw [if_pos this, goSlice, if_pos ⟨hbi, hle⟩]
    have hsub : b * (i + 1) - b * i = b := by rw [Nat.mul_add]; omega
    simp only [Option.map_some, sliceBody, hsub]
    rw [if_pos (by simpa using hl), pad_eq_self]
    · rfl
    · rw [List.length_take, List.length_drop]
      rw [Nat.mul_add] at hle; omega

theorem sliceCount_bounds (len b : Nat) (hb : 0 < b) :
    len ≤ sliceCount len b * b ∧ (0 < len → (sliceCount len b - 1) * b < len ∧ 0 < sliceCount len b) := by
  unfold sliceCount
  have h1 := Nat.div_add_mod (len + b - 1) b
  have h2 := Nat.mod_lt (len + b - 1) hb
  rw [Nat.mul_comm] at h1
  generalize hq : (len + b - 1) / b = q at *
  constructor
  · omega
  · intro hl
    have hq0 : 0 < q := by
      rcases Nat.eq_zero_or_pos q with h | h
      · subst h; omega
      · exact h
    rw [Nat.sub_mul, Nat.one_mul]
    have : b ≤ q * b := Nat.le_mul_of_pos_left _ hq0
    omega

/-! ## C19 -/

/-- Splitting never fails, and the slices of a long message are well formed: there are
⌈len / (pkgLen-6)⌉ of them, each is at most `pkgLen` bytes and parses as a concatenation slice with
the common reference, the (8-bit) total and its 1-based number; the total is exact up to 255. -/
theorem long_message_slices_wellformed (g : UInt8) (c : Bytes) (pkg : Nat) (hp : 6 < pkg)
    (hc : pkg ≤ c.length) :
    ∃ slices, toTPUDHISlices g c pkg = some slices ∧
      slices.length = (c.length + (pkg - 6) - 1) / (pkg - 6) ∧
      (∀ i (hi : i < slices.length), slices[i].length ≤ pkg ∧
        ∃ total number body,
          Spec.parseUdh slices[i] = some ⟨g, total, number, body⟩ ∧
          total = UInt8.ofNat slices.length ∧ number = UInt8.ofNat (i + 1) ∧
          (slices.length ≤ 255 → total.toNat = slices.length ∧ number.toNat = i + 1)) := by
  refine ⟨_, toTPUDHISlices_long g c pkg hp hc, by simp [sliceCount], ?_⟩
  intro i hi
  simp only [List.length_map, List.length_range] at hi
  simp only [List.getElem_map, List.getElem_range, List.length_map, List.length_range]
  have hb : 0 < pkg - 6 := by omega
  constructor
  · rw [List.length_append]
    have h6 : (Spec.udhHeader g (UInt8.ofNat (sliceCount c.length (pkg - 6)))
        (UInt8.ofNat (i + 1))).length = 6 := rfl
    rw [h6]
    have : (sliceBody c (pkg - 6) i).length ≤ pkg - 6 := by
      unfold sliceBody
      split
      · simp; omega
      · have := Nat.mod_lt c.length hb
        simp; omega
    omega
  · refine ⟨_, _, _, rfl, rfl, rfl, fun h255 => ?_⟩
    exact ⟨u8_ofNat_toNat (by omega), u8_ofNat_toNat (by omega)⟩

example : 6 < 160 ∧ 160 ≤ (List.replicate 300 (0x61 : UInt8)).length := by
  rw [List.length_replicate]; decide

/-! ## C20 -/

/-- Content shorter than the package length goes out as the one slice it is. -/
theorem short_message_unchanged (g : UInt8) (c : Bytes) (pkg : Nat) (h : c.length < pkg) :
    toTPUDHISlices g c pkg = some [c] := by
  rw [toTPUDHISlices, if_pos h]

/-- `MsgSlices`: format 8 transcodes to UCS2 and uses 140-byte packages, every other format sends
the bytes themselves in 160-byte packages; a short text is one slice. -/
theorem msgSlices_short (g : UInt8) (fmt : UInt8) (cs : List Char) :
    (fmt = 8 → ((cs.map Char.toNat).flatMap utf16Enc).length < 140 →
      msgSlices g fmt (utf8 cs) = some [(cs.map Char.toNat).flatMap utf16Enc]) ∧
    (fmt ≠ 8 → (utf8 cs).length < 160 → msgSlices g fmt (utf8 cs) = some [utf8 cs]) := by
  constructor
  · intro h hl
    rw [msgSlices, if_pos h]
    have : utf8ToUcs2 (utf8 cs) = some ((cs.map Char.toNat).flatMap utf16Enc) := by
      rw [utf8ToUcs2, validUtf8_utf8, runes_utf8]; simp
    rw [this, Option.getD_some, short_message_unchanged _ _ _ hl]
  · intro h hl
    rw [msgSlices, if_neg h, short_message_unchanged _ _ _ hl]

example : msgSlices 7 0 (utf8 "hi".toList) = some [[0x68, 0x69]] := by
  rw [(msgSlices_short 7 0 "hi".toList).2 (by decide) (by decide)]; decide

/-- Every slice produced fits the package size of its coding (140 bytes for UCS2, 160 otherwise),
whatever the content. -/
theorem msgSlices_fit (g fmt : UInt8) (content : Bytes) :
    ∃ slices, msgSlices g fmt content = some slices ∧
      ∀ s ∈ slices, s.length ≤ if fmt = 8 then 140 else 160 := by
  have key : ∀ (c : Bytes) (pkg : Nat), 6 < pkg →
      ∃ slices, toTPUDHISlices g c pkg = some slices ∧ ∀ s ∈ slices, s.length ≤ pkg := by
    intro c pkg hp
    by_cases h : c.length < pkg
    · exact ⟨[c], short_message_unchanged g c pkg h, by simp; omega⟩
    · obtain ⟨sl, h1, _, h3⟩ := long_message_slices_wellformed g c pkg hp (by omega)
      refine ⟨sl, h1, fun s hs => ?_⟩
      obtain ⟨i, hi, rfl⟩ := List.getElem_of_mem hs
      exact (h3 i hi).1
  unfold msgSlices
  split
  · exact key _ 140 (by decide)
  · exact key _ 160 (by decide)

/-! ## C18 -/

theorem mapM_parse_slices (g t : UInt8) (bodies : List (UInt8 × Bytes)) :
    (bodies.map fun p => Spec.udhHeader g t p.1 ++ p.2).mapM Spec.parseUdh =
      some (bodies.map fun p => ⟨g, t, p.1, p.2⟩) := by
  induction bodies with
  | nil => rfl
  | cons p ps ih =>
    rw [List.map_cons, List.mapM_cons, ih]
    rfl

theorem prefix_bodies (c : Bytes) (b : Nat) (n : Nat) :
    ((List.range n).map fun i => (c.drop (b * i)).take b).flatten = c.take (b * n) := by
  induction n with
  | zero => simp
  | succ n ih =>
    rw [List.range_succ, List.map_append, List.flatten_append, ih]
    simp only [List.map_cons, List.map_nil, List.flatten_cons, List.flatten_nil, List.append_nil]
    rw [Nat.mul_add, Nat.mul_one, List.take_add]

/-- What the receiver reassembles: all but the last body correctly, then — instead of the tail of
the message — its first `len % (pkgLen-6)` bytes. -/
theorem long_message_reassembled (g : UInt8) (c : Bytes) (pkg : Nat) (hp : 6 < pkg)
    (hc : pkg ≤ c.length) :
    ∃ slices, toTPUDHISlices g c pkg = some slices ∧
      Spec.reassemble slices =
        some (c.take ((pkg - 6) * (slices.length - 1)) ++ c.take (c.length % (pkg - 6))) := by
  refine ⟨_, toTPUDHISlices_long g c pkg hp hc, ?_⟩
  generalize hb : pkg - 6 = b
  have hb0 : 0 < b := by omega
  simp only [List.length_map, List.length_range]
  obtain ⟨_, h2⟩ := sliceCount_bounds c.length b hb0
  obtain ⟨_, hpos⟩ := h2 (by omega)
  generalize hn : sliceCount c.length b = n at *
  have hpairs : ((List.range n).map fun i =>
      Spec.udhHeader g (UInt8.ofNat n) (UInt8.ofNat (i + 1)) ++ sliceBody c b i) =
      (((List.range n).map fun i => (UInt8.ofNat (i + 1), sliceBody c b i)).map fun p =>
        Spec.udhHeader g (UInt8.ofNat n) p.1 ++ p.2) := by
    rw [List.map_map]; rfl
  rw [Spec.reassemble, hpairs, mapM_parse_slices]
  simp only [Option.map_some, List.map_map]
  congr 1
  have hn1 : n = (n - 1) + 1 := by omega
  rw [hn1, List.range_succ, List.map_append, List.flatten_append]
  have hlast : sliceBody c b (n - 1) = c.take (c.length % b) := by
    rw [sliceBody, hn, if_neg (by omega)]
  simp only [Nat.add_sub_cancel, List.map_cons, List.map_nil, List.flatten_cons, List.flatten_nil,
    List.append_nil, Function.comp_apply, hlast]
  congr 1
  rw [← prefix_bodies c b (n - 1)]
  congr 1
  apply List.map_congr_left
  intro i hi
  rw [List.mem_range] at hi
  simp only [Function.comp_apply, sliceBody, hn]
  rw [if_pos (by omega)]

/-- C18 fails: a long message whose tail differs from its beginning is not what the receiver
reassembles. (160 bytes of text: the second slice repeats the first bytes.) -/
theorem long_message_reassembly_fails :
    ∃ (c : Bytes), 160 ≤ c.length ∧ ∀ (g : UInt8) (slices : List Bytes),
      toTPUDHISlices g c 160 = some slices → Spec.reassemble slices ≠ some c := by
  refine ⟨List.replicate 154 0x61 ++ List.replicate 6 0x62, by simp, ?_⟩
  intro g slices h
  obtain ⟨sl, h1, h2⟩ := long_message_reassembled g
    (List.replicate 154 0x61 ++ List.replicate 6 0x62) 160 (by decide) (by simp)
  obtain ⟨sl', h3, h4, _⟩ := long_message_slices_wellformed g
    (List.replicate 154 0x61 ++ List.replicate 6 0x62) 160 (by decide) (by simp)
  rw [h] at h1 h3
  obtain rfl := Option.some.inj h1
  have : slices.length = 2 := by
    rw [← Option.some.inj h3] at h4; simpa using h4
  rw [this] at h2
  rw [h2]
  simp only [Nat.reduceSub, Nat.mul_one, List.length_append, List.length_replicate]
  set_option maxRecDepth 100000 in decide

/-- C18 fails for *every* message whose length is a multiple of the body size: the last body is
empty and the last `pkgLen-6` bytes are lost. -/
theorem long_message_exact_multiple_loses_tail (g : UInt8) (c : Bytes) (pkg : Nat) (hp : 6 < pkg)
    (hc : pkg ≤ c.length) (hm : c.length % (pkg - 6) = 0) :
    ∃ slices, toTPUDHISlices g c pkg = some slices ∧
      Spec.reassemble slices = some (c.take (c.length - (pkg - 6))) ∧
      Spec.reassemble slices ≠ some c := by
  obtain ⟨sl, h1, h2⟩ := long_message_reassembled g c pkg hp hc
  obtain ⟨sl', h3, h4, _⟩ := long_message_slices_wellformed g c pkg hp hc
  rw [h1] at h3
  obtain rfl := Option.some.inj h3
  refine ⟨sl, h1, ?_⟩
  have hb : 0 < pkg - 6 := by omega
  have hlen : sl.length = c.length / (pkg - 6) := by
    rw [h4]
    have := sliceCount_eq c.length (pkg - 6) hb
    rw [if_neg (by simp [hm])] at this
    exact this.symm
  have hdm := Nat.div_add_mod c.length (pkg - 6)
  rw [hm] at hdm
  have e : (pkg - 6) * (sl.length - 1) = c.length - (pkg - 6) := by
    rw [hlen, Nat.mul_sub, Nat.mul_one]; omega
  rw [h2, e, hm]
  simp only [List.take_zero, List.append_nil, true_and]
  intro habs
  have := congrArg List.length (Option.some.inj habs)
  rw [List.length_take] at this
  omega

example : (List.replicate 308 (0x61 : UInt8)).length % (160 - 6) = 0 := by
  rw [List.length_replicate]

/-- Partial C18: the receiver gets the original content exactly when the tail of the content equals
its own beginning, and in any case the bodies of all slices but the last are the content's prefix.
Missing: the last slice should carry `content[bodyLen*(parts-1):]`. -/
theorem long_message_reassembly_partial (g : UInt8) (c : Bytes) (pkg : Nat) (hp : 6 < pkg)
    (hc : pkg ≤ c.length) :
    ∃ slices, toTPUDHISlices g c pkg = some slices ∧
      Spec.reassemble slices.dropLast = some (c.take ((pkg - 6) * (slices.length - 1))) ∧
      (Spec.reassemble slices = some c ↔
        c.drop ((pkg - 6) * (slices.length - 1)) = c.take (c.length % (pkg - 6))) := by
  obtain ⟨sl, h1, h2⟩ := long_message_reassembled g c pkg hp hc
  have h1' := toTPUDHISlices_long g c pkg hp hc
  refine ⟨sl, h1, ?_, ?_⟩
  · rw [h1'] at h1
    obtain rfl := Option.some.inj h1
    generalize hb : pkg - 6 = b at *
    have hb0 : 0 < b := by omega
    obtain ⟨_, h2⟩ := sliceCount_bounds c.length b hb0
    obtain ⟨_, hpos⟩ := h2 (by omega)
    generalize hn : sliceCount c.length b = n at *
    simp only [List.length_map, List.length_range]
    obtain ⟨m, rfl⟩ : ∃ m, n = m + 1 := ⟨n - 1, by omega⟩
    rw [List.range_succ, List.map_append, List.map_singleton, List.dropLast_concat]
    have hpairs : ((List.range m).map fun i =>
        Spec.udhHeader g (UInt8.ofNat (m + 1)) (UInt8.ofNat (i + 1)) ++ sliceBody c b i) =
        (((List.range m).map fun i => (UInt8.ofNat (i + 1), sliceBody c b i)).map fun p =>
          Spec.udhHeader g (UInt8.ofNat (m + 1)) p.1 ++ p.2) := by
      rw [List.map_map]; rfl
    rw [Spec.reassemble, hpairs, mapM_parse_slices]
    simp only [Option.map_some, List.map_map, Nat.add_sub_cancel]
    congr 1
    rw [← prefix_bodies c b m]
    congr 1
    apply List.map_congr_left
    intro i hi
    rw [List.mem_range] at hi
    simp only [Function.comp_apply, sliceBody, hn]
    rw [if_pos (by omega)]
  · rw [h2]
    constructor
    · intro h
      have h := Option.some.inj h
      have h' : c.take ((pkg - 6) * (sl.length - 1)) ++ c.take (c.length % (pkg - 6)) =
          c.take ((pkg - 6) * (sl.length - 1)) ++ c.drop ((pkg - 6) * (sl.length - 1)) := by
        rw [h, List.take_append_drop]
      exact (List.append_cancel_left h').symm
    · intro h
      rw [← h, List.take_append_drop]

end Gosms
