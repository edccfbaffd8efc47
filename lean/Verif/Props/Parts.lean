import Verif.Model.Parts
import Verif.Spec.Parts
import Verif.Props.CmppSubmit
import Verif.Props.Sgip
import Verif.Props.SmgpSubmit

/-!
# C137: long messages whose parts arrive mixed

Parts of several long messages of one sender reach a handset in any order, perhaps repeated, perhaps not all of them.
-/

namespace Gosms.Parts
open Spec (UdhSlice parseUdh udhHeader assembled)

/-- Number of parts. -/
def count (m : Sent) : Nat := (m.content.length + (m.pkg - 6) - 1) / (m.pkg - 6)

/-- A content that is split at all, into at most 255 parts. -/
structure Long (m : Sent) : Prop where
  pkg : 6 < m.pkg
  long : m.pkg ≤ m.content.length
  few : count m ≤ 255

theorem groupId_eq_iff (s t : Int) : groupId s = groupId t ↔ ∃ k : Int, s = t + 256 * k := by
  unfold groupId
  constructor
  · intro h
    have h' := congrArg UInt8.toNat h
    rw [u8_ofNat_toNat (by omega), u8_ofNat_toNat (by omega)] at h'
    refine ⟨(s - t) / 256, by omega⟩
  · rintro ⟨k, h⟩
    have : s % 256 = t % 256 := by omega
    rw [this]

theorem parts_eq {m : Sent} (hp : 6 < m.pkg) (hl : m.pkg ≤ m.content.length) : parts m = (List.range (count m)).map fun i =>
    udhHeader (groupId m.nano) (UInt8.ofNat (count m)) (UInt8.ofNat (i + 1)) ++ sliceBody m.content (m.pkg - 6) i := by
  unfold parts
  rw [toTPUDHISlices_long _ _ _ hp hl]
  rfl

theorem parse_part (r t n : UInt8) (b : Bytes) : parseUdh (udhHeader r t n ++ b) = some ⟨r, t, n, b⟩ := rfl

/-- The parsed parts of a message. -/
theorem mem_parts {m : Sent} (h : Long m) {p : Bytes} (hp : p ∈ parts m) : ∃ i, i < count m ∧
    parseUdh p = some ⟨groupId m.nano, UInt8.ofNat (count m), UInt8.ofNat (i + 1), sliceBody m.content (m.pkg - 6) i⟩ := by
  rw [parts_eq h.pkg h.long] at hp
  obtain ⟨i, hi, rfl⟩ := List.mem_map.1 hp
  exact ⟨i, List.mem_range.1 hi, rfl⟩

theorem part_mem {m : Sent} (h : Long m) {i : Nat} (hi : i < count m) :
    udhHeader (groupId m.nano) (UInt8.ofNat (count m)) (UInt8.ofNat (i + 1)) ++ sliceBody m.content (m.pkg - 6) i ∈ parts m := by
  rw [parts_eq h.pkg h.long]
  exact List.mem_map.2 ⟨i, List.mem_range.2 hi, rfl⟩

theorem mapM_none {α β : Type} (f : α → Option β) : ∀ (l : List α) (a : α), a ∈ l → f a = none → l.mapM f = none := by
  intro l
  induction l with
  | nil => intro a h; cases h
  | cons x l ih =>
    intro a ha hf
    rw [List.mapM_cons]
    rcases List.mem_cons.1 ha with rfl | ha
    · rw [hf]; rfl
    · rw [ih a ha hf]
      cases f x <;> rfl

/-- What all the parts of a message, in order, are put together to (Props/Slices.lean). -/
theorem whole {m : Sent} (h : Long m) : Spec.reassemble (parts m) =
    some (m.content.take ((m.pkg - 6) * (count m - 1)) ++ m.content.take (m.content.length % (m.pkg - 6))) := by
  obtain ⟨sl, h1, h2⟩ := long_message_reassembled (groupId m.nano) m.content m.pkg h.pkg h.long
  obtain ⟨sl', h3, h4, _⟩ := long_message_slices_wellformed (groupId m.nano) m.content m.pkg h.pkg h.long
  rw [h1] at h3
  obtain rfl := Option.some.inj h3
  unfold parts
  rw [h1, Option.getD_some, h2, h4]
  rfl

/-- C137, what holds: however many long messages there are, and in whatever order, how often and how many of their parts arrive, if no
two of the messages agree in reference and number of parts, then a message is put together exactly when all its own parts are there, and
then from its own parts, in order. Messages agree in the reference exactly if the clock showed times a multiple of 256 ns apart. `u` is any
of its parts. -/
theorem mixed_parts_partial (ms : List Sent) (hlong : ∀ m ∈ ms, Long m)
    (hapart : ∀ m ∈ ms, ∀ m' ∈ ms, m ≠ m' → (∃ k : Int, m.nano = m'.nano + 256 * k) → count m ≠ count m')
    (arrived : List Bytes) (harr : ∀ p ∈ arrived, ∃ m ∈ ms, p ∈ parts m)
    (m : Sent) (hm : m ∈ ms) (p : Bytes) (hp : p ∈ parts m) (u : UdhSlice) (hu : parseUdh p = some u) :
    ((∀ q ∈ parts m, q ∈ arrived) → assembled arrived u.ref u.total = Spec.reassemble (parts m)) ∧
    ((∃ q ∈ parts m, q ∉ arrived) → assembled arrived u.ref u.total = none) := by
  have hL := hlong m hm
  obtain ⟨j, hj, hpj⟩ := mem_parts hL hp
  rw [hpj] at hu
  obtain rfl := Option.some.inj hu
  dsimp only
  have htot : (UInt8.ofNat (count m)).toNat = count m := u8_ofNat_toNat (by have := hL.few; omega)
  -- a part that has arrived with this reference and total is one of the message
  have key : ∀ q ∈ arrived, ∀ v, parseUdh q = some v → v.ref = groupId m.nano → v.total = UInt8.ofNat (count m) →
      ∃ i, i < count m ∧ q = udhHeader (groupId m.nano) (UInt8.ofNat (count m)) (UInt8.ofNat (i + 1)) ++
        sliceBody m.content (m.pkg - 6) i ∧
        v = ⟨groupId m.nano, UInt8.ofNat (count m), UInt8.ofNat (i + 1), sliceBody m.content (m.pkg - 6) i⟩ := by
    intro q hq v hv hr ht
    obtain ⟨m', hm', hqm⟩ := harr q hq
    have hL' := hlong m' hm'
    rw [parts_eq hL'.pkg hL'.long] at hqm
    obtain ⟨i, hi, rfl⟩ := List.mem_map.1 hqm
    rw [parse_part] at hv
    obtain rfl := Option.some.inj hv
    dsimp only at hr ht
    have hc : count m' = count m := by
      have := congrArg UInt8.toNat ht
      rwa [htot, u8_ofNat_toNat (by have := hL'.few; omega)] at this
    have : m' = m := Classical.byContradiction fun hne =>
      hapart m' hm' m hm hne ((groupId_eq_iff _ _).1 hr) hc
    subst this
    exact ⟨i, List.mem_range.1 hi, rfl, rfl⟩
  -- looking for a number finds the part of the message with that number, if it is there
  have look : ∀ k, k < count m →
      (arrived.filterMap parseUdh).find? (fun u => u.ref = groupId m.nano ∧ u.total = UInt8.ofNat (count m) ∧ u.number.toNat = k + 1) =
        if udhHeader (groupId m.nano) (UInt8.ofNat (count m)) (UInt8.ofNat (k + 1)) ++ sliceBody m.content (m.pkg - 6) k ∈ arrived
        then some ⟨groupId m.nano, UInt8.ofNat (count m), UInt8.ofNat (k + 1), sliceBody m.content (m.pkg - 6) k⟩ else none := by
    intro k hk
    have hnum : ∀ i, i < count m → (UInt8.ofNat (i + 1)).toNat = i + 1 := fun i hi =>
      u8_ofNat_toNat (by have := hL.few; omega)
    cases hf : (arrived.filterMap parseUdh).find?
        (fun u => u.ref = groupId m.nano ∧ u.total = UInt8.ofNat (count m) ∧ u.number.toNat = k + 1) with
    | none =>
      rw [if_neg]
      intro hin
      have := List.find?_eq_none.1 hf _ (List.mem_filterMap.2 ⟨_, hin, parse_part _ _ _ _⟩)
      exact absurd (decide_eq_true ⟨rfl, rfl, hnum k hk⟩) this
    | some v =>
      have hv := List.find?_some hf
      simp only [decide_eq_true_eq] at hv
      obtain ⟨q, hq, hqv⟩ := List.mem_filterMap.1 (List.mem_of_find?_eq_some hf)
      obtain ⟨i, hi, rfl, rfl⟩ := key q hq v hqv hv.1 hv.2.1
      have : i = k := by
        have := hv.2.2
        dsimp only at this
        rw [hnum i hi] at this
        omega
      subst this
      rw [if_pos hq]
  unfold assembled
  rw [htot]
  constructor
  · intro hall
    have e1 : (List.range (count m)).mapM (fun k => (arrived.filterMap parseUdh).find? fun u =>
        u.ref = groupId m.nano ∧ u.total = UInt8.ofNat (count m) ∧ u.number.toNat = k + 1) =
        some ((List.range (count m)).map fun k =>
          ⟨groupId m.nano, UInt8.ofNat (count m), UInt8.ofNat (k + 1), sliceBody m.content (m.pkg - 6) k⟩) := by
      refine mapM_option_eq_some _ _ _ fun k hk => ?_
      rw [look k (List.mem_range.1 hk), if_pos (hall _ (part_mem hL (List.mem_range.1 hk)))]
    have e2 : (parts m).mapM parseUdh = some ((List.range (count m)).map fun k =>
        ⟨groupId m.nano, UInt8.ofNat (count m), UInt8.ofNat (k + 1), sliceBody m.content (m.pkg - 6) k⟩) := by
      rw [parts_eq hL.pkg hL.long]
      have := mapM_parse_slices (groupId m.nano) (UInt8.ofNat (count m))
        ((List.range (count m)).map fun i => (UInt8.ofNat (i + 1), sliceBody m.content (m.pkg - 6) i))
      rw [List.map_map, List.map_map] at this
      exact this
    rw [e1, Spec.reassemble, e2]
  · rintro ⟨q, hq, hnot⟩
    rw [parts_eq hL.pkg hL.long] at hq
    obtain ⟨i, hi, rfl⟩ := List.mem_map.1 hq
    rw [mapM_none _ _ i hi]
    · rfl
    · rw [look i (List.mem_range.1 hi), if_neg hnot]

/-- C137 fails (1): what is put together of a message is its text only if the end of the text, after the last full part, is also its
beginning; the text is never put together if it fills its parts. (The last part holds the first bytes of the text, utils/utils.go:219.) -/
theorem own_parts_fails (m : Sent) (h : Long m) :
    (Spec.reassemble (parts m) = some m.content ↔
      m.content.drop ((m.pkg - 6) * (count m - 1)) = m.content.take (m.content.length % (m.pkg - 6))) ∧
    (m.content.length % (m.pkg - 6) = 0 → Spec.reassemble (parts m) ≠ some m.content) := by
  obtain ⟨sl, h1, _, h2⟩ := long_message_reassembly_partial (groupId m.nano) m.content m.pkg h.pkg h.long
  obtain ⟨sl', h3, h4, _⟩ := long_message_slices_wellformed (groupId m.nano) m.content m.pkg h.pkg h.long
  rw [h1] at h3
  obtain rfl := Option.some.inj h3
  have e : parts m = sl := by unfold parts; rw [h1]; rfl
  rw [e]
  refine ⟨by rw [h2, h4]; rfl, fun hm => ?_⟩
  obtain ⟨sl'', h5, _, h6⟩ := long_message_exact_multiple_loses_tail (groupId m.nano) m.content m.pkg h.pkg h.long hm
  rw [h1] at h5
  obtain rfl := Option.some.inj h5
  exact h6

/-! ## Messages with the same reference -/

/-- The text `a` with its second part's worth of bytes taken from `b`. -/
def swapped (n : Nat) (a b : Bytes) : Bytes := a.take n ++ (b.drop n).take n ++ a.drop (2 * n)

theorem swapped_length {n : Nat} {a b : Bytes} (hlen : a.length = b.length) (h : 2 * n ≤ a.length) : (swapped n a b).length = a.length := by
  simp only [swapped, List.length_append, List.length_take, List.length_drop]
  omega

theorem swapped_body {n : Nat} {a b : Bytes} (hn : 0 < n) (hlen : a.length = b.length) (h : 2 * n < a.length) (i : Nat)
    (hi : i < sliceCount a.length n) : sliceBody (swapped n a b) n i = if i = 1 then sliceBody b n 1 else sliceBody a n i := by
  have hl := swapped_length hlen (Nat.le_of_lt h)
  have hc : 2 < sliceCount a.length n := by
    obtain ⟨h1, _⟩ := sliceCount_bounds a.length n hn
    rcases Nat.lt_or_ge 2 (sliceCount a.length n) with h2 | h2
    · exact h2
    · have := Nat.mul_le_mul_right n h2
      omega
  have htk : (a.take n).length = n := by simp; omega
  have hbk : ((b.drop n).take n).length = n := by simp; omega
  have hmod : a.length % n < n := Nat.mod_lt _ hn
  unfold sliceBody
  rw [hl, ← hlen]
  by_cases hlast : i + 1 = sliceCount a.length n
  · have h1 : i ≠ 1 := by omega
    rw [if_neg h1]
    simp only [hlast, ne_eq, not_true, if_false]
    rw [swapped, List.append_assoc, List.take_append_of_le_length (by omega), List.take_take, Nat.min_eq_left (Nat.le_of_lt hmod)]
  · rw [if_pos hlast]
    by_cases h1 : i = 1
    · subst h1
      rw [if_pos rfl, if_pos (by omega), Nat.mul_one, swapped, List.append_assoc, List.drop_left' htk, List.take_left' hbk]
    · rw [if_neg h1, if_pos hlast]
      rcases Nat.eq_zero_or_pos i with h0 | h0
      · subst h0
        rw [Nat.mul_zero, List.drop_zero, List.drop_zero, swapped, List.append_assoc, List.take_left' htk]
      · have h2 : 2 * n ≤ n * i := by
          rw [Nat.mul_comm]; exact Nat.mul_le_mul_left n (by omega)
        obtain ⟨q, e⟩ : ∃ q, n * i = 2 * n + q := ⟨n * i - 2 * n, by omega⟩
        have hpre : (a.take n ++ (b.drop n).take n).length = 2 * n := by rw [List.length_append, htk, hbk]; omega
        have hd : (swapped n a b).drop (2 * n + q) = (a.drop (2 * n)).drop q := by
          rw [swapped, List.drop_append, hpre, List.drop_eq_nil_of_le (by omega), List.nil_append, Nat.add_sub_cancel_left]
        rw [e, hd, List.drop_drop]

/-- C137 fails (2): two texts of the same length and more than two parts, split at times a multiple of 256 ns apart, cannot be told apart by
any receiver. There is a way their parts can arrive, each text's own parts in order, in which the parts of two other texts could have
arrived too, also each in order: the texts with the second parts exchanged. -/
theorem same_reference_fails (pkg : Nat) (hp : 6 < pkg) (s t : Int) (hst : ∃ k : Int, s = t + 256 * k) (a b : Bytes)
    (hlen : a.length = b.length) (h3 : 2 * (pkg - 6) < a.length) (hlong : pkg ≤ a.length) :
    ∃ arrived : List Bytes,
      (arrived.Perm (parts ⟨s, pkg, a⟩ ++ parts ⟨t, pkg, b⟩) ∧
        (parts ⟨s, pkg, a⟩).Sublist arrived ∧ (parts ⟨t, pkg, b⟩).Sublist arrived) ∧
      (arrived.Perm (parts ⟨s, pkg, swapped (pkg - 6) a b⟩ ++ parts ⟨t, pkg, swapped (pkg - 6) b a⟩) ∧
        (parts ⟨s, pkg, swapped (pkg - 6) a b⟩).Sublist arrived ∧ (parts ⟨t, pkg, swapped (pkg - 6) b a⟩).Sublist arrived) := by
  have hn : 0 < pkg - 6 := by omega
  have hg := (groupId_eq_iff s t).2 hst
  have hla := swapped_length hlen (Nat.le_of_lt h3)
  have hlb := swapped_length hlen.symm (by omega : 2 * (pkg - 6) ≤ b.length)
  obtain ⟨N, hN⟩ : ∃ N, sliceCount a.length (pkg - 6) = N + 2 := by
    obtain ⟨h1, _⟩ := sliceCount_bounds a.length (pkg - 6) hn
    rcases Nat.lt_or_ge 2 (sliceCount a.length (pkg - 6)) with h2 | h2
    · exact ⟨sliceCount a.length (pkg - 6) - 2, by omega⟩
    · have := Nat.mul_le_mul_right (pkg - 6) h2
      omega
  have cnt : ∀ (r : Int) (x : Bytes), x.length = a.length → count ⟨r, pkg, x⟩ = N + 2 := by
    intro r x hx
    rw [← hN, ← hx]; rfl
  have split : ∀ f : Nat → Bytes, (List.range (N + 2)).map f = f 0 :: f 1 :: (List.range N).map (fun i => f (i + 2)) := by
    intro f
    rw [List.range_succ_eq_map, List.range_succ_eq_map]
    simp [List.map_map, Function.comp_def]
  have pa := parts_eq (m := ⟨s, pkg, a⟩) hp hlong
  have pb := parts_eq (m := ⟨t, pkg, b⟩) hp (by show pkg ≤ b.length; omega)
  have pa' := parts_eq (m := ⟨s, pkg, swapped (pkg - 6) a b⟩) hp (by show pkg ≤ (swapped (pkg - 6) a b).length; omega)
  have pb' := parts_eq (m := ⟨t, pkg, swapped (pkg - 6) b a⟩) hp (by show pkg ≤ (swapped (pkg - 6) b a).length; omega)
  rw [cnt _ _ rfl, split] at pa
  rw [cnt _ _ hlen.symm, split] at pb
  rw [cnt _ _ hla, split] at pa'
  rw [cnt _ _ (by omega), split] at pb'
  dsimp only at pa pb pa' pb'
  rw [hg] at pa pa'
  have ba := fun i (hi : i < N + 2) => swapped_body hn hlen h3 i (by rw [hN]; exact hi)
  have bb := fun i (hi : i < N + 2) => swapped_body hn hlen.symm (by omega : 2 * (pkg - 6) < b.length) i (by rw [← hlen, hN]; exact hi)
  rw [ba 0 (by omega), ba 1 (by omega), if_neg (by omega), if_pos rfl] at pa'
  rw [bb 0 (by omega), bb 1 (by omega), if_neg (by omega), if_pos rfl] at pb'
  have ta : (List.range N).map (fun i => udhHeader (groupId t) (UInt8.ofNat (N + 2)) (UInt8.ofNat (i + 2 + 1)) ++
        sliceBody (swapped (pkg - 6) a b) (pkg - 6) (i + 2)) =
      (List.range N).map (fun i => udhHeader (groupId t) (UInt8.ofNat (N + 2)) (UInt8.ofNat (i + 2 + 1)) ++
        sliceBody a (pkg - 6) (i + 2)) := by
    apply List.map_congr_left
    intro i hi
    rw [ba (i + 2) (by have := List.mem_range.1 hi; omega), if_neg (by omega)]
  have tb : (List.range N).map (fun i => udhHeader (groupId t) (UInt8.ofNat (N + 2)) (UInt8.ofNat (i + 2 + 1)) ++
        sliceBody (swapped (pkg - 6) b a) (pkg - 6) (i + 2)) =
      (List.range N).map (fun i => udhHeader (groupId t) (UInt8.ofNat (N + 2)) (UInt8.ofNat (i + 2 + 1)) ++
        sliceBody b (pkg - 6) (i + 2)) := by
    apply List.map_congr_left
    intro i hi
    rw [bb (i + 2) (by have := List.mem_range.1 hi; omega), if_neg (by omega)]
  rw [ta] at pa'
  rw [tb] at pb'
  rw [pa, pb, pa', pb']
  generalize udhHeader (groupId t) (UInt8.ofNat (N + 2)) (UInt8.ofNat (0 + 1)) ++ sliceBody a (pkg - 6) 0 = A0
  generalize udhHeader (groupId t) (UInt8.ofNat (N + 2)) (UInt8.ofNat (1 + 1)) ++ sliceBody a (pkg - 6) 1 = A1
  generalize udhHeader (groupId t) (UInt8.ofNat (N + 2)) (UInt8.ofNat (0 + 1)) ++ sliceBody b (pkg - 6) 0 = B0
  generalize udhHeader (groupId t) (UInt8.ofNat (N + 2)) (UInt8.ofNat (1 + 1)) ++ sliceBody b (pkg - 6) 1 = B1
  generalize (List.range N).map (fun i => udhHeader (groupId t) (UInt8.ofNat (N + 2)) (UInt8.ofNat (i + 2 + 1)) ++
    sliceBody a (pkg - 6) (i + 2)) = As
  generalize (List.range N).map (fun i => udhHeader (groupId t) (UInt8.ofNat (N + 2)) (UInt8.ofNat (i + 2 + 1)) ++
    sliceBody b (pkg - 6) (i + 2)) = Bs
  have mid : ∀ X Y : Bytes, (X :: (As ++ Y :: Bs)).Perm (Y :: X :: (As ++ Bs)) := fun X Y =>
    (List.Perm.cons X List.perm_middle).trans (List.Perm.swap Y X _)
  have perm : ∀ X Y : Bytes, (A0 :: B0 :: X :: Y :: (As ++ Bs)).Perm ((A0 :: X :: As) ++ (B0 :: Y :: Bs)) := by
    intro X Y
    refine List.Perm.cons A0 ?_
    show (B0 :: X :: Y :: (As ++ Bs)).Perm (X :: (As ++ B0 :: Y :: Bs))
    refine (List.Perm.swap X B0 _).trans (List.Perm.cons X ?_)
    refine List.Perm.trans ?_ List.perm_middle.symm
    exact List.Perm.cons B0 List.perm_middle.symm
  have sl : As.Sublist (As ++ Bs) := List.sublist_append_left _ _
  have sr : Bs.Sublist (As ++ Bs) := List.sublist_append_right _ _
  refine ⟨A0 :: B0 :: A1 :: B1 :: (As ++ Bs), ⟨perm A1 B1, ?_, ?_⟩, ?_, ?_, ?_⟩
  · exact .cons_cons _ (.cons _ (.cons_cons _ (.cons _ sl)))
  · exact .cons _ (.cons_cons _ (.cons _ (.cons_cons _ sr)))
  · refine List.Perm.trans ?_ (perm B1 A1)
    exact .cons _ (.cons _ (.swap _ _ _))
  · exact .cons_cons _ (.cons _ (.cons _ (.cons_cons _ sl)))
  · exact .cons _ (.cons_cons _ (.cons_cons _ (.cons _ sr)))

/-- The other texts are other texts, unless the two texts agree in their second parts or in everything else. -/
theorem swapped_other {n : Nat} {a b : Bytes} (hlen : a.length = b.length) (h : 2 * n ≤ a.length)
    (h2 : (a.drop n).take n ≠ (b.drop n).take n) (h1 : a.take n ≠ b.take n) :
    ¬ [a, b].Perm [swapped n a b, swapped n b a] := by
  intro hperm
  have hin : a ∈ [swapped n a b, swapped n b a] := hperm.subset (by simp)
  have htk : (a.take n).length = n := by simp; omega
  have htb : (b.take n).length = n := by simp; omega
  have hbk : ((b.drop n).take n).length = n := by simp; omega
  simp only [List.mem_cons, List.not_mem_nil, or_false] at hin
  rcases hin with h' | h'
  · apply h2
    conv => lhs; rw [h', swapped, List.append_assoc, List.drop_left' htk, List.take_left' hbk]
  · apply h1
    conv => lhs; rw [h', swapped, List.append_assoc, List.take_left' htb]

/-! ## How many references there are -/

/-- A list of numbers below `n` without repetition has at most `n` elements. -/
theorem nodup_below : ∀ (n : Nat) (l : List Nat), l.Nodup → (∀ x ∈ l, x < n) → l.length ≤ n := by
  intro n
  induction n with
  | zero =>
    intro l _ h
    cases l with
    | nil => simp
    | cons x l => exact absurd (h x (by simp)) (by omega)
  | succ n ih =>
    intro l hd h
    have h1 := ih (l.erase n) (hd.erase n) fun x hx => by
      have h2 := (hd.mem_erase_iff).1 hx
      have := h x h2.2
      omega
    rw [List.length_erase] at h1
    split at h1 <;> omega

/-- If the values are among `n`, of more than `n` times two have the same. -/
theorem repeats (f : Int → Nat) (n : Nat) (times : List Int) (hf : ∀ t ∈ times, f t < n) (h : n < times.length) :
    ∃ i j, ∃ (hi : i < times.length) (hj : j < times.length), i < j ∧ f times[i] = f times[j] := by
  apply Classical.byContradiction
  intro hno
  have hd : (times.map f).Nodup := by
    rw [List.nodup_iff_pairwise_ne, List.pairwise_iff_getElem]
    intro i j hi hj hij he
    rw [List.length_map] at hi hj
    rw [List.getElem_map, List.getElem_map] at he
    exact hno ⟨i, j, hi, hj, hij, he⟩
  have := nodup_below n _ hd (by intro x hx; obtain ⟨t, ht, rfl⟩ := List.mem_map.1 hx; exact hf t ht)
  rw [List.length_map] at this
  omega

/-- C137 fails (3): whenever the long messages are sent, among any 257 of them two have the same reference; and among any 33 of them if
the clock counts in microseconds. -/
theorem references_run_out_fails (times : List Int) :
    (256 < times.length → ∃ i j, ∃ (hi : i < times.length) (hj : j < times.length), i < j ∧ groupId times[i] = groupId times[j]) ∧
    ((∀ t ∈ times, ∃ us : Int, t = 1000 * us) → 32 < times.length →
      ∃ i j, ∃ (hi : i < times.length) (hj : j < times.length), i < j ∧ groupId times[i] = groupId times[j]) := by
  constructor
  · intro h
    obtain ⟨i, j, hi, hj, hij, he⟩ := repeats (fun t => (t % 256).toNat) 256 times (fun t _ => by omega) h
    refine ⟨i, j, hi, hj, hij, (groupId_eq_iff _ _).2 ⟨(times[i] - times[j]) / 256, ?_⟩⟩
    omega
  · intro hus h
    obtain ⟨i, j, hi, hj, hij, he⟩ := repeats (fun t => (t % 256).toNat / 8) 32 times (fun t _ => by omega) h
    refine ⟨i, j, hi, hj, hij, (groupId_eq_iff _ _).2 ⟨(times[i] - times[j]) / 256, ?_⟩⟩
    obtain ⟨x, hx⟩ := hus times[i] (List.getElem_mem hi)
    obtain ⟨y, hy⟩ := hus times[j] (List.getElem_mem hj)
    omega

/-! ## These are the parts the client sends -/

/-- The bytes of a text as CMPP and SGIP send it, and the size of a part. -/
def coded (nano : Int) (text : Bytes) : Sent :=
  if msgFmt text = 8 then ⟨nano, 140, (utf8ToUcs2 text).getD []⟩ else ⟨nano, 160, text⟩

theorem parts_coded (nano : Int) (text : Bytes) (slices : List Bytes) (h : msgSlices (groupId nano) (msgFmt text) text = some slices) :
    parts (coded nano text) = slices := by
  unfold msgSlices at h
  unfold parts coded
  by_cases h8 : msgFmt text = 8
  · rw [if_pos h8] at h
    simp only [if_pos h8, h, Option.getD_some]
  · rw [if_neg h8] at h
    simp only [if_neg h8, h, Option.getD_some]

/-- The packets `NewSubmit` makes of a text hold the parts of its bytes, in order, one each. -/
theorem submits_hold_parts (nano : Int) (ac : AuthConf) (phones : List Bytes) (text : Bytes) (opts : List OptionFunc)
    (hp : phones.length ≤ 255) :
    (∀ seq expiry seqs, ∃ msgs, Cmpp.newSubmit ac phones text seq opts (groupId nano) expiry seqs = some msgs ∧
      msgs.map (·.msgContent) = parts (coded nano text)) ∧
    (∀ expiry seqs, ∃ msgs, Sgip.newSubmit ac phones text opts (groupId nano) expiry seqs = some msgs ∧
      msgs.map (·.messageContent) = parts (coded nano text)) ∧
    (∀ gbEnc data seq clock seqs, gbEnc text = some data →
      ∃ msgs, Smgp.newSubmit gbEnc ac phones text seq opts (groupId nano) clock seqs = some msgs ∧
        msgs.map (·.msgContent) = parts ⟨nano, 140, data⟩) := by
  refine ⟨fun seq expiry seqs => ?_, fun expiry seqs => ?_, fun gbEnc data seq clock seqs hg => ?_⟩
  · obtain ⟨msgs, slices, h1, h2, h3, h4⟩ := Cmpp.cmpp_newSubmit ac phones text seq opts (groupId nano) expiry seqs hp
    refine ⟨msgs, h1, ?_⟩
    rw [parts_coded nano text slices h2]
    refine List.ext_getElem (by rw [List.length_map, h3]) fun i hi hi' => ?_
    rw [List.getElem_map]
    exact (h4 i (by simpa using hi) hi').2.2.2.2.2.2.1
  · obtain ⟨msgs, slices, h1, h2, _, h3, h4⟩ := Sgip.sgip_newSubmit ac phones text opts (groupId nano) expiry seqs hp
    refine ⟨msgs, h1, ?_⟩
    rw [parts_coded nano text slices h2]
    refine List.ext_getElem (by rw [List.length_map, h3]) fun i hi hi' => ?_
    rw [List.getElem_map]
    exact (h4 i (by simpa using hi) hi').2.2.2.2.1
  · obtain ⟨msgs, slices, h1, h2, _, h3, h4⟩ :=
      Smgp.smgp_newSubmit gbEnc ac phones text data seq opts (groupId nano) clock seqs hp hg
    refine ⟨msgs, h1, ?_⟩
    have e : parts ⟨nano, 140, data⟩ = slices := by unfold parts; rw [h2]; rfl
    rw [e]
    refine List.ext_getElem (by rw [List.length_map, h3]) fun i hi hi' => ?_
    rw [List.getElem_map]
    exact (h4 i (by simpa using hi) hi').2.2.2.2.2.2.1

/-! ## Examples -/

/-- Two long messages and a clock that has gone on by 300 ns. -/
def first : Sent := ⟨1000000, 160, List.replicate 200 0x61⟩
def second : Sent := ⟨1000300, 160, List.replicate 200 0x62⟩

theorem first_length : first.content.length = 200 := List.length_replicate
theorem second_length : second.content.length = 200 := List.length_replicate
theorem first_count : count first = 2 := by unfold count; rw [first_length]; decide
theorem second_count : count second = 2 := by unfold count; rw [second_length]; decide
theorem first_long : Long first := ⟨by decide, by rw [first_length]; decide, by rw [first_count]; decide⟩
theorem second_long : Long second := ⟨by decide, by rw [second_length]; decide, by rw [second_count]; decide⟩

/-- The hypotheses of `mixed_parts_partial` hold for them, also when all parts come twice and backwards. -/
example : assembled ((parts first ++ parts second ++ parts first).reverse) (groupId 1000000) 2 = Spec.reassemble (parts first) := by
  have h2 : (2 : UInt8) = UInt8.ofNat (count first) := by rw [first_count]; rfl
  rw [h2]
  have hL : ∀ m ∈ [first, second], Long m := by
    intro m hm
    simp only [List.mem_cons, List.not_mem_nil, or_false] at hm
    rcases hm with rfl | rfl
    · exact first_long
    · exact second_long
  refine (mixed_parts_partial [first, second] hL ?_ _ ?_ first (by simp) _ (part_mem first_long (i := 0) (by rw [first_count]; decide)) _
    (parse_part _ _ _ _)).1 ?_
  · intro m hm m' hm' hne ⟨k, hk⟩
    simp only [List.mem_cons, List.not_mem_nil, or_false] at hm hm'
    rcases hm with rfl | rfl <;> rcases hm' with rfl | rfl
    · exact absurd rfl hne
    · simp only [first, second] at hk; omega
    · simp only [first, second] at hk; omega
    · exact absurd rfl hne
  · intro p hp
    simp only [List.mem_reverse, List.mem_append] at hp
    rcases hp with (hp | hp) | hp
    · exact ⟨first, by simp, hp⟩
    · exact ⟨second, by simp, hp⟩
    · exact ⟨first, by simp, hp⟩
  · intro q hq
    simp only [List.mem_reverse, List.mem_append]
    exact .inl (.inl hq)

/-- Two texts of three parts that cannot be told apart if they are split 1024 ns apart. -/
example : ¬ [List.replicate 400 (0x61 : UInt8), List.replicate 400 0x62].Perm
    [swapped 154 (List.replicate 400 0x61) (List.replicate 400 0x62), swapped 154 (List.replicate 400 0x62) (List.replicate 400 0x61)] ∧
    2 * (160 - 6) < (List.replicate 400 (0x61 : UInt8)).length ∧ ∃ k : Int, (5024 : Int) = 4000 + 256 * k := by
  refine ⟨swapped_other (by rw [List.length_replicate, List.length_replicate]) (by rw [List.length_replicate]; decide) ?_ ?_,
    by rw [List.length_replicate]; decide, 4, by decide⟩
  · simp only [List.drop_replicate, List.take_replicate]
    intro h
    have := congrArg List.head? h
    simp at this
  · simp only [List.take_replicate]
    intro h
    have := congrArg List.head? h
    simp at this

end Gosms.Parts
