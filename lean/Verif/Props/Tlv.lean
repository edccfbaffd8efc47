import Verif.Model.Tlv
import Verif.Spec.Tlv

/-!
# C12-C15: TLV objects and lists (utils/tlv.go)
-/

namespace Gosms

theorem rd16_be16_pair (x : UInt16) : ∃ a b, be16 x = [a, b] ∧ rd16 [a, b] = x := by
  have hl := length_be16 x
  have hr := rd16_be16 x
  match h : be16 x, hl with
  | [a, b], _ => exact ⟨a, b, rfl, by rw [← h, hr]⟩

theorem binRead16_be16 (x : UInt16) (r : Bytes) : binRead16 (be16 x ++ r) = (.ok x, r) := by
  obtain ⟨a, b, h, h2⟩ := rd16_be16_pair x
  rw [h]
  simp only [List.cons_append, List.nil_append, binRead16, h2]

theorem u16_ofNat_toNat {n : Nat} (h : n < 65536) : (UInt16.ofNat n).toNat = n := by
  rw [UInt16.toNat_ofNat']; omega

/-- Reading the wire form of one TLV followed by anything. -/
theorem readObject_wire (typ : UInt16) (v r : Bytes) (hv : v.length < 65536) :
    readObject (Spec.tlvWire (typ, v) ++ r) = (.ok ⟨typ, UInt16.ofNat v.length, v⟩, r) := by
  unfold readObject
  simp only [Spec.tlvWire, List.append_assoc, binRead16_be16, bufRead, u16_ofNat_toNat hv]
  by_cases h : v ++ r = []
  · have h1 : v = [] := (List.append_eq_nil_iff.mp h).1
    have h2 : r = [] := (List.append_eq_nil_iff.mp h).2
    subst h1 h2
    simp [pad]
  · simp only [h, if_false, List.take_left, List.drop_left, ne_eq, not_true_eq_false]
    rw [pad_self]

/-! ## C12 -/

/-- `New` keeps the type; its length field is the length of the value it holds; a value of at most
65535 bytes is kept whole, a longer one is cut to its length modulo 65536. -/
theorem tlv_new_value (typ : UInt16) (val : Bytes) :
    (Tlv.new typ val).typ = typ ∧
    (Tlv.new typ val).len.toNat = (Tlv.new typ val).val.length ∧
    (Tlv.new typ val).val = val.take (val.length % 65536) ∧
    (val.length < 65536 → (Tlv.new typ val).val = val) := by
  have hm : (UInt16.ofNat val.length).toNat = val.length % 65536 := by
    rw [UInt16.toNat_ofNat']
  have hle : val.length % 65536 ≤ val.length := Nat.mod_le ..
  have hv : (Tlv.new typ val).val = val.take (val.length % 65536) := by
    simp only [Tlv.new, hm, pad]
    have : val.length % 65536 - val.length = 0 := by omega
    rw [this, zeros_zero, List.append_nil]
  refine ⟨rfl, ?_, hv, ?_⟩
  · rw [hv, List.length_take, Nat.min_eq_left hle]; exact hm
  · intro h
    rw [hv, Nat.mod_eq_of_lt h, List.take_length]

/-- **C12.** Encoding a TLV gives type, length and value in big-endian order without error, and
decoding the encoding (also when more bytes follow) gives back the same type, length and value. -/
theorem tlv_roundtrip (typ : UInt16) (val : Bytes) (hv : val.length < 65536) (tail : Bytes) :
    tlvToBytes (Tlv.new typ val) = (Spec.tlvWire (typ, val), none) ∧
    tlvFromBytes (Spec.tlvWire (typ, val) ++ tail) = .ok (Tlv.new typ val) ∧
    (Tlv.new typ val).typ = typ ∧ (Tlv.new typ val).val = val := by
  have hn : Tlv.new typ val = ⟨typ, UInt16.ofNat val.length, val⟩ := by
    have := (tlv_new_value typ val).2.2.2 hv
    have e : Tlv.new typ val = ⟨typ, UInt16.ofNat val.length, (Tlv.new typ val).val⟩ := rfl
    rw [e, this]
  rw [hn]
  refine ⟨?_, ?_, rfl, rfl⟩
  · simp [tlvToBytes, writeObject, Spec.tlvWire]
  · rw [tlvFromBytes, readObject_wire _ _ _ hv]

/-- C12 for over-long values: what is encoded is the cut value, with a matching length field. -/
theorem tlv_overlong (typ : UInt16) (val : Bytes) :
    tlvToBytes (Tlv.new typ val) = (Spec.tlvWire (typ, val.take (val.length % 65536)), none) := by
  obtain ⟨h1, h2, h3, _⟩ := tlv_new_value typ val
  have hl : UInt16.ofNat (Tlv.new typ val).val.length = (Tlv.new typ val).len := by
    rw [← h2]; exact UInt16.ofNat_toNat
  simp only [tlvToBytes, writeObject, hl, ne_eq, not_true_eq_false, if_false, Spec.tlvWire, ← h3]
  rw [h1]

example : tlvToBytes (Tlv.new 0x0102 [9, 8]) = ([1, 2, 0, 2, 9, 8], none) := by decide
example : tlvFromBytes [1, 2, 0, 2, 9, 8, 7] = .ok ⟨0x0102, 2, [9, 8]⟩ := rfl

/-! ## C13 -/

/-- The (type, value) pairs of a list. -/
def tlvPairs (tl : TlvList) : List (UInt16 × Bytes) := tl.map fun t => (t.typ, t.val)

theorem tlvRead_ok {b r : Bytes} {t : Tlv} (h : readObject b = (.ok t, r)) :
    tlvRead b = (t :: (tlvRead r).1, (tlvRead r).2) := by
  rw [tlvRead]; split
  · rename_i h'; rw [h] at h'; cases h'
  · rename_i h'; rw [h] at h'; cases h'; rfl

theorem tlvRead_error {b r : Bytes} {e : TlvErr} (h : readObject b = (.error e, r)) :
    tlvRead b = ([], if e = .eof then none else some e) := by
  rw [tlvRead]; split
  · rename_i h'; rw [h] at h'; cases h'; rfl
  · rename_i h'; rw [h] at h'; cases h'

/-- Reading complete TLVs followed by something: the TLVs, then whatever reading the rest yields. -/
theorem tlvRead_wire (l : List (UInt16 × Bytes)) (hl : ∀ tv ∈ l, tv.2.length < 65536) (r : Bytes) :
    tlvRead (Spec.tlvsWire l ++ r) =
      ((l.map fun tv => Tlv.mk tv.1 (UInt16.ofNat tv.2.length) tv.2) ++ (tlvRead r).1,
        (tlvRead r).2) := by
  induction l with
  | nil => rfl
  | cons tv l ih =>
    have h := readObject_wire tv.1 tv.2 (Spec.tlvsWire l ++ r) (hl tv (by simp))
    have e : Spec.tlvsWire (tv :: l) ++ r = Spec.tlvWire (tv.1, tv.2) ++ (Spec.tlvsWire l ++ r) := by
      simp [Spec.tlvsWire]
    rw [e, tlvRead_ok h, ih fun x hx => hl x (by simp [hx])]
    rfl

theorem tlvRead_nil : tlvRead [] = ([], none) := by
  rw [tlvRead_error (b := []) (r := []) (e := .eof) rfl]; rfl

theorem tlvPairs_mk (l : List (UInt16 × Bytes)) :
    tlvPairs (l.map fun tv => Tlv.mk tv.1 (UInt16.ofNat tv.2.length) tv.2) = l := by
  rw [tlvPairs, List.map_map]
  exact List.map_id'' (fun _ => rfl) l

/-- A list built by `Add` from (type, value) pairs. -/
def tlvBuild (l : List (UInt16 × Bytes)) : TlvList := l.foldl (fun tl tv => tlvAdd tl tv.1 tv.2) newTlvList

theorem tlvBuild_eq (l : List (UInt16 × Bytes)) : tlvBuild l = l.map fun tv => Tlv.new tv.1 tv.2 := by
  have : ∀ (l : List (UInt16 × Bytes)) (acc : TlvList),
      l.foldl (fun tl tv => tlvAdd tl tv.1 tv.2) acc = acc ++ l.map fun tv => Tlv.new tv.1 tv.2 := by
    intro l
    induction l with
    | nil => intro acc; simp
    | cons tv l ih => intro acc; rw [List.foldl_cons, ih]; simp [tlvAdd]
  rw [tlvBuild, this]; rfl

theorem tlvWrite_build (l : List (UInt16 × Bytes)) (hl : ∀ tv ∈ l, tv.2.length < 65536) :
    tlvWrite (tlvBuild l) = (Spec.tlvsWire l, none) := by
  rw [tlvBuild_eq]
  induction l with
  | nil => rfl
  | cons tv l ih =>
    have h := (tlv_roundtrip tv.1 tv.2 (hl tv (by simp)) []).1
    rw [tlvToBytes] at h
    simp only [List.map_cons, tlvWrite, h, ih fun x hx => hl x (by simp [hx])]
    simp [Spec.tlvsWire]

/-- **C13.** A list of any number of TLVs, built with `Add`, is written as the concatenation of its
TLVs, and reading that yields the same list, in order, without error. -/
theorem tlv_list_roundtrip (l : List (UInt16 × Bytes)) (hl : ∀ tv ∈ l, tv.2.length < 65536) :
    tlvWrite (tlvBuild l) = (Spec.tlvsWire l, none) ∧
    tlvRead (Spec.tlvsWire l) = (tlvBuild l, none) ∧
    tlvPairs (tlvBuild l) = l := by
  have hmap : (l.map fun tv => Tlv.mk tv.1 (UInt16.ofNat tv.2.length) tv.2) = tlvBuild l := by
    rw [tlvBuild_eq]
    apply List.map_congr_left
    intro tv htv
    have := (tlv_new_value tv.1 tv.2).2.2.2 (hl tv htv)
    have e : Tlv.new tv.1 tv.2 = ⟨tv.1, UInt16.ofNat tv.2.length, (Tlv.new tv.1 tv.2).val⟩ := rfl
    rw [e, this]
  refine ⟨tlvWrite_build l hl, ?_, ?_⟩
  · have := tlvRead_wire l hl []
    rw [List.append_nil, tlvRead_nil, List.append_nil, hmap] at this
    exact this
  · rw [← hmap, tlvPairs_mk]

example : tlvWrite (tlvBuild [(1, [0]), (9, []), (1, [5, 6])]) =
    ([0, 1, 0, 1, 0, 0, 9, 0, 0, 0, 1, 0, 2, 5, 6], none) := by decide

/-! ## C14 -/

/-- Reading a cut TLV. -/
theorem tlvRead_cut (tv : UInt16 × Bytes) (hv : tv.2.length < 65536) (n : Nat) (h0 : 0 < n)
    (hn : n < (Spec.tlvWire tv).length) :
    tlvRead ((Spec.tlvWire tv).take n) =
      ([], if n = 2 ∨ n = 4 then none else if n < 4 then some .unexpectedEof else some .tlvRead) := by
  obtain ⟨typ, v⟩ := tv
  obtain ⟨a, b, e1, _⟩ := rd16_be16_pair typ
  obtain ⟨c, d, e2, e3⟩ := rd16_be16_pair (UInt16.ofNat v.length)
  have hv : v.length < 65536 := hv
  have hw : Spec.tlvWire (typ, v) = a :: b :: c :: d :: v := by simp [Spec.tlvWire, e1, e2]
  rw [hw] at hn ⊢
  simp only [List.length_cons] at hn
  match n, h0 with
  | 1, _ => rw [show List.take 1 (a :: b :: c :: d :: v) = [a] from rfl]; rw [tlvRead_error (b := [a]) (r := []) (e := .unexpectedEof) rfl]; rfl
  | 2, _ => rw [show List.take 2 (a :: b :: c :: d :: v) = [a, b] from rfl]; rw [tlvRead_error (b := [a, b]) (r := []) (e := .eof) rfl]; rfl
  | 3, _ => rw [show List.take 3 (a :: b :: c :: d :: v) = [a, b, c] from rfl]; rw [tlvRead_error (b := [a, b, c]) (r := []) (e := .unexpectedEof) rfl]; rfl
  | k + 4, _ =>
    have htake : List.take (k + 4) (a :: b :: c :: d :: v) = a :: b :: c :: d :: v.take k := by simp
    rw [htake]
    by_cases hk : k = 0
    · subst hk
      have hread : readObject [a, b, c, d] = (.error .eof, []) := by
        simp only [readObject, binRead16, e3, bufRead, if_true, u16_ofNat_toNat hv]
        rw [if_neg (by omega)]
      rw [List.take_zero, tlvRead_error hread]
      rfl
    · have hne : v.take k ≠ [] := by
        intro hc
        have := congrArg List.length hc
        simp only [List.length_take, List.length_nil] at this
        omega
      have hread : readObject (a :: b :: c :: d :: v.take k) = (.error .tlvRead, []) := by
        simp only [readObject, binRead16, e3, bufRead, hne, if_false, u16_ofNat_toNat hv]
        have h1 : (v.take k).take v.length = v.take k := by
          apply List.take_of_length_le; simp; omega
        have h2 : (v.take k).drop v.length = [] := by
          apply List.drop_of_length_le; simp; omega
        rw [h1, h2]
        have h3 : (v.take k).length = k := by
          rw [List.length_take]; omega
        rw [h3, if_pos]
        intro hc
        have := congrArg UInt16.toNat hc
        rw [u16_ofNat_toNat (by omega), u16_ofNat_toNat hv] at this
        omega
      rw [tlvRead_error hread]
      have h1 : ¬ (k + 4 = 2 ∨ k + 4 = 4) := by omega
      have h2 : ¬ k + 4 < 4 := by omega
      simp only [h1, h2, if_false]
      rfl

/-- Every byte string is some complete TLVs followed by nothing or by a cut TLV: the cases of C14 are
all there are. -/
theorem tlv_area_split (b : Bytes) :
    ∃ (l : List (UInt16 × Bytes)) (r : Bytes), (∀ tv ∈ l, tv.2.length < 65536) ∧
      b = Spec.tlvsWire l ++ r ∧ (r = [] ∨ Spec.CutTlv r) := by
  generalize hn : b.length = n
  induction n using Nat.strongRecOn generalizing b with
  | ind n ih =>
    have cut : ∀ (tv : UInt16 × Bytes), tv.2.length < 65536 → 0 < b.length →
        b.length < (Spec.tlvWire tv).length → b = (Spec.tlvWire tv).take b.length →
        ∃ (l : List (UInt16 × Bytes)) (r : Bytes), (∀ tv ∈ l, tv.2.length < 65536) ∧
          b = Spec.tlvsWire l ++ r ∧ (r = [] ∨ Spec.CutTlv r) := by
      intro tv h1 h2 h3 h4
      exact ⟨[], b, by simp, by simp [Spec.tlvsWire], Or.inr ⟨tv, b.length, h1, h2, h3, h4⟩⟩
    match b, hn with
    | [], _ => exact ⟨[], [], by simp, rfl, Or.inl rfl⟩
    | [x], _ =>
      refine cut (rd16 [x, 0], []) (by simp) (by simp) (by simp [Spec.tlvWire]) ?_
      have := be16_rd16 (b := [x, 0]) rfl
      simp [Spec.tlvWire, this]
    | [x, y], _ =>
      refine cut (rd16 [x, y], []) (by simp) (by simp) (by simp [Spec.tlvWire]) ?_
      have := be16_rd16 (b := [x, y]) rfl
      simp [Spec.tlvWire, this]
    | [x, y, z], _ =>
      have h1 := be16_rd16 (b := [x, y]) rfl
      have h2 := be16_rd16 (b := [z, 0]) rfl
      refine cut (rd16 [x, y], zeros (rd16 [z, 0]).toNat) (by simp; exact (rd16 [z, 0]).toNat_lt)
        (by simp) (by simp [Spec.tlvWire]; omega) ?_
      simp [Spec.tlvWire, h1, h2]
    | x :: y :: z :: w :: rest, hn =>
      have h1 := be16_rd16 (b := [x, y]) rfl
      have h2 := be16_rd16 (b := [z, w]) rfl
      have hlt : (rd16 [z, w]).toNat < 65536 := (rd16 [z, w]).toNat_lt
      by_cases hle : (rd16 [z, w]).toNat ≤ rest.length
      · have hlen : (rest.take (rd16 [z, w]).toNat).length = (rd16 [z, w]).toNat := by simp; omega
        obtain ⟨l, r, g1, g2, g3⟩ := ih (rest.drop (rd16 [z, w]).toNat).length
          (by simp at hn ⊢; omega) (rest.drop (rd16 [z, w]).toNat) rfl
        refine ⟨(rd16 [x, y], rest.take (rd16 [z, w]).toNat) :: l, r, ?_, ?_, g3⟩
        · intro tv htv
          simp only [List.mem_cons] at htv
          rcases htv with rfl | htv
          · simp only; omega
          · exact g1 tv htv
        · simp only [Spec.tlvsWire, List.flatMap_cons, Spec.tlvWire, hlen, UInt16.ofNat_toNat, h1, h2]
          have g2' := g2
          simp only [Spec.tlvsWire] at g2'
          rw [List.append_assoc, ← g2']
          simp
      · have hlen : (pad (rd16 [z, w]).toNat rest).length = (rd16 [z, w]).toNat := length_pad ..
        refine cut (rd16 [x, y], pad (rd16 [z, w]).toNat rest) (by simp only [hlen]; exact hlt)
          (by simp) (by simp [Spec.tlvWire]; omega) ?_
        simp only [Spec.tlvWire, hlen, UInt16.ofNat_toNat, h1, h2]
        rw [pad_of_le (by omega)]
        simp

/-- **C14 (what holds).** Reading complete TLVs followed by a cut one returns the complete ones; an
error is reported except when the cut is exactly after the type or exactly after the length.
Missing: these two cut positions, see `tlv_truncation_fails`. -/
theorem tlv_truncation_partial (l : List (UInt16 × Bytes)) (hl : ∀ tv ∈ l, tv.2.length < 65536)
    (tv : UInt16 × Bytes) (hv : tv.2.length < 65536) (n : Nat) (h0 : 0 < n)
    (hn : n < (Spec.tlvWire tv).length) :
    tlvPairs (tlvRead (Spec.tlvsWire l ++ (Spec.tlvWire tv).take n)).1 = l ∧
    ((tlvRead (Spec.tlvsWire l ++ (Spec.tlvWire tv).take n)).2 ≠ none ↔ n ≠ 2 ∧ n ≠ 4) := by
  rw [tlvRead_wire l hl, tlvRead_cut tv hv n h0 hn]
  constructor
  · rw [List.append_nil, tlvPairs_mk]
  · simp only
    by_cases h : n = 2 ∨ n = 4
    · simp only [h, if_true]
      constructor
      · intro hc; exact absurd rfl hc
      · omega
    · simp only [h, if_false]
      constructor
      · intro _; omega
      · intro _; split <;> simp

/-- **C14 fails**: whatever TLVs come before, a TLV cut after its type, or before its whole (non-empty) value, is silently dropped. -/
theorem tlv_truncation_fails (l : List (UInt16 × Bytes)) (hl : ∀ tv ∈ l, tv.2.length < 65536) (tv : UInt16 × Bytes) (hv : tv.2.length < 65536)
    (hne : tv.2 ≠ []) (n : Nat) (hn : n = 2 ∨ n = 4) :
    Spec.CutTlv ((Spec.tlvWire tv).take n) ∧ tlvPairs (tlvRead (Spec.tlvsWire l ++ (Spec.tlvWire tv).take n)).1 = l ∧
    (tlvRead (Spec.tlvsWire l ++ (Spec.tlvWire tv).take n)).2 = none := by
  have hlen : n < (Spec.tlvWire tv).length := by
    have := List.length_pos_iff.2 hne
    simp [Spec.tlvWire]
    omega
  obtain ⟨h1, h2⟩ := tlv_truncation_partial l hl tv hv n (by omega) hlen
  refine ⟨⟨tv, n, hv, by omega, hlen, rfl⟩, h1, ?_⟩
  apply Classical.byContradiction
  intro h
  have := h2.1 h
  omega

example : tlvRead [0, 9] = ([], none) ∧ tlvRead [0, 9, 0, 1] = ([], none) ∧
    (Spec.tlvWire (9, [7])).take 2 = [0, 9] ∧ (Spec.tlvWire (9, [7])).take 4 = [0, 9, 0, 1] :=
  ⟨tlvRead_cut (9, [7]) (by decide) 2 (by decide) (by decide), tlvRead_cut (9, [7]) (by decide) 4 (by decide) (by decide), by decide, by decide⟩

/-! ## C15 -/

theorem tlvGetAllLoop_eq (tl : TlvList) (typ : UInt16) (ts : List Tlv) :
    tlvGetAllLoop tl typ ts = ts ++ tl.filter (·.typ = typ) := by
  induction tl generalizing ts with
  | nil => simp [tlvGetAllLoop]
  | cons e es ih =>
    rw [tlvGetAllLoop, ih, List.filter_cons]
    by_cases h : e.typ = typ <;> simp [h]

theorem removeFirst_none {p : Tlv → Bool} {tl : TlvList} (h : removeFirst p tl = none) :
    ∀ e ∈ tl, p e = false := by
  induction tl with
  | nil => simp
  | cons e es ih =>
    rw [removeFirst] at h
    split at h
    · cases h
    · rename_i hp
      cases hx : removeFirst p es with
      | none =>
        intro x hx'
        simp only [List.mem_cons] at hx'
        rcases hx' with rfl | hx'
        · simpa using hp
        · exact ih hx x hx'
      | some y => rw [hx] at h; cases h

theorem removeFirst_some {p : Tlv → Bool} {tl tl' : TlvList} (h : removeFirst p tl = some tl') :
    ∃ a e b, tl = a ++ e :: b ∧ tl' = a ++ b ∧ p e = true ∧ ∀ x ∈ a, p x = false := by
  induction tl generalizing tl' with
  | nil => cases h
  | cons e es ih =>
    rw [removeFirst] at h
    split at h
    · rename_i hp
      cases h
      exact ⟨[], e, es, rfl, rfl, hp, by simp⟩
    · rename_i hp
      cases hx : removeFirst p es with
      | none => rw [hx] at h; cases h
      | some y =>
        rw [hx] at h
        simp only [Option.map_some, Option.some.injEq] at h
        obtain ⟨a, x, b, h1, h2, h3, h4⟩ := ih hx
        refine ⟨e :: a, x, b, by rw [h1]; rfl, by rw [← h, h2]; rfl, h3, ?_⟩
        intro z hz
        simp only [List.mem_cons] at hz
        rcases hz with rfl | hz
        · simpa using hp
        · exact h4 z hz

theorem removeLoop_eq (p : Tlv → Bool) (tl : TlvList) (total : Nat) :
    removeLoop p tl total = (tl.filter (fun e => !p e), total + tl.countP p) := by
  generalize hn : tl.length = n
  induction n using Nat.strongRecOn generalizing tl total with
  | ind n ih =>
    rw [removeLoop]
    split
    · rename_i h
      have hall := removeFirst_none h
      rw [List.filter_eq_self.mpr (by intro a ha; simp [hall a ha])]
      rw [List.countP_eq_zero.mpr (by intro a ha; simp [hall a ha])]
      rfl
    · rename_i tl' h
      have hlen := removeFirst_length h
      rw [ih tl'.length (by omega) tl' (total + 1) rfl]
      obtain ⟨a, e, b, h1, h2, h3, _⟩ := removeFirst_some h
      subst h1 h2
      simp [List.filter_append, h3, List.countP_append]
      omega

theorem tlv_equal_iff (a b : Tlv) : Tlv.equal (some a) (some b) = true ↔ a = b := by
  obtain ⟨t1, l1, v1⟩ := a
  obtain ⟨t2, l2, v2⟩ := b
  simp only [Tlv.equal, Tlv.mk.injEq]
  split
  · rename_i h; simp [h]
  · rename_i h1
    split
    · rename_i h; simp [h]
    · rename_i h2
      split
      · rename_i h; simp [h]
      · rename_i h3; simp_all

/-- **C15.** The list operations on an ordered list of TLVs: `Get` finds the first of a type,
`GetAll` all of them in order, `Remove` deletes exactly those of the type and keeps the others in
order, returning how many were deleted, `RemoveObject` likewise for the equal objects (none for a
nil argument), `Add` and `AddObject` append, `Length` counts. -/
theorem tlv_list_ops (tl : TlvList) (typ : UInt16) (obj : Tlv) (v : Bytes) :
    tlvGet tl typ = tl.find? (fun t => t.typ = typ) ∧
    tlvGetAll tl typ = tl.filter (fun t => t.typ = typ) ∧
    tlvRemove tl typ = (tl.filter (fun t => t.typ ≠ typ), tl.countP (fun t => t.typ = typ)) ∧
    tlvRemoveObject tl (some obj) = (tl.filter (fun t => t ≠ obj), tl.countP (fun t => t = obj)) ∧
    tlvRemoveObject tl none = (tl, 0) ∧
    tlvAdd tl typ v = tl ++ [Tlv.new typ v] ∧
    tlvAddObject tl obj = tl ++ [obj] ∧
    tlvLength (tlvAdd tl typ v) = tlvLength tl + 1 ∧
    tlvLength (tlvRemove tl typ).1 + (tlvRemove tl typ).2 = tlvLength tl := by
  have heq : ∀ e, Tlv.equal (some e) (some obj) = decide (e = obj) := by
    intro e
    by_cases h : e = obj
    · simp [h, (tlv_equal_iff obj obj).mpr rfl]
    · have : Tlv.equal (some e) (some obj) ≠ true := fun hc => h ((tlv_equal_iff e obj).mp hc)
      simp [h, this]
  have hrem : tlvRemove tl typ =
      (tl.filter (fun t => t.typ ≠ typ), tl.countP (fun t => t.typ = typ)) := by
    simp [tlvRemove, removeLoop_eq]
  refine ⟨?_, ?_, hrem, ?_, ?_, rfl, rfl, by simp [tlvLength, tlvAdd], ?_⟩
  · induction tl with
    | nil => rfl
    | cons e es ih =>
      rw [tlvGet, List.find?_cons]
      by_cases h : e.typ = typ
      · simp [h]
      · simp only [h, if_false, decide_false]
        rw [ih]
        simp [tlvRemove, removeLoop_eq]
  · simp [tlvGetAll, tlvGetAllLoop_eq]
  · simp [tlvRemoveObject, removeLoop_eq, heq]
  · simp [tlvRemoveObject, removeLoop_eq, Tlv.equal]
  · rw [hrem]
    simp only [tlvLength]
    have := List.length_eq_countP_add_countP (p := fun t : Tlv => decide (t.typ = typ)) (l := tl)
    rw [← List.countP_eq_length_filter]
    have e : (fun t : Tlv => decide (t.typ ≠ typ)) = fun a => decide ¬ (decide (a.typ = typ) = true) := by
      funext t; simp
    rw [e]; omega

example : tlvRemove [⟨1, 1, [5]⟩, ⟨2, 0, []⟩, ⟨1, 1, [6]⟩] 1 = ([⟨2, 0, []⟩], 2) := by
  rw [(tlv_list_ops [⟨1, 1, [5]⟩, ⟨2, 0, []⟩, ⟨1, 1, [6]⟩] 1 ⟨1, 1, [5]⟩ []).2.2.1]; decide

/-- What a user can do to a list of TLVs: `Add` and `AddObject` of a fresh object, adding an object decoded from bytes, `Remove`, `RemoveObject`,
and reading a list from bytes in its place (utils/tlv.go:191-286). -/
inductive TlvUse where
  | add (typ : UInt16) (value : Bytes)
  | addObject (typ : UInt16) (value : Bytes)
  | addDecoded (data : Bytes)
  | remove (typ : UInt16)
  | removeObject (obj : Option Tlv)
  | read (data : Bytes)

/-- The list after one use. utils/tlv.go:70-286 -/
def TlvUse.apply (tl : TlvList) : TlvUse → TlvList
  | .add t v => tlvAdd tl t v
  | .addObject t v => tlvAddObject tl (Tlv.new t v)
  | .addDecoded b => match tlvFromBytes b with
    | .ok o => tlvAddObject tl o
    | .error _ => tl
  | .remove t => (tlvRemove tl t).1
  | .removeObject o => (tlvRemoveObject tl o).1
  | .read b => (tlvRead b).1

theorem length_pad_tlv (n : Nat) (b : Bytes) : (pad n b).length = n := by
  simp [pad, zeros]; omega

theorem readObject_len {b r : Bytes} {t : Tlv} (h : readObject b = (.ok t, r)) : t.len.toNat = t.val.length := by
  unfold readObject at h
  split at h
  · cases h
  · split at h
    · cases h
    · split at h
      · cases h
      · split at h
        · cases h
        · simp only [Prod.mk.injEq, Except.ok.injEq] at h
          rw [← h.1]
          exact (length_pad_tlv _ _).symm

theorem tlvRead_len (b : Bytes) : ∀ t ∈ (tlvRead b).1, t.len.toNat = t.val.length := by
  induction hn : b.length using Nat.strongRecOn generalizing b with
  | _ n ih =>
    subst hn
    cases hr : readObject b with
    | mk x r =>
      cases x with
      | error e => rw [tlvRead_error hr]; simp
      | ok t =>
        rw [tlvRead_ok hr]
        intro u hu
        cases hu with
        | head => exact readObject_len hr
        | tail _ hu => exact ih r.length (readObject_length hr) r rfl u hu

/-- C13: whatever is added to a list, removed from it or read into it, with values of any length, writing the list never fails: it gives
all its objects, one after the other, each with its type, the length of its value and the value. -/
theorem tlv_write_never_fails (uses : List TlvUse) :
    tlvWrite (uses.foldl TlvUse.apply newTlvList) =
      (Spec.tlvsWire (tlvPairs (uses.foldl TlvUse.apply newTlvList)), none) := by
  have inv : ∀ (uses : List TlvUse) (tl : TlvList), (∀ t ∈ tl, t.len.toNat = t.val.length) →
      ∀ t ∈ uses.foldl TlvUse.apply tl, t.len.toNat = t.val.length := by
    intro uses
    induction uses with
    | nil => exact fun _ h => h
    | cons u us ih =>
      intro tl h
      refine ih _ ?_
      have app : ∀ o : Tlv, o.len.toNat = o.val.length → ∀ t ∈ tl ++ [o], t.len.toNat = t.val.length := by
        intro o ho t ht
        rcases List.mem_append.mp ht with ht | ht
        · exact h t ht
        · rw [List.mem_singleton.mp ht]; exact ho
      cases u with
      | add t v => exact app _ (tlv_new_value t v).2.1
      | addObject t v => exact app _ (tlv_new_value t v).2.1
      | addDecoded b =>
        simp only [TlvUse.apply]
        split
        · rename_i o ho
          refine app _ ?_
          cases hr : readObject b with
          | mk x r =>
            unfold tlvFromBytes at ho
            rw [hr] at ho
            simp only at ho
            rw [ho] at hr
            exact readObject_len hr
        · exact h
      | remove t =>
        simp only [TlvUse.apply, tlvRemove, removeLoop_eq]
        exact fun x hx => h x (List.mem_filter.mp hx).1
      | removeObject o =>
        simp only [TlvUse.apply, tlvRemoveObject, removeLoop_eq]
        exact fun x hx => h x (List.mem_filter.mp hx).1
      | read b => exact tlvRead_len b
  have h := inv uses newTlvList (by simp [newTlvList])
  generalize uses.foldl TlvUse.apply newTlvList = tl at h
  induction tl with
  | nil => rfl
  | cons t tl ih =>
    have ht := h t (by simp)
    have e : UInt16.ofNat t.val.length = t.len := by rw [← ht]; exact UInt16.ofNat_toNat
    have hw : writeObject t = (Spec.tlvWire (t.typ, t.val), none) := by
      simp only [writeObject, e, ne_eq, not_true, if_false, Spec.tlvWire]
    rw [tlvWrite, hw]
    simp only
    rw [ih fun x hx => h x (by simp [hx])]
    rfl

example : ([.add 1 [1, 2], .read [0, 5, 0, 1, 7, 0, 6, 0, 0], .addDecoded [0, 9, 0, 1, 3], .remove 6] : List TlvUse).foldl TlvUse.apply newTlvList =
    [⟨5, 1, [7]⟩, ⟨9, 1, [3]⟩] := by decide +kernel

end Gosms
