import Verif.Model.Segments
import Verif.Props.ClientPool

/-!
# C89: with the shipped patterns every number has at most one carrier
-/

namespace Gosms.Segments
open Gosms.ClientPool (Isp)

theorem matchSeq_append {x y : List Bytes} {s t : Bytes} (h1 : matchSeq x s = true) (h2 : matchSeq y t = true) :
    matchSeq (x ++ y) (s ++ t) = true := by
  induction x generalizing s with
  | nil => cases s with
    | nil => exact h2
    | cons _ _ => cases h1
  | cons c cs ih => cases s with
    | nil => cases h1
    | cons b bs =>
      simp only [matchSeq, Bool.and_eq_true] at h1
      simp only [List.cons_append, matchSeq, Bool.and_eq_true]
      exact ⟨h1.1, ih h1.2⟩

theorem matchSeq_split {x y : List Bytes} {u : Bytes} (h : matchSeq (x ++ y) u = true) :
    ∃ s t, u = s ++ t ∧ matchSeq x s = true ∧ matchSeq y t = true := by
  induction x generalizing u with
  | nil => exact ⟨[], u, rfl, rfl, h⟩
  | cons c cs ih => cases u with
    | nil => cases h
    | cons b bs =>
      simp only [List.cons_append, matchSeq, Bool.and_eq_true] at h
      obtain ⟨s, t, rfl, h1, h2⟩ := ih h.2
      exact ⟨b :: s, t, rfl, by simp only [matchSeq, Bool.and_eq_true]; exact ⟨h.1, h1⟩, h2⟩

/-- The executable matcher decides the meaning of the expression. -/
theorem matchString_iff (a : Rx) (s : Bytes) : matchString a s = true ↔ Matches a s := by
  unfold matchString
  rw [List.any_eq_true]
  induction a generalizing s with
  | eps =>
    constructor
    · rintro ⟨x, hx, hm⟩
      simp only [expand, List.mem_singleton] at hx
      subst hx
      cases s with
      | nil => exact .eps
      | cons _ _ => cases hm
    · intro h
      cases h
      exact ⟨[], by simp [expand], rfl⟩
  | cls bs =>
    constructor
    · rintro ⟨x, hx, hm⟩
      simp only [expand, List.mem_singleton] at hx
      subst hx
      match s, hm with
      | [b], hm =>
        simp only [matchSeq, Bool.and_true, List.contains_iff_mem] at hm
        exact .cls hm
      | b :: c :: r, hm => simp [matchSeq] at hm
    · intro h
      cases h with
      | cls hb => exact ⟨[bs], by simp [expand], by simpa [matchSeq] using hb⟩
  | seq a b iha ihb =>
    constructor
    · rintro ⟨x, hx, hm⟩
      simp only [expand, List.mem_flatMap, List.mem_map] at hx
      obtain ⟨p, hp, q, hq, rfl⟩ := hx
      obtain ⟨u, v, rfl, h1, h2⟩ := matchSeq_split hm
      exact .seq ((iha u).1 ⟨p, hp, h1⟩) ((ihb v).1 ⟨q, hq, h2⟩)
    · intro h
      cases h with
      | seq h1 h2 =>
        obtain ⟨p, hp, hpm⟩ := (iha _).2 h1
        obtain ⟨q, hq, hqm⟩ := (ihb _).2 h2
        refine ⟨p ++ q, ?_, matchSeq_append hpm hqm⟩
        simp only [expand, List.mem_flatMap, List.mem_map]
        exact ⟨p, hp, q, hq, rfl⟩
  | alt a b iha ihb =>
    constructor
    · rintro ⟨x, hx, hm⟩
      simp only [expand, List.mem_append] at hx
      rcases hx with hx | hx
      · exact .left ((iha s).1 ⟨x, hx, hm⟩)
      · exact .right ((ihb s).1 ⟨x, hx, hm⟩)
    · intro h
      cases h with
      | left h =>
        obtain ⟨p, hp, hpm⟩ := (iha _).2 h
        exact ⟨p, by simp [expand, hp], hpm⟩
      | right h =>
        obtain ⟨p, hp, hpm⟩ := (ihb _).2 h
        exact ⟨p, by simp [expand, hp], hpm⟩

/-- Two sequences of classes that differ in length or have no character in common at some place. -/
def apart : List Bytes → List Bytes → Bool
  | [], [] => false
  | c :: cs, d :: ds => (c.all fun b => !d.contains b) || apart cs ds
  | _, _ => true

theorem apart_sound {x y : List Bytes} (h : apart x y = true) (s : Bytes) : ¬ (matchSeq x s = true ∧ matchSeq y s = true) := by
  induction x generalizing y s with
  | nil => cases y with
    | nil => cases h
    | cons d ds => rintro ⟨h1, h2⟩; cases s with
      | nil => cases h2
      | cons _ _ => cases h1
  | cons c cs ih => cases y with
    | nil => rintro ⟨h1, h2⟩; cases s with
      | nil => cases h1
      | cons _ _ => cases h2
    | cons d ds =>
      rintro ⟨h1, h2⟩
      cases s with
      | nil => cases h1
      | cons b bs =>
        simp only [matchSeq, Bool.and_eq_true, List.contains_iff_mem] at h1 h2
        simp only [apart, Bool.or_eq_true, List.all_eq_true] at h
        rcases h with h | h
        · have := h b h1.1
          simp [h2.1] at this
        · exact ih h bs ⟨h1.2, h2.2⟩

/-- No text matches both expressions. -/
def disjoint (a b : Rx) : Bool := (expand a).all fun x => (expand b).all fun y => apart x y

theorem disjoint_sound {a b : Rx} (h : disjoint a b = true) (s : Bytes) : ¬ (Matches a s ∧ Matches b s) := by
  rintro ⟨h1, h2⟩
  rw [← matchString_iff] at h1 h2
  simp only [matchString, List.any_eq_true] at h1 h2
  obtain ⟨x, hx, hxm⟩ := h1
  obtain ⟨y, hy, hym⟩ := h2
  simp only [disjoint, List.all_eq_true] at h
  exact apart_sound (h x hx y hy) s ⟨hxm, hym⟩

/-- The shipped patterns, parsed. -/
def shipped : Isp → Rx
  | .cmpp => (parse (segment .cmpp)).getD .eps
  | .sgip => (parse (segment .sgip)).getD .eps
  | .smgp => (parse (segment .smgp)).getD .eps

set_option maxRecDepth 100000 in
theorem parse_some (i : Isp) : (parse (segment i)).isSome = true := by cases i <;> decide +kernel

theorem parse_shipped (i : Isp) : parse (segment i) = some (shipped i) := by
  have := parse_some i
  cases i <;> simp only [shipped] <;> (generalize parse _ = o at this ⊢; cases o with
    | none => cases this
    | some x => rfl)

set_option maxRecDepth 100000 in
theorem shipped_disjoint : disjoint (shipped .cmpp) (shipped .sgip) = true ∧ disjoint (shipped .cmpp) (shipped .smgp) = true ∧
    disjoint (shipped .sgip) (shipped .smgp) = true := by decide +kernel

/-- C89: no text whatsoever matches the shipped patterns of two carriers. -/
theorem shipped_at_most_one (s : Bytes) (i j : Isp) (hi : Matches (shipped i) s) (hj : Matches (shipped j) s) : i = j := by
  obtain ⟨h1, h2, h3⟩ := shipped_disjoint
  cases i <;> cases j <;> first | rfl | skip
  · exact absurd ⟨hi, hj⟩ (disjoint_sound h1 s)
  · exact absurd ⟨hi, hj⟩ (disjoint_sound h2 s)
  · exact absurd ⟨hj, hi⟩ (disjoint_sound h1 s)
  · exact absurd ⟨hi, hj⟩ (disjoint_sound h3 s)
  · exact absurd ⟨hj, hi⟩ (disjoint_sound h2 s)
  · exact absurd ⟨hj, hi⟩ (disjoint_sound h3 s)

/-- All characters of a class are digits. -/
def digitSeq (x : List Bytes) : Bool := x.all fun c => c.all fun b => 0x30 ≤ b && b ≤ 0x39

theorem digitSeq_sound {x : List Bytes} (h : digitSeq x = true) {s : Bytes} (hm : matchSeq x s = true) :
    s.length = x.length ∧ ∀ b ∈ s, 0x30 ≤ b ∧ b ≤ 0x39 := by
  induction x generalizing s with
  | nil => cases s with
    | nil => exact ⟨rfl, by simp⟩
    | cons _ _ => cases hm
  | cons c cs ih => cases s with
    | nil => cases hm
    | cons b bs =>
      simp only [matchSeq, Bool.and_eq_true, List.contains_iff_mem] at hm
      simp only [digitSeq, List.all_cons, Bool.and_eq_true] at h
      obtain ⟨i1, i2⟩ := ih (by simpa [digitSeq] using h.2) hm.2
      refine ⟨by simp [i1], ?_⟩
      intro d hd
      rcases List.mem_cons.1 hd with rfl | hd
      · have := (List.all_eq_true.1 h.1) d hm.1
        simpa using this
      · exact i2 d hd

theorem shipped_format : ∀ i, (expand (shipped i)).all (fun x => x.length == 11 && digitSeq x && (x.head? == some [0x31])) = true := by
  intro i
  cases i <;> decide +kernel

/-- C89: only numbers of eleven digits that begin with 1 have a carrier. -/
theorem shipped_numbers (s : Bytes) (i : Isp) (h : Matches (shipped i) s) :
    s.length = 11 ∧ (∀ b ∈ s, 0x30 ≤ b ∧ b ≤ 0x39) ∧ s.head? = some 0x31 := by
  rw [← matchString_iff] at h
  simp only [matchString, List.any_eq_true] at h
  obtain ⟨x, hx, hm⟩ := h
  have hf := (List.all_eq_true.1 (shipped_format i)) x hx
  simp only [Bool.and_eq_true, beq_iff_eq] at hf
  obtain ⟨⟨f1, f2⟩, f3⟩ := hf
  obtain ⟨d1, d2⟩ := digitSeq_sound f2 hm
  refine ⟨by omega, d2, ?_⟩
  cases x with
  | nil => cases f3
  | cons c cs =>
    simp only [List.head?_cons, Option.some.injEq] at f3
    subst f3
    cases s with
    | nil => cases hm
    | cons b bs =>
      simp only [matchSeq, Bool.and_eq_true, List.contains_iff_mem, List.mem_singleton] at hm
      simp [hm.1]

/-- The beginnings of the numbers of each carrier, in full. -/
def Spec.beginnings : Isp → List String
  | .cmpp => ["135", "136", "137", "138", "139", "147", "150", "151", "152", "157", "158", "159", "165", "172", "178", "182", "183", "184", "187",
      "188", "195", "197", "198", "1340", "1341", "1342", "1343", "1344", "1345", "1346", "1347", "1348", "1705"]
  | .sgip => ["130", "131", "132", "145", "146", "155", "156", "166", "167", "171", "175", "176", "185", "186", "196", "1709"]
  | .smgp => ["133", "149", "153", "162", "173", "174", "177", "180", "181", "189", "191", "193", "199", "1349", "1700"]

def digits : Bytes := ascii "0123456789"

theorem mem_digits (b : UInt8) : b ∈ digits ↔ 0x30 ≤ b ∧ b ≤ 0x39 := by
  have h1 : ∀ b ∈ digits, 0x30 ≤ b ∧ b ≤ 0x39 := by decide
  have h2 : ∀ n, n < 58 → 48 ≤ n → UInt8.ofNat n ∈ digits := by decide
  refine ⟨h1 b, fun h => ?_⟩
  have := h2 b.toNat (by have := UInt8.le_iff_toNat_le.1 h.2; simp at this; omega) (UInt8.le_iff_toNat_le.1 h.1)
  rwa [UInt8.ofNat_toNat] at this

/-- The patterns: four classes, then seven digits. -/
theorem shipped_tail : ∀ i, (expand (shipped i)).all (fun x => x.length == 11 && x.drop 4 == List.replicate 7 digits) = true := by
  intro i
  cases i <;> decide +kernel

/-- The first four classes of the patterns. -/
def heads (i : Isp) : List (List Bytes) := (expand (shipped i)).map (·.take 4)

/-- All beginnings of four digits, the first of them 1, checked by the second. -/
def headsAgree (hs : List (List Bytes)) (ps : List Bytes) : Bool :=
  (hs.all fun x => x.head? == some [0x31]) && (ps.all fun p => p.head? == some 0x31) &&
  digits.all fun b =>
    let hs' := hs.filter fun x => match x.tail with | c :: _ => c.contains b | _ => true
    let ps' := ps.filter fun p => match p.tail with | c :: _ => c == b | _ => true
    digits.all fun c => digits.all fun d =>
    hs'.any (fun x => matchSeq x [0x31, b, c, d]) == ps'.any (fun p => p.isPrefixOf [0x31, b, c, d])

set_option maxRecDepth 100000 in
theorem shipped_agree (i : Isp) : headsAgree (heads i) ((Spec.beginnings i).map ascii) = true := by
  cases i <;> decide +kernel

theorem any_filter_of {α : Type} (l : List α) (f g : α → Bool) (h : ∀ x, f x = true → g x = true) : (l.filter g).any f = l.any f := by
  rw [Bool.eq_iff_iff, List.any_eq_true, List.any_eq_true]
  exact ⟨fun ⟨x, h1, h2⟩ => ⟨x, (List.mem_filter.1 h1).1, h2⟩, fun ⟨x, h1, h2⟩ => ⟨x, List.mem_filter.2 ⟨h1, h x h2⟩, h2⟩⟩

theorem shipped_heads (i : Isp) (b c d : UInt8) (hb : b ∈ digits) (hc : c ∈ digits) (hd : d ∈ digits) :
    (expand (shipped i)).any (fun x => matchSeq (x.take 4) [0x31, b, c, d]) =
      (Spec.beginnings i).any (fun p => (ascii p).isPrefixOf [0x31, b, c, d]) := by
  have h := shipped_agree i
  unfold headsAgree at h
  simp only [Bool.and_eq_true, List.all_eq_true, beq_iff_eq] at h
  have := h.2 b hb c hc d hd
  rw [any_filter_of, any_filter_of] at this
  · simpa [heads, List.any_map, Function.comp_def] using this
  · intro p hp
    match p with
    | [] => rfl
    | [x] => rfl
    | x :: y :: r =>
      simp only [List.isPrefixOf, Bool.and_eq_true, beq_iff_eq] at hp
      simpa using hp.2.1
  · intro x hx
    match x with
    | [] => rfl
    | [x] => rfl
    | x :: y :: r =>
      simp only [matchSeq, Bool.and_eq_true] at hx
      exact hx.2.1

theorem matchSeq_digits (n : Nat) (t : Bytes) : matchSeq (List.replicate n digits) t = true ↔ t.length = n ∧ ∀ b ∈ t, b ∈ digits := by
  induction n generalizing t with
  | zero => cases t <;> simp [matchSeq]
  | succ n ih => cases t with
    | nil => simp [List.replicate_succ, matchSeq]
    | cons b t =>
      simp only [List.replicate_succ, matchSeq, Bool.and_eq_true, List.contains_iff_mem, ih, List.length_cons, Nat.add_right_cancel_iff,
        List.forall_mem_cons]
      exact ⟨fun ⟨h1, h2, h3⟩ => ⟨h2, h1, h3⟩, fun ⟨h1, h2, h3⟩ => ⟨h2, h1, h3⟩⟩

/-- C89: exactly which numbers each carrier has: those of eleven digits with one of its beginnings. -/
theorem shipped_numbers_exactly (s : Bytes) (i : Isp) :
    Matches (shipped i) s ↔ s.length = 11 ∧ (∀ b ∈ s, 0x30 ≤ b ∧ b ≤ 0x39) ∧ ∃ p ∈ Spec.beginnings i, ascii p <+: s := by
  have hshort : ∀ p ∈ Spec.beginnings i, (ascii p).length ≤ 4 := by cases i <;> decide
  have hone : ∀ p ∈ Spec.beginnings i, (ascii p).head? = some 0x31 := by cases i <;> decide
  have key : s.length = 11 → (∀ b ∈ s, 0x30 ≤ b ∧ b ≤ 0x39) → s.head? = some 0x31 →
      (Matches (shipped i) s ↔ ∃ p ∈ Spec.beginnings i, ascii p <+: s) := by
    intro hl hd h31
    match s, hl with
    | a :: b :: c :: d :: t, hl =>
      rw [List.head?_cons, Option.some.injEq] at h31
      subst h31
      have hd' : ∀ x ∈ 0x31 :: b :: c :: d :: t, x ∈ digits := fun x hx => (mem_digits x).2 (hd x hx)
      have ht : t.length = 7 := by simpa using hl
      have h1 := shipped_heads i b c d (hd' b (by simp)) (hd' c (by simp)) (hd' d (by simp))
      have h2 : (expand (shipped i)).any (fun x => matchSeq (x.take 4) [0x31, b, c, d]) = matchString (shipped i) (0x31 :: b :: c :: d :: t) := by
        unfold matchString
        rw [Bool.eq_iff_iff, List.any_eq_true, List.any_eq_true]
        refine exists_congr fun x => and_congr_right fun hx => ?_
        have hf := (List.all_eq_true.1 (shipped_tail i)) x hx
        simp only [Bool.and_eq_true, beq_iff_eq] at hf
        have hm : matchSeq (x.drop 4) t = true := by
          rw [hf.2, matchSeq_digits]
          exact ⟨ht, fun y hy => hd' y (by simp [hy])⟩
        constructor
        · intro h
          have := matchSeq_append h hm
          rwa [List.take_append_drop] at this
        · intro h
          match x, hf.1 with
          | x1 :: x2 :: x3 :: x4 :: xs, _ =>
            simp only [matchSeq, Bool.and_eq_true, List.take_succ_cons, List.take_zero] at h ⊢
            exact ⟨h.1, h.2.1, h.2.2.1, h.2.2.2.1, trivial⟩
      rw [← matchString_iff, ← h2, h1, List.any_eq_true]
      refine exists_congr fun p => and_congr_right fun hp => ?_
      rw [List.isPrefixOf_iff_prefix]
      constructor
      · intro h
        exact h.trans ⟨t, rfl⟩
      · intro h
        exact List.prefix_of_prefix_length_le h ⟨t, rfl⟩ (by simpa using hshort p hp)
  constructor
  · intro h
    obtain ⟨h1, h2, h3⟩ := shipped_numbers s i h
    exact ⟨h1, h2, (key h1 h2 h3).1 h⟩
  · rintro ⟨h1, h2, p, hp, h3⟩
    refine (key h1 h2 ?_).2 ⟨p, hp, h3⟩
    have := hone p hp
    obtain ⟨r, rfl⟩ := h3
    cases hq : ascii p with
    | nil => rw [hq] at this; cases this
    | cons x y => rw [hq] at this; exact this

example : (ascii "13800001111").length = 11 ∧ ascii "138" <+: ascii "13800001111" ∧ "138" ∈ Spec.beginnings .cmpp := by decide

/-- C89 and C58 together: with the shipped patterns and all three accounts present, a message to a number goes to the carrier whose
pattern the number matches - there is only one -, and to nobody if it matches none, whatever was sent before. -/
theorem shipped_selection (before : List Bytes) (phone : Bytes) (i : Isp) :
    (ClientPool.select compile ⟨fun _ => true, segment⟩ (ClientPool.after compile ⟨fun _ => true, segment⟩ before) phone).2 = .isp i ↔
      Matches (shipped i) phone := by
  have hc : ∀ j, compile (segment j) = some (matchString (shipped j)) := by
    intro j
    unfold compile
    rw [parse_shipped j]
    rfl
  have hs : ∀ j, ClientPool.Spec.serves compile ⟨fun _ => true, segment⟩ phone j = matchString (shipped j) phone := by
    intro j
    simp only [ClientPool.Spec.serves, hc, Bool.true_and]
  rw [ClientPool.select_first_partial compile ⟨fun _ => true, segment⟩ (fun j _ => by simp only [hc]; simp) before phone]
  have hfind : ClientPool.Spec.carrier compile ⟨fun _ => true, segment⟩ phone = some i ↔ Matches (shipped i) phone := by
    constructor
    · intro h
      have := List.find?_some h
      rw [hs] at this
      exact (matchString_iff _ _).1 this
    · intro h
      cases hf : ClientPool.Spec.carrier compile ⟨fun _ => true, segment⟩ phone with
      | none =>
        have := (List.find?_eq_none.1 hf) i (by cases i <;> simp [ClientPool.Spec.order])
        rw [hs, (matchString_iff _ _).2 h] at this
        exact absurd rfl this
      | some j =>
        have := List.find?_some hf
        rw [hs] at this
        rw [shipped_at_most_one phone i j h ((matchString_iff _ _).1 this)]
  rw [← hfind]
  cases ClientPool.Spec.carrier compile ⟨fun _ => true, segment⟩ phone <;> simp

/-- The default numbers of the client command: one of each carrier; a number of none. -/
example : matchString (shipped .cmpp) (ascii "13800001111") = true ∧ matchString (shipped .smgp) (ascii "13300001111") = true ∧
    matchString (shipped .sgip) (ascii "18600001111") = true ∧ (∀ i, matchString (shipped i) (ascii "12000001111") = false) := by
  refine ⟨by decide +kernel, by decide +kernel, by decide +kernel, ?_⟩
  intro i
  cases i <;> decide +kernel

end Gosms.Segments
