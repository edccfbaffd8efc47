import Verif.Spec.Names

/-!
# C65: command names
-/

namespace Gosms

/-- Split a range test on a command id into its members. -/
theorem mem_range32 {lo id : UInt32} {n : Nat} (h1 : lo < id) (h2 : id.toNat ≤ lo.toNat + n) :
    id ∈ (List.range n).map fun k => lo + UInt32.ofNat (k + 1) := by
  rw [List.mem_map]
  have h1' := UInt32.lt_iff_toNat_lt.1 h1
  have hid := id.toNat_lt
  refine ⟨id.toNat - lo.toNat - 1, by rw [List.mem_range]; omega, ?_⟩
  apply UInt32.toNat_inj.1
  rw [UInt32.toNat_add, UInt32.toNat_ofNat']
  omega

/-- Number of the last request of the table. -/
def lastRequest : Proto → Nat
  | .cmpp => 9
  | .smgp => 6
  | .sgip => 5

/-- The ids inside the two tables. -/
def tableIds (p : Proto) : List UInt32 :=
  ((List.range (lastRequest p)).map fun k => (0 : UInt32) + UInt32.ofNat (k + 1)) ++
  ((List.range (lastRequest p)).map fun k => (0x80000000 : UInt32) + UInt32.ofNat (k + 1))

/-- An id outside the tables is "UNKNOWN". -/
theorem commandName_outside (p : Proto) (id : UInt32) (h : id ∉ tableIds p) :
    commandName p id = some (ascii "UNKNOWN") := by
  unfold tableIds at h
  rw [List.mem_append, not_or] at h
  obtain ⟨ha, hb⟩ := h
  cases p with
  | cmpp =>
    have h1 : ¬ (id > 0 ∧ id < 10) := fun ⟨x, y⟩ => ha (mem_range32 x (by
      have := UInt32.lt_iff_toNat_lt.1 y
      have e : (10 : UInt32).toNat = 10 := rfl
      simp only [lastRequest]; omega))
    have h2 : ¬ (id > 0x80000000 ∧ id < 0x8000000A) := fun ⟨x, y⟩ => hb (mem_range32 x (by
      have := UInt32.lt_iff_toNat_lt.1 y
      have e : (0x8000000A : UInt32).toNat = 0x8000000A := rfl
      have e' : (0x80000000 : UInt32).toNat = 0x80000000 := rfl
      simp only [lastRequest]; omega))
    simp only [commandName, Cmpp.commandName, if_neg h1, if_neg h2]
  | smgp =>
    have h1 : ¬ (id > 0 ∧ id < 7) := fun ⟨x, y⟩ => ha (mem_range32 x (by
      have := UInt32.lt_iff_toNat_lt.1 y
      have e : (7 : UInt32).toNat = 7 := rfl
      simp only [lastRequest]; omega))
    have h2 : ¬ (id > 0x80000000 ∧ id < 0x80000007) := fun ⟨x, y⟩ => hb (mem_range32 x (by
      have := UInt32.lt_iff_toNat_lt.1 y
      have e : (0x80000007 : UInt32).toNat = 0x80000007 := rfl
      have e' : (0x80000000 : UInt32).toNat = 0x80000000 := rfl
      simp only [lastRequest]; omega))
    simp only [commandName, Smgp.commandName, if_neg h1, if_neg h2]
  | sgip =>
    have h1 : ¬ (id > 0 ∧ id < 6) := fun ⟨x, y⟩ => ha (mem_range32 x (by
      have := UInt32.lt_iff_toNat_lt.1 y
      have e : (6 : UInt32).toNat = 6 := rfl
      simp only [lastRequest]; omega))
    have h2 : ¬ (id > 0x80000000 ∧ id < 0x80000006) := fun ⟨x, y⟩ => hb (mem_range32 x (by
      have := UInt32.lt_iff_toNat_lt.1 y
      have e : (0x80000006 : UInt32).toNat = 0x80000006 := rfl
      have e' : (0x80000000 : UInt32).toNat = 0x80000000 := rfl
      simp only [lastRequest]; omega))
    simp only [commandName, Sgip.commandName, if_neg h1, if_neg h2]

/-- The statement for one id, as a computation. -/
def nameGood (p : Proto) (id : UInt32) : Bool :=
  match commandName p id with
  | none => false
  | some name =>
    (Spec.IsUnknown name || (id, name) ∈ Spec.commands p) &&
    (id ∉ (Spec.commands p).map Prod.fst || ¬ Spec.IsUnknown name)

set_option maxRecDepth 8000 in
theorem nameGood_inside : ∀ p : Proto, ∀ id ∈ tableIds p, nameGood p id = true := by
  intro p
  cases p <;> decide

theorem commands_inside (p : Proto) : ∀ id ∈ (Spec.commands p).map Prod.fst, id ∈ tableIds p := by
  cases p <;> decide

/-- For every command id the lookup returns a name (it never indexes outside its table). If the id is one of
the protocol's commands, it is that command's name, which is not marked unknown; any other id gets a name
marked unknown. -/
theorem command_names (p : Proto) (id : UInt32) :
    ∃ name, commandName p id = some name ∧
      (¬ Spec.IsUnknown name → (id, name) ∈ Spec.commands p) ∧
      (id ∈ (Spec.commands p).map Prod.fst → ¬ Spec.IsUnknown name) := by
  by_cases h : id ∈ tableIds p
  · have := nameGood_inside p id h
    unfold nameGood at this
    split at this
    · cases this
    · rename_i name hn
      refine ⟨name, hn, ?_⟩
      simp only [Bool.and_eq_true, Bool.or_eq_true, decide_eq_true_eq] at this
      exact ⟨fun hu => this.1.resolve_left hu, fun hm => this.2.resolve_left (fun x => x hm)⟩
  · exact ⟨_, commandName_outside p id h, fun hu => absurd (List.suffix_refl _) hu,
      fun hm => absurd (commands_inside p id hm) h⟩

/-- Known commands have different names, so a name identifies the command. -/
theorem command_names_distinct (p : Proto) (a b : UInt32) (name : Bytes)
    (ha : commandName p a = some name) (hb : commandName p b = some name)
    (hn : ¬ Spec.IsUnknown name) : a = b := by
  obtain ⟨n1, h1, h2, _⟩ := command_names p a
  obtain ⟨n2, h3, h4, _⟩ := command_names p b
  rw [ha, Option.some.injEq] at h1
  rw [hb, Option.some.injEq] at h3
  subst h1; subst h3
  have key : ∀ x ∈ Spec.commands p, ∀ y ∈ Spec.commands p, x.2 = y.2 → x.1 = y.1 := by
    cases p <;> decide
  exact key _ (h2 hn) _ (h4 hn) rfl

example : commandName .cmpp 4 = some (ascii "CMPP_SUBMIT") ∧
    (4, ascii "CMPP_SUBMIT") ∈ Spec.commands .cmpp ∧ ¬ Spec.IsUnknown (ascii "CMPP_SUBMIT") ∧
    commandName .smgp 5 = some (ascii "UNKNOWN") := by decide

end Gosms
