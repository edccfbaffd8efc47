import Verif.Model.Events

/-!
# Specification: a keyed registry

A registry is a partial map from full keys to function lists. Only the names of operations and results are
shared with the model.
-/

namespace Gosms.Spec.Registry
open Gosms.Events (Op Out)

/-- The abstract state. -/
abbrev State (E : Type) := Bytes → Option (List E)

/-- No key registered. -/
def empty {E : Type} : State E := fun _ => none

/-- `m` with `k` bound to `v`. -/
def set {E : Type} (m : State E) (k : Bytes) (v : Option (List E)) : State E :=
  fun k' => if k' = k then v else m k'

/-- The full key: a key that does not begin with the manager's prefix gets it. -/
def Full (pre key k : Bytes) : Prop := (pre <+: key ∧ k = key) ∨ (¬ pre <+: key ∧ k = pre ++ key)

/-- What each operation may answer, and the state after it. -/
def Allowed {E : Type} (m : State E) : Op E → Out E → State E → Prop
  | .register pre key events, out, m' => ∃ k, Full pre key k ∧
      (m k = none ∧ events ≠ [] ∧ out = .ok true ∧ m' = set m k (some events) ∨
       (m k ≠ none ∨ events = []) ∧ out = .ok false ∧ m' = m)
  | .get pre key, out, m' => ∃ k, Full pre key k ∧ out = .found (m k) ∧ m' = m
  | .call pre key, out, m' => ∃ k, Full pre key k ∧ out = .ran ((m k).getD []) ∧ m' = m
  | .delete pre key, out, m' => ∃ k, Full pre key k ∧ out = .done ∧ m' = set m k none
  | .fuzzyCall pre, out, m' => m' = m ∧ ∃ keys : List Bytes, keys.Nodup ∧
      (∀ k, k ∈ keys ↔ pre <+: k ∧ m k ≠ none) ∧ out = .ran (keys.flatMap fun k => (m k).getD [])

/-- A history the registry may show, and the state after it. -/
inductive History {E : Type} : State E → List (Op E × Out E) → State E → Prop where
  | nil (m) : History m [] m
  | cons {m op out m1 h m2} : Allowed m op out m1 → History m1 h m2 → History m ((op, out) :: h) m2

end Gosms.Spec.Registry
