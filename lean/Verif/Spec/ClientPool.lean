import Verif.Model.ClientPool

/-!
# What is meant by the first carrier that matches

Independent of how factories are made and kept.
-/

namespace Gosms.ClientPool.Spec
open Gosms.ClientPool

/-- The carriers in their order. -/
def order : List Isp := [.cmpp, .sgip, .smgp]

/-- The carrier is usable and its pattern matches the number. -/
def serves (compile : Bytes → Option Regex) (conf : Conf) (phone : Bytes) (i : Isp) : Bool :=
  conf.account i && match compile (conf.segment i) with
    | some re => re phone
    | none => false

/-- The carrier for a number. -/
def carrier (compile : Bytes → Option Regex) (conf : Conf) (phone : Bytes) : Option Isp :=
  order.find? (serves compile conf phone)

/-- Every usable carrier has a pattern that compiles. -/
def PatternsOk (compile : Bytes → Option Regex) (conf : Conf) : Prop :=
  ∀ i, conf.account i = true → compile (conf.segment i) ≠ none

end Gosms.ClientPool.Spec
