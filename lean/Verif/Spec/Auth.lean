import Verif.Model.Auth

/-!
# Specification of the account store: which file describes which account
-/

namespace Gosms.Spec.Auth
open Gosms.Auth (Client File)

/-- `f` is the file of the account with the given key, and describes it as `c`: a plain file named
`<name>.yaml` or `<name>.yml`, where `<name>` in lower case is the key, with readable content. -/
def Describes (lower : Bytes → Bytes) (parse : Bytes → Option Client) (f : File) (key : Bytes) (c : Client) :
    Prop :=
  f.isDir = false ∧ parse f.data = some c ∧
  ∃ name, name ≠ [] ∧ (f.name = name ++ ascii ".yaml" ∨ f.name = name ++ ascii ".yml") ∧ lower name = key

/-- `k` is `carrier_clientid` with the carrier in lower case. -/
def Key (lower : Bytes → Bytes) (isp cid k : Bytes) : Prop := k = lower isp ++ ascii "_" ++ cid

end Gosms.Spec.Auth
