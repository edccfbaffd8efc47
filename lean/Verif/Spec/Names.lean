import Verif.Model.Names

/-!
# Specification: the commands of each protocol
-/

namespace Gosms.Spec

/-- The requests of each protocol (CMPP 3.0 section 8.3, SMGP 3.0 section 6.1, SGIP 1.2 section 4.2),
as far as the code implements them. A response has the number of its request with the top bit set. -/
def requests : Proto → List (UInt32 × Bytes)
  | .cmpp => [(1, ascii "CMPP_CONNECT"), (2, ascii "CMPP_TERMINATE"), (4, ascii "CMPP_SUBMIT"),
      (5, ascii "CMPP_DELIVER"), (6, ascii "CMPP_QUERY"), (7, ascii "CMPP_CANCEL"),
      (8, ascii "CMPP_ACTIVE_TEST"), (9, ascii "CMPP_FWD")]
  | .smgp => [(1, ascii "SMGP_LOGIN"), (2, ascii "SMGP_SUBMIT"), (3, ascii "SMGP_DELIVER"),
      (4, ascii "SMGP_ACTIVE_TEST"), (6, ascii "SMGP_EXIT")]
  | .sgip => [(1, ascii "SGIP_BIND"), (2, ascii "SGIP_UNBIND"), (3, ascii "SGIP_SUBMIT"),
      (4, ascii "SGIP_DELIVER"), (5, ascii "SGIP_REPORT")]

/-- Requests and responses. -/
def commands (p : Proto) : List (UInt32 × Bytes) :=
  requests p ++ (requests p).map fun (id, name) => (id + 0x80000000, name ++ ascii "_RESP")

/-- Marked as unknown. -/
def IsUnknown (name : Bytes) : Prop := ascii "UNKNOWN" <:+ name

instance (name : Bytes) : Decidable (IsUnknown name) := by unfold IsUnknown; infer_instance

end Gosms.Spec
