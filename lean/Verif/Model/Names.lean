import Verif.Model.Utils

/-!
# Command names

Model of `CommandId.String` of the three protocols. Strings are byte strings; indexing a slice outside
its bounds (a panic) is `none`.
-/

namespace Gosms

/-- The three carriers' protocols; msc_server/server/server.go:24-26. -/
inductive Proto where
  | cmpp | sgip | smgp
deriving DecidableEq, Repr

/-- codec/cmpp/variables.go:59-86 `CommandId.String` -/
def Cmpp.commandName (id : UInt32) : Option Bytes :=
  if id > 0 ∧ id < 10 then
    [ascii "CMPP_CONNECT", ascii "CMPP_TERMINATE", ascii "CMPP_UNKNOWN", ascii "CMPP_SUBMIT",
     ascii "CMPP_DELIVER", ascii "CMPP_QUERY", ascii "CMPP_CANCEL", ascii "CMPP_ACTIVE_TEST",
     ascii "CMPP_FWD"][(id - 1).toNat]?
  else if id > 0x80000000 ∧ id < 0x8000000A then
    [ascii "CMPP_CONNECT_RESP", ascii "CMPP_TERMINATE_RESP", ascii "CMPP_UNKNOWN",
     ascii "CMPP_SUBMIT_RESP", ascii "CMPP_DELIVER_RESP", ascii "CMPP_QUERY_RESP",
     ascii "CMPP_CANCEL_RESP", ascii "CMPP_ACTIVE_TEST_RESP", ascii "CMPP_FWD_RESP"][(id - 0x80000001).toNat]?
  else some (ascii "UNKNOWN")

/-- codec/smgp/variables.go:83-104 `CommandId.String` -/
def Smgp.commandName (id : UInt32) : Option Bytes :=
  if id > 0 ∧ id < 7 then
    [ascii "SMGP_LOGIN", ascii "SMGP_SUBMIT", ascii "SMGP_DELIVER", ascii "SMGP_ACTIVE_TEST",
     ascii "UNKNOWN", ascii "SMGP_EXIT"][(id - 1).toNat]?
  else if id > 0x80000000 ∧ id < 0x80000007 then
    [ascii "SMGP_LOGIN_RESP", ascii "SMGP_SUBMIT_RESP", ascii "SMGP_DELIVER_RESP",
     ascii "SMGP_ACTIVE_TEST_RESP", ascii "UNKNOWN", ascii "SMGP_EXIT_RESP"][(id - 0x80000001).toNat]?
  else some (ascii "UNKNOWN")

/-- codec/sgip/variables.go:49-68 `CommandId.String` -/
def Sgip.commandName (id : UInt32) : Option Bytes :=
  if id > 0 ∧ id < 6 then
    [ascii "SGIP_BIND", ascii "SGIP_UNBIND", ascii "SGIP_SUBMIT", ascii "SGIP_DELIVER",
     ascii "SGIP_REPORT"][(id - 1).toNat]?
  else if id > 0x80000000 ∧ id < 0x80000006 then
    [ascii "SGIP_BIND_RESP", ascii "SGIP_UNBIND_RESP", ascii "SGIP_SUBMIT_RESP",
     ascii "SGIP_DELIVER_RESP", ascii "SGIP_REPORT_RESP"][(id - 0x80000001).toNat]?
  else some (ascii "UNKNOWN")

/-- msc_server/server/on_traffic.go:74-82: the name of a command in the server's protocol. -/
def commandName : Proto → UInt32 → Option Bytes
  | .cmpp => Cmpp.commandName
  | .sgip => Sgip.commandName
  | .smgp => Smgp.commandName

end Gosms
