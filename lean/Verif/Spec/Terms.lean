import Verif.Spec.Options
import Verif.Spec.Wire

/-!
# Specification: the terms on which a text is sent

What the caller and the account say about a text besides the text and its recipients: the number the recipients see, the service, whether a
report is wanted, the priority, until when and from when it may be delivered, and who pays how much.
-/

namespace Gosms.Spec

/-- The terms of a text. -/
@[ext] structure Terms where
  shown : Bytes
  service : Bytes
  report : UInt8
  priority : UInt8
  validUntil : Bytes
  sendAt : Bytes
deriving DecidableEq, Repr

/-- Who pays, by which tariff, how much. -/
@[ext] structure Billing where
  payer : Bytes
  feeType : Bytes
  feeCode : Bytes
deriving DecidableEq, Repr

/-- What was asked for: the caller's option, or else the account's default. `expiry`: the time of sending plus the account's
validity. -/
def asked (ac : AuthConf) (l : List Opt) (expiry : Clock) : Terms where
  shown := ac.smsDisplayNo ++ (Opt.subNo l).getD []
  service := (Opt.service l).getD ac.serviceId
  report := (Opt.report l).getD ac.needReport
  priority := (Opt.level l).getD ac.defaultMsgLevel
  validUntil := (Opt.valid l).getD (formatTime expiry)
  sendAt := (Opt.sendAt l).getD []

/-- The billing that was asked for. -/
def askedBilling (ac : AuthConf) (l : List Opt) : Billing where
  payer := (Opt.terminal l).getD ac.feeTerminalId
  feeType := (Opt.fee l).getD ac.feeType
  feeCode := (Opt.code l).getD ac.feeCode

/-- The terms can be sent: every text fits into its field. `t` is the width of the two times. -/
def Terms.Fit (t : Nat) (a : Terms) : Prop :=
  Fits 21 a.shown ∧ Fits 10 a.service ∧ Fits t a.validUntil ∧ Fits t a.sendAt

instance (t : Nat) (a : Terms) : Decidable (a.Fit t) := inferInstanceAs (Decidable (_ ∧ _))

/-- `n`: the width of the paying number. -/
def Billing.Fit (n : Nat) (b : Billing) : Prop := Fits n b.payer ∧ Fits 2 b.feeType ∧ Fits 6 b.feeCode

instance (n : Nat) (b : Billing) : Decidable (b.Fit n) := inferInstanceAs (Decidable (_ ∧ _))

end Gosms.Spec
