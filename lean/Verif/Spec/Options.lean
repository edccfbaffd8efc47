import Verif.Model.Codec

/-!
# Specification of the message options

A caller passes a list of options, each naming one attribute and a value. What a packet should carry for
an attribute is read off that list: the last value given for the attribute, if that value is one the
attribute can have, and otherwise the account's default.
-/

namespace Gosms.Spec

/-- What a caller can ask for: one constructor for each option of the API. -/
inductive Opt where
  | needReport (v : UInt8)
  | msgLevel (v : UInt8)
  | feeUsertype (v : UInt8)
  | feeTerminalType (v : UInt8)
  | serviceId (s : Bytes)
  | feeTerminalId (s : Bytes)
  | feeType (s : Bytes)
  | feeCode (s : Bytes)
  | validTime (s : Bytes)
  | atTime (t : Clock)
  | atTimeStr (s : Bytes)
  | spSubNo (s : Bytes)
  | linkID (s : Bytes)
  | all (o : MtOptions)
deriving Repr

namespace Opt

/-- The call that asks for it. -/
def call : Opt → OptionFunc
  | needReport v => mtNeedReport v
  | msgLevel v => mtMsgLevel v
  | feeUsertype v => mtFeeUsertype v
  | feeTerminalType v => mtFeeTerminalType v
  | serviceId s => mtServiceId s
  | feeTerminalId s => mtFeeTerminalId s
  | feeType s => mtFeeType s
  | feeCode s => mtFeeCode s
  | validTime s => mtValidTime s
  | atTime t => mtAtTime t
  | atTimeStr s => mtAtTimeStr s
  | spSubNo s => mtSpSubNo s
  | linkID s => mtLinkID s
  | all o => withMtOptions o

/-- The value the last option for the attribute `sel` gives. -/
def last {α : Type} (sel : Opt → Option α) (l : List Opt) : Option α := (l.filterMap sel).getLast?

/-! The value each attribute gets from the options; `none`: the caller gave none (or one that the attribute
cannot have). -/

/-- Status report wanted: 0 or 1. -/
def report (l : List Opt) : Option UInt8 :=
  (last (fun | .needReport v => some v | _ => none) l).filter (fun v => v = 0 ∨ v = 1)

/-- Priority: 0 to 9. -/
def level (l : List Opt) : Option UInt8 :=
  (last (fun | .msgLevel v => some v | _ => none) l).filter (fun v => v ≤ 9)

/-- Who pays: 0 to 3. -/
def userType (l : List Opt) : Option UInt8 :=
  (last (fun | .feeUsertype v => some v | _ => none) l).filter (fun v => v ≤ 3)

/-- Kind of the paying number: 0 or 1. -/
def terminalType (l : List Opt) : Option UInt8 :=
  (last (fun | .feeTerminalType v => some v | _ => none) l).filter (fun v => v = 0 ∨ v = 1)

/-- A text attribute: the empty string is the same as not giving the option. -/
def text (sel : Opt → Option Bytes) (l : List Opt) : Option Bytes :=
  (last sel l).filter (fun s => s ≠ [])

/-- Service id. -/
def service := text (fun | .serviceId s => some s | _ => none)

/-- The paying number. -/
def terminal := text (fun | .feeTerminalId s => some s | _ => none)

/-- Fee code, in cents. -/
def code := text (fun | .feeCode s => some s | _ => none)

/-- Valid until. -/
def valid := text (fun | .validTime s => some s | _ => none)

/-- The number appended to the display number. -/
def subNo := text (fun | .spSubNo s => some s | _ => none)

/-- Link id. -/
def link := text (fun | .linkID s => some s | _ => none)

/-- Fee type: "01" to "05". -/
def fee (l : List Opt) : Option Bytes :=
  (last (fun | .feeType s => some s | _ => none) l).filter
    (fun s => s ∈ [ascii "01", ascii "02", ascii "03", ascii "04", ascii "05"])

/-- Send at: `yyMMddHHmmss` (cut to 12 characters) followed by the zone "032+". -/
def sendAt (l : List Opt) : Option Bytes :=
  last (fun | .atTime t => some (formatTime t) | .atTimeStr s => some (s.take 12 ++ ascii "032+") | _ => none) l

end Opt

end Gosms.Spec
