import Verif.Model.Utils

/-!
# What a time written in a packet means (C134)

Readers for the three notations the protocols use, written without looking at how the code writes them. Moments are counted in
seconds from the beginning of the year 2000. What is not a date of the calendar is not read.
-/

namespace Gosms.Spec.Times

/-- The value of an ASCII digit. -/
def digit? (b : UInt8) : Option Nat := if 0x30 ≤ b.toNat ∧ b.toNat ≤ 0x39 then some (b.toNat - 0x30) else none

/-- Two digits. -/
def two (a b : UInt8) : Option Nat := (digit? a).bind fun x => (digit? b).map fun y => 10 * x + y

/-- A text of digits, two by two. -/
def twos : Bytes → Option (List Nat)
  | [] => some []
  | [_] => none
  | a :: b :: r => (two a b).bind fun n => (twos r).map fun ns => n :: ns

/-- Days of a year that are over when a month begins. (Every fourth year of 2000-2099 is a leap year.) -/
def daysBefore (year month : Nat) : Nat :=
  [0, 31, 59, 90, 120, 151, 181, 212, 243, 273, 304, 334].getD (month - 1) 0 + if 2 < month ∧ year % 4 = 0 then 1 else 0

/-- Seconds from the beginning of 2000 to a date and time of the same clock. -/
def seconds (year month day hour minute second : Nat) : Nat :=
  (((365 * year + (year + 3) / 4 + daysBefore year month + (day - 1)) * 24 + hour) * 60 + minute) * 60 + second

/-- Days of a month. -/
def daysIn (year month : Nat) : Nat :=
  if month = 2 then (if year % 4 = 0 then 29 else 28) else if month = 4 ∨ month = 6 ∨ month = 9 ∨ month = 11 then 30 else 31

/-- A date and time that the calendar and the clock have: a month 1 to 12, a day of that month, a time before 24:00:00. -/
def Real (year month day hour minute second : Nat) : Prop :=
  (1 ≤ month ∧ month ≤ 12) ∧ (1 ≤ day ∧ day ≤ daysIn year month) ∧ hour < 24 ∧ minute < 60 ∧ second < 60

instance (y mo d h mi s : Nat) : Decidable (Real y mo d h mi s) := by unfold Real; infer_instance

/-- The absolute time of SMPP 3.3, which the three protocols use for "send at" and "valid until": `YYMMDDhhmmsstnnp` is a local time, a tenth of
a second, and the quarter hours by which that local time is ahead of (`+`) or behind (`-`) UTC. The moment in UTC. -/
def moment (b : Bytes) : Option Int :=
  match twos (b.take 12), b.drop 12 with
  | some [y, mo, d, h, mi, s], [t, n1, n2, p] =>
    match digit? t, two n1 n2 with
    | some _, some q =>
      if ¬ Real y mo d h mi s then none
      else if p = 0x2B then some ((seconds y mo d h mi s : Int) - 900 * q)
      else if p = 0x2D then some ((seconds y mo d h mi s : Int) + 900 * q) else none
    | _, _ => none
  | _, _ => none

/-- `YYMMDDhhmm` of a status report: a minute of the local clock, counted from the beginning of 2000. -/
def minute (b : Bytes) : Option Nat :=
  match twos b with
  | some [y, mo, d, h, mi] => if Real y mo d h mi 0 then some (seconds y mo d h mi 0 / 60) else none
  | _ => none

/-- `YYYYMMDDhhmmss` of an SMGP deliver: a second of the local clock. -/
def second (b : Bytes) : Option Nat :=
  match twos b with
  | some [c, y, mo, d, h, mi, s] => if c = 20 ∧ Real y mo d h mi s then some (seconds y mo d h mi s) else none
  | _ => none

example : moment [0x32,0x36,0x31,0x31,0x31,0x36,0x31,0x38,0x30,0x30,0x30,0x30,0x30,0x33,0x32,0x2B] =
    moment [0x32,0x36,0x31,0x31,0x31,0x36,0x31,0x30,0x30,0x30,0x30,0x30,0x30,0x30,0x30,0x2B] ∧
    moment [0x30,0x30,0x30,0x31,0x30,0x31,0x30,0x30,0x30,0x30,0x30,0x30,0x30,0x30,0x30,0x2B] = some 0 ∧
    moment [0x30,0x30,0x30,0x31,0x30,0x31] = none ∧
    -- the 31st of June
    second [0x32,0x30,0x32,0x36,0x30,0x36,0x33,0x31,0x30,0x30,0x30,0x30,0x30,0x30] = none := by decide

end Gosms.Spec.Times
