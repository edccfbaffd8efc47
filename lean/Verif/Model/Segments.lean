import Verif.Model.ClientPool
import Verif.Model.Utils

/-!
# The number patterns of the shipped configuration

msc_client/config/config.yaml:27, 37, 47 and the part of Go's `regexp` they use: literal characters, character classes, groups,
alternatives, `{n}`, anchored at both ends.
-/

namespace Gosms.Segments

/-- Regular expressions without stars. For the patterns of msc_client/config/config.yaml:27, 37, 47. -/
inductive Rx where
  | eps
  | cls (bs : Bytes)
  | seq (a b : Rx)
  | alt (a b : Rx)
deriving DecidableEq, Repr

/-- The texts an expression stands for (documentation of regexp/syntax). Go's `regexp`, as used at
msc_client/session_factory.go:57. -/
inductive Matches : Rx → Bytes → Prop
  | eps : Matches .eps []
  | cls {bs : Bytes} {b : UInt8} : b ∈ bs → Matches (.cls bs) [b]
  | seq {a b : Rx} {s t : Bytes} : Matches a s → Matches b t → Matches (.seq a b) (s ++ t)
  | left {a b : Rx} {s : Bytes} : Matches a s → Matches (.alt a b) s
  | right {a b : Rx} {s : Bytes} : Matches b s → Matches (.alt a b) s

/-- `a{n}`. As in msc_client/config/config.yaml:27, 37, 47. -/
def times (a : Rx) : Nat → Rx
  | 0 => .eps
  | n + 1 => .seq a (times a n)

/-- The characters from `lo` to `hi`. As in msc_client/config/config.yaml:27, 37, 47. -/
def range (lo hi : UInt8) : Bytes := (List.range (hi.toNat + 1 - lo.toNat)).map fun i => lo + UInt8.ofNat i

/-- The inside of a class, up to `]`. Part of Go's `regexp.Compile`, used at msc_client/session_factory.go:97. -/
def parseClass : Bytes → Option (Bytes × Bytes)
  | [] => none
  | [_] => none
  | a :: b :: rest =>
    if b = 0x5D then some ([a], rest)
    else if b = 0x2D then match rest with
      | hi :: 0x5D :: rest' => some (range a hi, rest')
      | _ => none
    else (parseClass (b :: rest)).map fun (cs, r) => (a :: cs, r)

/-- `{d}` after an atom, one digit. Part of Go's `regexp.Compile`, used at msc_client/session_factory.go:97. -/
def parseTimes (a : Rx) : Bytes → Rx × Bytes
  | 0x7B :: d :: 0x7D :: rest => (times a (d.toNat - 0x30), rest)
  | s => (a, s)

mutual
/-- Alternatives, up to `)` or the end. Part of Go's `regexp.Compile`, used at msc_client/session_factory.go:97. -/
def parseAlt : Nat → Bytes → Option (Rx × Bytes)
  | 0, _ => none
  | n + 1, s => match parseSeq n s with
    | some (a, 0x7C :: rest) => match parseAlt n rest with
      | some (b, rest') => some (.alt a b, rest')
      | none => none
    | r => r
/-- A sequence of atoms, up to `|`, `)`, `$` or the end. Part of Go's `regexp.Compile`, used at
msc_client/session_factory.go:97. -/
def parseSeq : Nat → Bytes → Option (Rx × Bytes)
  | 0, _ => none
  | _ + 1, [] => some (.eps, [])
  | n + 1, c :: s =>
    if c = 0x7C ∨ c = 0x29 ∨ c = 0x24 then some (.eps, c :: s)
    else match parseAtom n (c :: s) with
      | some (a, rest) => match parseSeq n rest with
        | some (b, rest') => some (.seq a b, rest')
        | none => none
      | none => none
/-- A group, a class or a character, with repetition. Part of Go's `regexp.Compile`, used at msc_client/session_factory.go:97.
-/
def parseAtom : Nat → Bytes → Option (Rx × Bytes)
  | 0, _ => none
  | _ + 1, [] => none
  | n + 1, c :: s =>
    if c = 0x28 then match parseAlt n s with
      | some (a, 0x29 :: rest) => some (parseTimes a rest)
      | _ => none
    else if c = 0x5B then match parseClass s with
      | some (bs, rest) => some (parseTimes (.cls bs) rest)
      | none => none
    else some (parseTimes (.cls [c]) s)
end

/-- `regexp.Compile` for patterns `^...$` of this fragment; `none` for all others. Used at msc_client/session_factory.go:97. -/
def parse (s : Bytes) : Option Rx :=
  match s with
  | 0x5E :: rest => match parseAlt (2 * rest.length) rest with
    | some (a, [0x24]) => some a
    | _ => none
  | _ => none

/-- The sequences of classes an expression stands for. Part of Go's `MatchString`, used at msc_client/session_factory.go:57. -/
def expand : Rx → List (List Bytes)
  | .eps => [[]]
  | .cls bs => [[bs]]
  | .seq a b => (expand a).flatMap fun x => (expand b).map fun y => x ++ y
  | .alt a b => expand a ++ expand b

/-- A text of one character of each class. Part of Go's `MatchString`, used at msc_client/session_factory.go:57. -/
def matchSeq : List Bytes → Bytes → Bool
  | [], [] => true
  | c :: cs, b :: bs => c.contains b && matchSeq cs bs
  | _, _ => false

/-- `MatchString`, executable. Used at msc_client/session_factory.go:57. -/
def matchString (a : Rx) (s : Bytes) : Bool := (expand a).any fun x => matchSeq x s

/-- msc_client/config/config.yaml:27, 37, 47 -/
def segment : ClientPool.Isp → Bytes
  | .cmpp => ascii "^1(((3[56789]|47|5[012789]|65|7[28]|8[23478]|9[578])[0-9])|34[0-8]|705)[0-9]{7}$"
  | .sgip => ascii "^1(((3[012]|4[56]|5[56]|6[67]|7[156]|8[56]|9[6])[0-9])|709)[0-9]{7}$"
  | .smgp => ascii "^1(((33|49|53|62|7[347]|8[019]|9[139])[0-9])|349|700)[0-9]{7}$"

/-- `regexp.Compile` as the parameter of Model/ClientPool.lean. Used at msc_client/session_factory.go:97. -/
def compile (s : Bytes) : Option ClientPool.Regex := (parse s).map matchString

end Gosms.Segments
