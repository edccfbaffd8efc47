import Verif.Go.Text

/-!
# Model of utils/utils.go
-/

namespace Gosms

/-- Go slice expression `b[lo:hi]` on a slice whose capacity is its length; `none` is the run-time panic. As at
utils/utils.go:191-224. -/
def goSlice (b : Bytes) (lo hi : Nat) : Option Bytes :=
  if lo ≤ hi ∧ hi ≤ b.length then some ((b.drop lo).take (hi - lo)) else none

/-- utils/utils.go:101-112 `OctetString`. (A negative `fixedLength`, which would panic, is not
modelled: all callers pass literals.) -/
def octetString (s : Bytes) (fixedLength : Nat) : Bytes :=
  if s.length = fixedLength then s
  else if s.length > fixedLength then s.drop (s.length - fixedLength)
  else s ++ zeros (fixedLength - s.length)

/-- `bytes.IndexByte(in, 0)` (standard library); `none` is -1. Used at utils/utils.go:115. -/
def indexZero (b : Bytes) : Option Nat := b.findIdx? (· == 0)

/-- utils/utils.go:114-121 `TrimOctetString`, utils/utils.go:123-125 `TrimStr`. -/
def trimStr (b : Bytes) : Bytes :=
  match indexZero b with
  | none => b
  | some i => b.take i

/-- utils/utils.go:127 `NumTable`. -/
def numTable : List UInt8 :=
  [0x30, 0x31, 0x32, 0x33, 0x34, 0x35, 0x36, 0x37, 0x38, 0x39, 0x61, 0x62, 0x63, 0x64, 0x65, 0x66]

/-- The loop of utils/utils.go:133-135 and 143-145: `for shift := 4*k; shift >= 0; shift -= 4`,
writing `NumTable[(v>>shift)&0x0f]`. -/
def hexLoop (v : Nat) : Nat → Bytes
  | 0 => [numTable.getD ((v >>> 0) &&& 0x0f) 0]
  | k + 1 => numTable.getD ((v >>> (4 * (k + 1))) &&& 0x0f) 0 :: hexLoop v k

/-- utils/utils.go:129-137 `Uint64HexString`: shifts 60, 56, ..., 0. -/
def uint64HexString (i : UInt64) : Bytes := hexLoop i.toNat 15

/-- utils/utils.go:139-147 `Uint32HexString`: shifts 28, 24, ..., 0. -/
def uint32HexString (i : UInt32) : Bytes := hexLoop i.toNat 7

/-- utils/utils.go:161-172 `Bytes2StringSlice`; `none` is a panic (division by zero). -/
def bytes2StringSlice (b : Bytes) (pl : Nat) : Option (List Bytes) :=
  if b.length ≤ pl then some [trimStr b]
  else if pl = 0 then none
  else
    (List.range (b.length / pl)).mapM fun i => (goSlice b (i * pl) ((i + 1) * pl)).map trimStr

/-- utils/utils.go:41-51 `MsgFmt`. -/
def msgFmt (content : Bytes) : UInt8 :=
  if content.length < 2 then 0
  else if content.length = (runes content).length then 0
  else 8

/-- utils/utils.go:53-65 `Utf8ToUcs2`; `none` is the error `ErrInvalidUtf8Rune`. -/
def utf8ToUcs2 (s : Bytes) : Option Bytes :=
  if validUtf8 s then some ((runes s).flatMap utf16Enc) else none

/-- utils/utils.go:67-75 `Ucs2ToUtf8` (the decoder never returns an error). -/
def ucs2ToUtf8 (b : Bytes) : Bytes := (decode16 b).flatMap utf8Enc

/-- One iteration of the loop utils/utils.go:206-222 (slice number `i` of `parts`). The slice is
made with `make`, the six header bytes are set, and the body is copied in. -/
def udhSlice (content : Bytes) (groupId : UInt8) (pkgLen parts tailLen i : Nat) : Option Bytes :=
  let head : Bytes := [0x05, 0x00, 0x03, groupId, UInt8.ofNat parts, UInt8.ofNat (i + 1)]
  let bodyLen := pkgLen - 6
  if i ≠ parts - 1 then
    (goSlice content (bodyLen * i) (bodyLen * (i + 1))).map fun body => head ++ pad (pkgLen - 6) body
  else
    (goSlice content 0 tailLen).map fun body => head ++ pad tailLen body

/-- utils/utils.go:191-224 `ToTPUDHISlices`. `groupId` is the clock-derived message reference
(`byte(time.Now().UnixNano() & 0xff)`, line 204), a parameter here. `pkgLen > 6` is assumed by the
code (it divides by `pkgLen-6`); `none` is a panic. -/
def toTPUDHISlices (groupId : UInt8) (content : Bytes) (pkgLen : Nat) : Option (List Bytes) :=
  if content.length < pkgLen then some [content]
  else
    let bodyLen := pkgLen - 6
    if bodyLen = 0 then none
    else
      let tailLen := content.length % bodyLen
      let parts := if tailLen ≠ 0 then content.length / bodyLen + 1 else content.length / bodyLen
      (List.range parts).mapM fun i => udhSlice content groupId pkgLen parts tailLen i

/-- utils/utils.go:174-186 `MsgSlices`. A transcoding error leaves `msgBytes` nil (line 178). -/
def msgSlices (groupId : UInt8) (fmt : UInt8) (content : Bytes) : Option (List Bytes) :=
  if fmt = 8 then toTPUDHISlices groupId ((utf8ToUcs2 content).getD []) 140
  else toTPUDHISlices groupId content 160

/-- Wall-clock time, the fields `time.Time.Format` prints (standard library). As read at utils/utils.go:23, 34. -/
structure Clock where
  /-- two-digit year -/
  year : Nat
  /-- 1-12 -/
  month : Nat
  /-- 1-31 -/
  day : Nat
  /-- 0-23 -/
  hour : Nat
  /-- 0-59 -/
  minute : Nat
  /-- 0-59 -/
  second : Nat
deriving Repr, DecidableEq

/-- The field ranges Go guarantees for every `time.Time`. As read at utils/utils.go:23, 34. -/
structure Clock.Valid (c : Clock) : Prop where
  year : c.year < 100
  month : c.month < 13
  day : c.day < 32
  hour : c.hour < 24
  minute : c.minute < 60
  second : c.second < 60

/-- the ASCII digit of `d < 10`. Part of Go's `time.Format`, used at utils/utils.go:23, 34. -/
def digit (d : Nat) : UInt8 := UInt8.ofNat (0x30 + d)

/-- two decimal digits, as printed by `time.Format` for "01", "02", "15", "04", "05", "06". Used at utils/utils.go:23, 34. -/
def d2 (n : Nat) : Bytes := [digit (n / 10 % 10), digit (n % 10)]

/-- `time.Format("0102150405")`. Used at utils/utils.go:23. -/
def Clock.mmddhhmmss (c : Clock) : Bytes :=
  d2 c.month ++ d2 c.day ++ d2 c.hour ++ d2 c.minute ++ d2 c.second

/-- `time.Format("01021504")`. Used at utils/bcd_sequence.go:40. -/
def Clock.mmddhhmm (c : Clock) : Bytes := d2 c.month ++ d2 c.day ++ d2 c.hour ++ d2 c.minute

/-- `strconv.Atoi` on a string of digits (standard library). Used at utils/utils.go:24. -/
def atoi (s : Bytes) : Nat := s.foldl (fun a b => a * 10 + (b.toNat - 0x30)) 0

/-- `strconv.FormatInt(v, 10)` / `%d` for `v ≥ 0` (standard library). Used at utils/bcd_sequence.go:56. -/
def dec (v : Nat) : Bytes :=
  if _h : v < 10 then [digit v] else dec (v / 10) ++ [digit (v % 10)]
decreasing_by omega

/-- utils/utils.go:22-26 `Now` (the clock is a parameter). -/
def now (c : Clock) : Bytes × UInt32 := (c.mmddhhmmss, UInt32.ofNat (atoi c.mmddhhmmss))

/-- utils/utils.go:29-31 `TimeStamp2Str`: `fmt.Sprintf("%010d", t)`. -/
def timeStamp2Str (t : UInt32) : Bytes :=
  List.replicate (10 - (dec t.toNat).length) 0x30 ++ dec t.toNat

/-- utils/utils.go:33-36 `FormatTime`: `time.Format("060102150405") + "032+"`. -/
def formatTime (c : Clock) : Bytes :=
  d2 c.year ++ d2 c.month ++ d2 c.day ++ d2 c.hour ++ d2 c.minute ++ d2 c.second
    ++ [0x30, 0x33, 0x32, 0x2B]

/-- ASCII bytes of a string literal (used to transcribe Go string constants). As the literals at
msc_server/bootstrap.go:112-124. -/
def ascii (s : String) : Bytes := s.toList.map fun c => UInt8.ofNat c.toNat

end Gosms
