import Verif.Model.Cmpp
import Verif.Model.Smgp
import Verif.Model.Sgip
import Verif.Model.Sequences

/-!
# The moments at which packets are made, and what is written of them

The models of the packets take the fields of clock readings as parameters. Here these parameters are what the code computes from the moment of the call,
the zone of the process and the account. Moments are in nanoseconds from the beginning of the year 2000 UTC, zones in seconds east of UTC; years
2000 to 2099.
-/

namespace Gosms.Times

/-- Month and day of a day of the year (both from 0), by going through the months; `feb` is the length of February. Part of Go's `time.Time`
(standard library), used where utils/utils.go:34, codec/cmpp/submit.go:279-280 and codec/smgp/report.go:25-26 format a time. -/
def monthDay (feb yd : Nat) : Nat × Nat :=
  if yd < 31 then (0, yd)
  else if yd < 31 + feb then (1, yd - 31)
  else if yd < 62 + feb then (2, yd - (31 + feb))
  else if yd < 92 + feb then (3, yd - (62 + feb))
  else if yd < 123 + feb then (4, yd - (92 + feb))
  else if yd < 153 + feb then (5, yd - (123 + feb))
  else if yd < 184 + feb then (6, yd - (153 + feb))
  else if yd < 215 + feb then (7, yd - (184 + feb))
  else if yd < 245 + feb then (8, yd - (215 + feb))
  else if yd < 276 + feb then (9, yd - (245 + feb))
  else if yd < 306 + feb then (10, yd - (276 + feb))
  else (11, yd - (306 + feb))

/-- The fields of the clock `n` seconds after the beginning of 2000: Go's `time.Time` (standard library), as used where
utils/utils.go:34, codec/cmpp/submit.go:279-280 and codec/smgp/report.go:25-26 format a time. -/
def civil (n : Nat) : Clock :=
  let day := n / 86400
  let r := day % 1461
  let y := (r - 1) / 365
  let yd := r - (365 * y + if y = 0 then 0 else 1)
  let md := monthDay (if y = 0 then 29 else 28) yd
  ⟨4 * (day / 1461) + y, md.1 + 1, md.2 + 1, n % 86400 / 3600, n % 3600 / 60, n % 60⟩

/-- The reading of a clock in `zone` at the moment `t`: `time.Time` formats in the zone of the value, for `time.Now()` that of the process
(utils/utils.go:33-36). -/
def clockAt (zone t : Int) : Clock := civil (t / 1000000000 + zone).toNat

/-- codec/cmpp/submit.go:52-107 `NewSubmit` called at `now`; the validity is `time.Now().Add(ac.MtValidDuration)` (532-533). -/
def cmppSubmit (zone now : Int) (ac : AuthConf) (phones : List Bytes) (content : Bytes) (seq : UInt32) (opts : List OptionFunc)
    (g : UInt8) (seqs : Nat → UInt32) : Option (List Cmpp.Submit) :=
  Cmpp.newSubmit ac phones content seq opts g (clockAt zone (now + ac.mtValidDuration)) seqs

/-- codec/sgip/submit.go:64-97 `NewSubmit` called at `now`; the validity is `time.Now().Add(ac.MtValidDuration)` (249-250). -/
def sgipSubmit (zone now : Int) (ac : AuthConf) (phones : List Bytes) (content : Bytes) (opts : List OptionFunc)
    (g : UInt8) (seqs : Nat → Sgip.Seq3) : Option (List Sgip.Submit) :=
  Sgip.newSubmit ac phones content opts g (clockAt zone (now + ac.mtValidDuration)) seqs

/-- codec/smgp/submit.go:53-105 `NewSubmit` called at `now`; the sum of line 393 is thrown away, so the validity is `now` (389-395). -/
def smgpSubmit (gbEnc : Bytes → Option Bytes) (zone now : Int) (ac : AuthConf) (phones : List Bytes) (content : Bytes) (seq : UInt32)
    (opts : List OptionFunc) (g : UInt8) (seqs : Nat → UInt32) : Option (List Smgp.Submit) :=
  Smgp.newSubmit gbEnc ac phones content seq opts g (clockAt zone now) seqs

/-- codec/cmpp/submit.go:262-284 `ToDeliveryReport`; `t1` and `t2` are the moments of the two calls of `time.Now` (279-280): the second time is
ten seconds later. -/
def cmppReport (zone t1 t2 : Int) (s : Cmpp.Submit) (msgId : UInt64) (seq : UInt32) (id : UInt64) (smsc : UInt32) : Cmpp.Delivery :=
  s.toDeliveryReport msgId seq id smsc (Smgp.formatMinute (clockAt zone t1)) (Smgp.formatMinute (clockAt zone (t2 + 10000000000)))

/-- codec/smgp/deliver.go:71-86 `NewDeliveryReport` with codec/smgp/report.go:21-65 `NewReport`: `t1`, `t2`, `t3` are the moments of the calls of
`time.Now` at report.go:25, 26 (a minute later) and 29, `t4` at deliver.go:81. The count of `Unix` begins 946684800 seconds earlier. -/
def smgpReport (zone t1 t2 t3 t4 : Int) (ac : AuthConf) (mt : Smgp.Submit) (seq : UInt32) (msgId nextId : Bytes) : Option Smgp.Delivery :=
  Smgp.newDeliveryReport ac mt seq msgId nextId (clockAt zone t4) (clockAt zone t1) (clockAt zone (t2 + 60000000000))
    (t3 / 1000000000 + 946684800).toNat

/-- codec/smgp/deliver.go:44-69 `NewDeliver` called at `now` (52). -/
def smgpDeliver (gbEnc : Bytes → Option Bytes) (zone now : Int) (ac : AuthConf) (phone destNo txt : Bytes) (seq : UInt32) (msgId : Bytes) :
    Smgp.Delivery :=
  Smgp.newDeliver gbEnc ac phone destNo txt seq msgId (clockAt zone now)

/-- utils/bcd_sequence.go:37-53 `NextVal` called at the moments `ts`, one after the other: the reading is `time.Now().Format("01021504")` (40),
in the zone of the process at that moment (which changes where there is summer time). -/
def bcdRun (zone : Int → Int) (tf : BcdSeq) (ts : List Int) : List Bytes := tf.run (ts.map fun t => (clockAt (zone t) t).mmddhhmm)

end Gosms.Times
