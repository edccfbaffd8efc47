import Verif.Model.Startup

/-!
# A process started again and again

Model of what the id generators of one configuration hand out over the lives of the process. A life begins with the program's `init`
functions and ends at any moment, by a signal or a crash, after any number of ids. Nothing is written anywhere that the next life reads:
each life makes its generators anew from the configuration file (msc_server/bootstrap.go:28-47, 112-124; msc_client/bootstrap.go:33-52, 120-132).
-/

namespace Gosms.Restart
open Gosms.Startup

/-- The 64 bit ids handed out (utils/snowflake/snowflake.go:35-62), life by life: each life is given by the readings of its clock and the
number of ids handed out before it ended (msc_server/bootstrap.go:119). `none`: a call of one of the lives has not returned. -/
def b64 (c : Config) : List (List Int × Nat) → Option (List (List (BitVec 64)))
  | [] => some []
  | (clock, n) :: lives => ((seqInit c).b64.run clock n).bind fun ids => (b64 c lives).map (ids :: ·)

/-- The 32 bit numbers handed out (utils/cycle_sequence.go:31-37), life by life: how many in each life (msc_server/bootstrap.go:120). -/
def b32 (c : Config) (lives : List Nat) : List (List (BitVec 32)) :=
  lives.map fun n => (List.range n).map fun k => (seqInit c).b32.nth k

/-- The BCD ids handed out (utils/bcd_sequence.go:37-53), life by life: the minutes in which each life was asked
(msc_server/bootstrap.go:121). -/
def bcd (c : Config) (lives : List (List Bytes)) : List (List Bytes) := lives.map fun ms => (seqInit c).bcd.run ms

/-- The SGIP sequence numbers handed out (codec/sgip/sequence.go:27-43), life by life: the times at which each life was asked
(msc_server/bootstrap.go:122). -/
def sgip (c : Config) (lives : List (List Clock)) : List (List (UInt32 × UInt32 × UInt32)) := lives.map fun cs => (seqInit c).sgip.run cs

end Gosms.Restart
