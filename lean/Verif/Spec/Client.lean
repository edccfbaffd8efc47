import Verif.Model.Client

/-!
# What the client's callers rely on, in terms of the history of calls
-/

namespace Gosms.Client.Spec

/-- The packets that call `c` has got onto the wire for numbers whose packets were all written, in order, since the
call began: number and sequence number. -/
def sent (c : Nat) (steps : List Step) : List (Bytes × UInt64) :=
  steps.foldl (fun acc x => match x with
    | .send c' phone seqs true _ => if c' = c then acc ++ seqs.map (fun q => (phone, q)) else acc
    | .save c' _ => if c' = c then [] else acc
    | _ => acc) []

/-- A step sends a packet with sequence number `q`. -/
def sends (q : UInt64) : Step → Prop
  | .send _ _ seqs _ _ => q ∈ seqs
  | _ => False

/-- A step is a cleaning of the sequence numbers at which something sent at `t` is older than the limit. -/
def dropsSeq (t : Int) : Step → Prop
  | .cleanSeqs d now => t + d < now
  | _ => False

/-- A step is a cleaning of the query results at which something sent at `t` is older than the limit. -/
def dropsQuery (t : Int) : Step → Prop
  | .cleanQueries _ _ d now => t + d < now
  | _ => False

/-- A step stores results under query id `id`. -/
def saves (id : Int) : Step → Prop
  | .save _ id' => id' = id
  | _ => False

/-- The step is a response of an SGIP carrier. -/
def sgipResp : Step → Prop
  | .resp (.sgip ..) _ => True
  | _ => False

/-- An entry of the query cache is older than `d` at time `now`: its first result was sent more than `d` ago. -/
def old (heap : List Result) (d now : Int) (l : List Nat) : Prop :=
  ∃ i rest r, l = i :: rest ∧ heap[i]? = some r ∧ r.sendTime + d < now

end Gosms.Client.Spec
