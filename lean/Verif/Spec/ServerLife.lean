import Verif.Spec.ServerStream
import Verif.Spec.ServerTicks
import Verif.Model.ServerLife

/-!
# Specification: histories of a connection in bytes, with the server's ticks
-/

namespace Gosms.Spec.ServerLife
open Gosms.Spec.ServerTraffic (activeCmd)

/-- The pieces in which the bytes arrive. -/
def segments (steps : List Gosms.ServerLife.Step) : List Bytes :=
  steps.filterMap fun | .data b _ _ => some b | _ => none

/-- All that has been written on the connection, in order: answers and the server's own frames. -/
def written (s : Gosms.ServerLife.State) : List Bytes :=
  s.tk.wire.map fun | .reply x => x.2.1 | .own f _ => f

/-- How many heartbeats have been written. -/
def heartbeats (p : Proto) (s : Gosms.ServerLife.State) : Nat :=
  ((written s).filter fun f => (activeCmd p).any fun c => Gosms.Spec.ServerTraffic.command f = be32 c).length

/-- A packet that answers a heartbeat. -/
def AnswersHeartbeat (p : Proto) (q : Gosms.Traffic.Packet) : Prop := (activeCmd p).map responseOf = some q.cmd

instance (p : Proto) (q : Gosms.Traffic.Packet) : Decidable (AnswersHeartbeat p q) := inferInstanceAs (Decidable (_ = _))

/-- How many answers to heartbeats have arrived. -/
def answersArrived (p : Proto) (qs : List Gosms.Traffic.Packet) (steps : List Gosms.ServerLife.Step) : Nat :=
  ((qs.take (arrived qs (segments steps) (segments steps).length)).filter fun q => AnswersHeartbeat p q).length

/-- The next thing that happens is a tick. -/
def tickNext : List Gosms.ServerLife.Step → Bool
  | .tick _ :: _ => true
  | _ => false

/-- The client answers every heartbeat: it sends no answers in advance, and at every tick as many answers have arrived as heartbeats have been written. -/
def Answering (z : Bool) (gb : Bytes → Option Bytes) (e : Gosms.ServerTraffic.Env) (t0 : Int) (qs : List Gosms.Traffic.Packet)
    (steps : List Gosms.ServerLife.Step) : Prop :=
  ∀ i, i ≤ steps.length →
    answersArrived e.proto qs (steps.take i) ≤ heartbeats e.proto (Gosms.ServerLife.run z gb e t0 (steps.take i)) ∧
    (tickNext (steps.drop i) = true →
      heartbeats e.proto (Gosms.ServerLife.run z gb e t0 (steps.take i)) ≤ answersArrived e.proto qs (steps.take i))

/-- The packets in a history of packets and ticks. -/
def packets (steps : List Gosms.ServerTicks.Step) : List Gosms.Traffic.Packet :=
  steps.filterMap fun | .base (.packet cmd seq body _) _ => some ⟨cmd, seq, body⟩ | _ => none

/-- What a step with bytes is a step of in a history of packets. -/
def Makes : Gosms.ServerLife.Step → Gosms.ServerTicks.Step → Prop
  | .data _ d now, .base (.packet _ _ _ d') now' => d = d' ∧ now = now'
  | .data _ _ now, .base .close now' => now = now'
  | .run i now, .base (.run i') now' => i = i' ∧ now = now'
  | .drop i now, .base (.drop i') now' => i = i' ∧ now = now'
  | .loop now, .base .loop now' => now = now'
  | .close now, .base .close now' => now = now'
  | .tick d, .tick d' => d = d'
  | .task i d, .task i' d' => i = i' ∧ d = d'
  | _, _ => False

end Gosms.Spec.ServerLife
