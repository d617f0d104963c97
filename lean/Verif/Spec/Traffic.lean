import Verif.Model.Traffic
import Verif.Spec.Conversation

/-! What the property of `Verif.Props.Traffic` talks about. -/
namespace ZKAP.Spec

/-- The operations that are started, in order. -/
def started : List TrafficEvent → List StorageOp
  | [] => []
  | .start op _ _ :: events => op :: started events
  | _ :: events => started events

def IsUpload : StorageOp → Prop
  | .allocateBuckets .. => True
  | _ => False

/-- A client with any history and a server with any shares. -/
structure Household where
  sign : Signer
  cfg : ServerConfig
  history : List SessionEvent
  server : Server

namespace Household

/-- The tables of the client. -/
def store (c : Household) : Tables := (StorageSession.run c.sign c.cfg.pass_value {} c.history).store

/-- The two after these events. -/
def after (c : Household) (events : List TrafficEvent) : Traffic :=
  Traffic.run c.sign c.cfg c.cfg.pass_value ⟨c.store, [], c.server⟩ events

/-- The shares at the storage index of an operation before anything happens. -/
def bucket (c : Household) (op : StorageOp) : Bucket := c.server.buckets (indexOf op)

/-- What an operation costs then. -/
def cost (c : Household) (now : Int) (op : StorageOp) : Int := costOf c.cfg.pass_value (c.bucket op) now op

end Household

/-- When something happens that depends on the time. -/
def TrafficEvent.time : TrafficEvent → Option Int
  | .arrive _ now _ | .receive _ now _ => some now
  | _ => none

/-- The tokens of the client are enough for all the operations together, and the server will perform each of them.
Operations other than uploads are about different storage indexes, which nobody else touches, and leases on
shares that are written to do not end in the period in which all this happens. -/
structure EnoughForAll (c : Household) (first last : Int) (events : List TrafficEvent) : Prop where
  value : 0 < c.cfg.pass_value
  right : ∀ op get_rref o, .start op get_rref o ∈ events → RightServer get_rref
  paid : ∀ op ∈ started events, ¬ Free op ∧ Proper op
  apart : (started events).Pairwise fun a b => IsUpload a ∨ IsUpload b ∨ indexOf a ≠ indexOf b
  each : ∀ op ∈ started events, c.cost first op ≤ 2 ^ 20
  affords : Affords c.store ((started events).map (c.cost first)).sum
  times : 0 ≤ first ∧ ∀ e ∈ events, ∀ now, TrafficEvent.time e = some now → first ≤ now ∧ now ≤ last
  tellable : ∀ op ∈ started events, ¬ IsUpload op → Tellable (c.bucket op)
  willing : ∀ i now room, .arrive i now room ∈ events → ∀ op ∈ started events, Willing (c.bucket op) room op
  leases : ∀ op ∈ started events, IsWrite op → ∀ kv ∈ c.bucket op, Leased kv.2 first → Leased kv.2 last
  undisturbed : ∀ before ops later, events = before ++ .others ops :: later → ∀ op ∈ started events, ¬ IsUpload op →
    ((c.after before).server.run c.cfg ops).buckets (indexOf op) = (c.after before).server.buckets (indexOf op)

/-- Moreover, in the history the issuer did not issue a token again that was found invalid. -/
structure HasTokensForAll (c : Household) (first last : Int) (events : List TrafficEvent) : Prop
    extends EnoughForAll c first last events where
  reissue : NoReissueIn c.sign c.cfg.pass_value {} c.history

/-- The tokens are also good. -/
structure CanPayAll (c : Household) (first last : Int) (events : List TrafficEvent) : Prop
    extends HasTokensForAll c first last events where
  tokens : GoodTokens c.sign c.cfg c.store

/-- How many round trips are left. -/
def roundTrips (job : Ongoing) : Nat :=
  match job.state with
  | .asked => 2
  | .paying _ => 1
  | .over => 0

def isCall : Out → Bool
  | .sent .. => true
  | _ => false

/-- How many calls have been made. -/
def callsMade (job : Ongoing) : Nat := (job.out.filter isCall).length

/-- No operation has failed, each one makes two calls at most, and those that are over have returned. -/
structure NoneFails (c : Household) (events : List TrafficEvent) : Prop where
  jobs : (c.after events).jobs.map (·.op) = started events
  none_failed : ∀ job ∈ (c.after events).jobs, ∀ op e, .raised op e ∉ job.out
  calls : ∀ job ∈ (c.after events).jobs, callsMade job + roundTrips job ≤ 3 ∧ callsMade job ≤ 2
  finished : ∀ job ∈ (c.after events).jobs, roundTrips job = 0 → ∃ r, job.out.getLast? = some (.returned job.op r)

/-- Every event brings the operation it is about nearer to its end: a call that arrives is answered, and after an answer
that arrives there is one round trip less to be made. -/
structure Moves (c : Household) (before : List TrafficEvent) (e : TrafficEvent) (i : Nat) (job : Ongoing) : Prop where
  answered : ∀ now room, e = .arrive i now room → roundTrips job ≠ 0 →
    ∃ job', (c.after (before ++ [e])).jobs[i]? = some job' ∧ job'.reply.isSome ∧ roundTrips job' = roundTrips job
  nearer : ∀ now o, e = .receive i now o → job.reply.isSome →
    ∃ job', (c.after (before ++ [e])).jobs[i]? = some job' ∧ roundTrips job' + 1 = roundTrips job
  kept : (∀ now room, e ≠ .arrive i now room) → (∀ now o, e ≠ .receive i now o) →
    (c.after (before ++ [e])).jobs[i]? = some job

end ZKAP.Spec
