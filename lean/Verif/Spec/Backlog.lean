import Verif.Spec.Replication

/-! Vocabulary for the amount of changes that wait without an upload being on its way. -/
namespace ZKAP.Spec
open ZKAP

/-- The changes that the upload in progress sends. -/
def sending : Activity → List Change
  | .eventUploading evs _ _ => evs
  | .snapshotUploading snap _ _ => snap.events
  | _ => []

/-- An upload of everything is queued, or the service is about to decide what to upload first. -/
def UploadAhead (n : Node) : Prop :=
  .event_stream ∈ n.jobs ∨ .snapshot ∈ n.jobs ∨ n.activity = .startupListing

/-- The recorded changes that the upload in progress does not send. -/
def unsent (n : Node) : List Change := n.events.filter fun e => !(sending n.activity).contains e

/-- The length of the SQL text of some changes. -/
def textLength (env : RepEnv) (changes : List Change) : Nat := (changes.map fun e => env.stmt_size e.stmt).sum

/-- A serialized event stream is at least as long as the SQL text it contains. -/
def TextCounted (env : RepEnv) : Prop := ∀ changes, textLength env changes ≤ env.stream_size changes

/-- The call records a voucher and its random tokens. -/
def recordsVoucher : StoreOp → Bool
  | .add .. => true
  | _ => false

end ZKAP.Spec
