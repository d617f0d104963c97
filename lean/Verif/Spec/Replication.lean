import Verif.Model.Replication

/-! Vocabulary for stating properties of replication and recovery. -/
namespace ZKAP.Spec
open ZKAP

/-- A node on which replication has never been set up, after any use of its store: nothing
is in the replica; events left in the database (a recovered database has those of the snapshot)
are numbered in order, at most by the last number given. -/
structure Fresh (n : Node) : Prop where
  off : n.activity = .off
  replica : n.replica = {}
  mutations : n.mutations = []
  tables : ∃ ops, n.tables = runStore ops {}
  ordered : n.events.Pairwise (fun a b => a.sequence < b.sequence)
  numbers : ∀ e ∈ n.events, 1 ≤ e.sequence ∧ e.sequence ≤ n.seq.getD 0

/-- Every state the node is in during a history, from the first to the last. -/
def moments (env : RepEnv) (n : Node) : List RStep → List Node
  | [] => [n]
  | s :: ss => n :: moments env (n.step env s) ss

/-- Replication has left some uploaded data unacknowledged or some obsolete data in the
replica: an object was linked and the service does not know yet, or the streams a new snapshot replaces are not
all unlinked. -/
def Unsettled : Activity → Prop
  | .snapshotUploading _ _ true | .eventUploading _ _ true | .pruneListing _ | .pruning _ _ => True
  | _ => False

/-- A call that returns, or raises before it has executed any statement. -/
def CleanCall (n : Node) (op : StoreOp) : Prop :=
  (∃ r, (op.prog.run n.tables).2 = .ok r) ∨ (op.prog.run n.tables).1 = []

/-- The snapshot being uploaded was taken before the first event was ever recorded. -/
def UploadingFirst : Activity → Prop
  | .snapshotUploading snap _ _ => snap.seq = none
  | _ => False

/-- Steps of an undisturbed history.  Calls are clean and change nothing while a snapshot
taken before the first event is being uploaded; the process ends, or an operation on the
grid fails, only when nothing is unsettled; when the process ends no token is in use. -/
def OrderlyStep (n : Node) : RStep → Prop
  | .call op => CleanCall n op ∧
      (UploadingFirst n.activity → (op.prog.run n.tables).1 = [])
  | .restart => n.tables.temp.in_use = [] ∧ ¬ Unsettled n.activity
  | .failed => ¬ Unsettled n.activity
  | .crashedCall _ => False
  | _ => True

/-- Every step is orderly in the state it happens in. -/
def Orderly (env : RepEnv) (n : Node) : List RStep → Prop
  | [] => True
  | s :: ss => OrderlyStep n s ∧ Orderly env (n.step env s) ss

/-- No event stream of the replica is older than its snapshot. -/
def NoStale (r : Replica) : Prop :=
  ∀ snap, r.snapshot = some snap → ∀ kv ∈ r.streams, snap.seq.getD 0 < kv.1

/-- A listing of the event streams of a replica, in any order. -/
def Listing (r : Replica) (l : List (List Change)) : Prop := l.Perm (r.streams.map (·.2))

/-- Recovery from the replica with the streams listed in the order `l` succeeds, giving `t`. -/
def Recovers (r : Replica) (l : List (List Change)) (t : Tables) : Prop :=
  recover r.snapshot l = .ok t

end ZKAP.Spec

namespace ZKAP.Spec
open ZKAP

/-- The event is part of the data an upload in progress is sending. -/
def InUpload (e : Change) : Activity → Prop
  | .eventUploading evs _ _ => e ∈ evs
  | .snapshotUploading snap _ _ => e ∈ snap.events
  | _ => False

/-- An upload that includes the event is queued or in progress, or the service is still looking
at the replica to decide what to upload first. -/
def UploadPending (n : Node) (e : Change) : Prop :=
  .event_stream ∈ n.jobs ∨ .snapshot ∈ n.jobs ∨ InUpload e n.activity ∨ n.activity = .startupListing

/-- The service runs. -/
def Running (n : Node) : Prop := n.activity ≠ .off ∧ n.activity ≠ .dead

end ZKAP.Spec

namespace ZKAP.Spec
open ZKAP

/-- The node after a sequence of calls. -/
def calls (env : RepEnv) (n : Node) : List StoreOp → Node
  | [] => n
  | op :: ops => calls env (n.call env op).2 ops

/-- Every call returns. -/
def AllReturn (env : RepEnv) (n : Node) : List StoreOp → Prop
  | [] => True
  | op :: ops => (∃ a, (n.call env op).1 = .ok a) ∧ AllReturn env (n.call env op).2 ops

/-- Every call returns or raises before executing anything. -/
def AllClean (env : RepEnv) (n : Node) : List StoreOp → Prop
  | [] => True
  | op :: ops => CleanCall n op ∧ AllClean env (n.call env op).2 ops

/-- The statements of the transactions that were committed, in order. -/
def committed (env : RepEnv) (n : Node) : List StoreOp → List Stmt
  | [] => []
  | op :: ops =>
    (match (n.call env op).1 with
      | .ok _ => (op.prog.run n.tables).1.flatMap (·.stmts)
      | .error _ => []) ++ committed env (n.call env op).2 ops

/-- A node whose changes are being recorded, with no failed call since the last successful one. -/
structure Recording (n : Node) : Prop where
  on : n.activity ≠ .off
  mutations : n.mutations = []
  tables : ∃ ops, n.tables = runStore ops {}

/-- Calls that return or raise before executing anything, uploads and listings that succeed, no restart. -/
def Smooth (env : RepEnv) (n : Node) : List RStep → Prop
  | [] => True
  | s :: ss =>
    (match s with
      | .call op => CleanCall n op
      | .restart | .crashedCall _ | .failed => False
      | _ => True) ∧ Smooth env (n.step env s) ss

/-- The event is in the replica: in an event stream, or in a snapshot taken after it was recorded. -/
def InReplica (r : Replica) (e : Change) : Prop :=
  (∃ kv ∈ r.streams, e ∈ kv.2) ∨ ∃ snap, r.snapshot = some snap ∧ e ∈ snap.events

/-- The grid carries out an operation of the replication service, or answers it. -/
def IsAnswer : RStep → Prop
  | .listed | .linked | .uploaded | .unlinked => True
  | _ => False

/-- The process does not end. -/
def NoRestart : RStep → Prop
  | .restart | .crashedCall _ => False
  | _ => True

end ZKAP.Spec
