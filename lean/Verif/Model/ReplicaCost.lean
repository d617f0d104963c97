import Verif.Model.Cost
import Verif.Model.ReplicaGrid

/-!
The snapshot policy applied to a replica: `replicate.py:1007-1035` with `_plugin.py:115-147`.
`Model/Replication.lean` leaves the decision open (`RepEnv.should_snapshot`); here it is what the
plugin installs.
-/
namespace ZKAP

/-- `replicate.py:1023-1035` `_replica_size`.  `and` binds more tightly than `or`: the check of the kind
applies to `snapshot` only. -/
def replica_size (entries : Dict String DirectoryEntry) : List Int :=
  (entries.filter (fun kv =>
    (kv.2.kind == "filenode" && kv.1 == "snapshot") || "event-stream-".toList.isPrefixOf kv.1.toList)).map
      (fun kv => (kv.2.size : Int))

/-- Lengths in bytes, which the model does not compute: of a statement's text, of a
serialized event stream (`EventStream.to_bytes`, `replicate.py:227-262`) and of a serialized snapshot
(`snapshot`, `replicate.py:556-580`). -/
structure Sizes where
  stmt : Stmt → Nat
  stream : List Change → Nat
  snapshot : Snapshot → Nat

/-- The replica directory as the lister (`replicate.py:649-667`) shows it: all of its entries are
files, uploaded by `replicate.py:956` and `998`. -/
def replica_entries (z : Sizes) (r : Replica) : Dict String DirectoryEntry :=
  (match r.snapshot with
    | none => []
    | some snap => [("snapshot", ⟨"filenode", z.snapshot snap⟩)])
  ++ r.streams.map (fun kv => (event_stream_name kv.1, ⟨"filenode", z.stream kv.2⟩))

/-- `replicate.py:1007-1015` `_do_consider_snapshot` with the policy of `_plugin.py:230-234`, which
decides on the length of a new snapshot and the lengths of what is in the replica. -/
def cost_env (pass_value : Int) (encoding : ShareEncoding) (z : Sizes) : RepEnv where
  stmt_size := z.stmt
  stream_size := z.stream
  should_snapshot := fun snap r =>
    (plugin_policy pass_value encoding).should_snapshot (z.snapshot snap) (replica_size (replica_entries z r))

end ZKAP
