import Verif.Model.Replication

/-! Nodes that are lost and replaced, again and again. -/
namespace ZKAP

/-- The node that has recovered a replica (`recover.py:219-272`, `resource.py:414-434`), when it has been
started again.  The snapshot restores the rows of `[event-stream]` and `sqlite_sequence` with the others
(`replicate.py:556-580` dumps every table), and the replay of event streams leaves them alone.
`backup-recovery.rst`: "After recovery replication is *not enabled*"; when it is set up, a new directory
is made for the replica (`replicate.py:316`). -/
def Node.heir (snap : Snapshot) (t : Tables) : Node :=
  { tables := { app := t.app }, events := snap.events, seq := snap.seq }

/-- What happens to one node until it is lost, and the order in which its replica is listed then. -/
structure Generation where
  steps : List RStep
  shuffle : List (List Change) → List (List Change)
  perm : ∀ l, (shuffle l).Perm l

/-- The node lost at the end of a generation is replaced by one that recovers its replica. -/
def Node.replaced (env : RepEnv) (n : Node) (g : Generation) : Except PyErr Node :=
  let lost := n.run env g.steps
  match lost.replica.snapshot with
  | none => .error .keyError
  | some snap =>
    match recover lost.replica.snapshot (g.shuffle (lost.replica.streams.map (·.2))) with
    | .error e => .error e
    | .ok t => .ok (Node.heir snap t)

/-- The node after several losses. -/
def Node.lineage (env : RepEnv) (n : Node) : List Generation → Except PyErr Node
  | [] => .ok n
  | g :: gs =>
    match n.replaced env g with
    | .error e => .error e
    | .ok m => m.lineage env gs

end ZKAP
