import Verif.Model.ReplicaCost
import Verif.Spec.Pricing
import Verif.Spec.Replication

/-! Vocabulary for stating what keeping a replica costs. -/
namespace ZKAP.Spec
open ZKAP

/-- Passes for storing all shares of an object of `size` bytes. -/
def objectCost (v : Int) (enc : ShareEncoding) (size : Nat) : Int :=
  enc.total * passes v (passes enc.needed size)

/-- Passes for what is in the replica: the snapshot, if there is one, and the event streams. -/
def replicaCost (v : Int) (enc : ShareEncoding) (z : Sizes) (r : Replica) : Int :=
  (match r.snapshot with
    | none => 0
    | some snap => objectCost v enc (z.snapshot snap))
  + (r.streams.map (fun kv => objectCost v enc (z.stream kv.2))).sum

/-- At some moment since `n` the replica was as it is in `r`, and it cost at most ten times what a
snapshot of the database of that moment would. -/
def Affordable (v : Int) (enc : ShareEncoding) (z : Sizes) (env : RepEnv) (n : Node) (steps : List RStep)
    (r : Replica) : Prop :=
  ∃ m ∈ moments env n steps, m.replica = r ∧
    replicaCost v enc z r ≤ 10 * objectCost v enc (z.snapshot m.snapshot)

/-- An event stream has reached the replica and the service is about to learn that. -/
def StreamLinked : Activity → Prop
  | .eventUploading _ _ true => True
  | _ => False

/-- The entries of a directory that make up a replica: files with the names replication gives. -/
def ReplicaFile (kv : String × DirectoryEntry) : Bool :=
  kv.2.kind == "filenode" &&
    (kv.1 == "snapshot" || "event-stream-".toList.isPrefixOf kv.1.toList)

end ZKAP.Spec
