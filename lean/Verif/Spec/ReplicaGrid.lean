import Verif.Model.ReplicaGrid

/-! What a replica directory is expected to hold, where a path leads to, and what a server sends. -/
namespace ZKAP.Spec

/-! ### Paths on the grid -/

/-- The number of the directory a capability is for. -/
def directory_number : Cap → Option Nat
  | .dirWrite n | .dirRead n => some n
  | .chk _ => none

/-- From directory `n`, the path leads through directories to a file with that content. -/
inductive Resolves (g : MemoryGrid) : Nat → List String → Bytes → Prop where
  | file {n k : Nat} {children : Dict String Cap} {name : String} {data : Bytes} :
      g.dirs.lookup n = some children → children.lookup name = some (.chk k) →
      g.files.lookup k = some data → Resolves g n [name] data
  | directory {n m : Nat} {children : Dict String Cap} {name : String} {cap : Cap}
      {path : List String} {data : Bytes} :
      g.dirs.lookup n = some children → children.lookup name = some cap →
      directory_number cap = some m → Resolves g m path data → Resolves g n (name :: path) data

/-- What the capability is for exists. -/
def Present (g : MemoryGrid) : Cap → Prop
  | .chk n => ∃ data, g.files.lookup n = some data
  | .dirWrite n | .dirRead n => ∃ children, g.dirs.lookup n = some children

/-- No directory has an entry that leads nowhere. -/
def Intact (g : MemoryGrid) : Prop :=
  ∀ n children, g.dirs.lookup n = some children → ∀ e ∈ children, Present g e.2

/-- A history in which only what exists is linked. -/
def LinksPresent : MemoryGrid → List GridOp → Prop
  | _, [] => True
  | g, op :: ops => (∀ d n c, op = .link d n c → Present g c) ∧ LinksPresent (g.step op) ops

/-! ### The replica -/

/-- Names and contents of the files of a replica, in the order in which they were first uploaded. -/
abbrev Files := Dict String Bytes

/-- What is left after pruning: the names for which the predicate says so are dropped; if it raises
for a name then that file and all later ones stay. -/
def pruned (predicate : String → Except PyErr Bool) : Files → Files
  | [] => []
  | (name, data) :: rest =>
    match predicate name with
    | .error _ => (name, data) :: rest
    | .ok true => pruned predicate rest
    | .ok false => (name, data) :: pruned predicate rest

/-- What is done with a replica, and what others do with the grid in between. -/
inductive ReplicaOp where
  | upload (name : String) (data : Bytes)
  | prune (predicate : String → Except PyErr Bool)
  | other (op : GridOp)

/-- The operations of others leave this directory alone. -/
def ReplicaOp.leaves (dir : Cap) : ReplicaOp → Prop
  | .other (.link d _ _) | .other (.unlink d _) => d ≠ dir
  | _ => True

def ReplicaOp.exec (dir : Cap) (g : MemoryGrid) : ReplicaOp → Except PyErr Unit × MemoryGrid
  | .upload name data => direntry_upload g dir name data
  | .prune predicate => direntry_prune g dir predicate
  | .other op => (.ok (), g.step op)

/-- The operations one after another, whatever their outcome. -/
def replica_run (dir : Cap) : MemoryGrid → List ReplicaOp → MemoryGrid
  | g, [] => g
  | g, op :: ops => replica_run dir (op.exec dir g).2 ops

/-- The outcome of each. -/
def replica_outcomes (dir : Cap) : MemoryGrid → List ReplicaOp → List (Except PyErr Unit)
  | _, [] => []
  | g, op :: ops => (op.exec dir g).1 :: replica_outcomes dir (op.exec dir g).2 ops

/-- What the replica should hold after operations with these outcomes. -/
def expected : Files → List (ReplicaOp × Except PyErr Unit) → Files
  | files, [] => files
  | files, (.upload name data, .ok _) :: rest => expected (Dict.set files name data) rest
  | files, (.upload _ _, .error _) :: rest => expected files rest
  | files, (.prune predicate, _) :: rest => expected (pruned predicate files) rest
  | files, (.other _, _) :: rest => expected files rest

/-! ### The local disk -/

/-- The name is a single path segment. -/
def OneSegment (name : String) : Prop := '/' ∉ name.toList

instance (name : String) : Decidable (OneSegment name) := by unfold OneSegment; infer_instance

/-- A normal absolute path. -/
def NormalPath (p : FilePath) : Prop := ∀ s ∈ p, s ≠ "" ∧ s ≠ "." ∧ s ≠ ".."

instance (p : FilePath) : Decidable (NormalPath p) := by unfold NormalPath; infer_instance

/-- The name of an event stream. -/
def IsStream (name : String) : Prop := "event-stream-".toList <+: name.toList

instance (name : String) : Decidable (IsStream name) := by unfold IsStream; infer_instance

/-- What the server sends of the body: all of it if the response was read to its end, else the
beginning. -/
def Sent (body : Bytes) : HttpResult → Prop
  | .failed _ => True
  | .response _ chunks .done => chunks.flatten = body
  | .response _ chunks _ => chunks.flatten <+: body

end ZKAP.Spec
