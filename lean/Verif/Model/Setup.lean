import Verif.Model.Py

/-!
Setting up replication: `replicate.py:289-347`, `_plugin.py:199-238`, `_plugin.py:327-333` and
`resource.py:215-259`.

`ω` are the write capabilities of directories, `ρ` the read capabilities.  The string form of a
capability in the configuration file is read back as the same capability.  `FilePath.setContent`
replaces the file in one step.

The lock is a symbolic link whose target is the number of the process that holds it
(`twisted.python.lockfile.FilesystemLock`).  A link left over by a process that no longer exists is
ignored.  One process at a time works on a node directory, and of former processes none exists any
more, but their numbers can be given to new ones.
-/
namespace ZKAP

/-- The answer to `POST /replicate`. -/
inductive SetupAnswer (ρ : Type) where
  /-- 201 with the recovery capability. -/
  | created (cap : ρ)
  /-- 409 with the recovery capability. -/
  | conflict (cap : ρ)
  /-- 500. -/
  | failed
  deriving DecidableEq, Repr

/-- A node and its private directory. -/
structure SetupNode (ω ρ : Type) where
  /-- The number of the process. -/
  pid : Nat
  /-- `private/replica.rwcap`. -/
  config : Option ω := none
  /-- `private/replica.rwcap.lock`. -/
  lock : Option Nat := none
  /-- Requests for which the creation of a directory is in progress, in this process. -/
  creating : List Nat := []
  /-- The directories to which replication services of this process write. -/
  services : List ω := []
  /-- All answers ever given, in order. -/
  answers : List (Nat × SetupAnswer ρ) := []

/-- `_plugin.py:199-218` `_get_store`, as far as replication services are concerned: called in every
new process. -/
def SetupNode.start {ω ρ} (n : SetupNode ω ρ) (pid : Nat) : SetupNode ω ρ :=
  { n with
    pid
    creating := []
    services := match n.config with
      | some rw => [rw]
      | none => [] }

/-- `FilesystemLock.lock`: whether the lock could be acquired. -/
def SetupNode.can_lock {ω ρ} (n : SetupNode ω ρ) : Bool :=
  match n.lock with
  | none => true
  | some pid => pid != n.pid

/-- Give an answer. -/
def SetupNode.answer {ω ρ} (n : SetupNode ω ρ) (request : Nat) (a : SetupAnswer ρ) : SetupNode ω ρ :=
  { n with answers := n.answers ++ [(request, a)] }

/-- `POST /replicate` up to the creation of the directory: `replicate.py:297-314` and, if an exception
ends it, `resource.py:237-250`.  `digested` is `digested_capability_string`, `readonly` is
`readonly_directory_from_string`. -/
def SetupNode.post {ω ρ} (digested : ω → String) (readonly : String → Option ρ) (n : SetupNode ω ρ)
    (request : Nat) : SetupNode ω ρ :=
  if n.can_lock then
    match n.config with
    | some rw =>
      -- `ReplicationAlreadySetup`; the lock is released
      let n := { n with lock := none }
      match readonly (digested rw) with
      | some cap => n.answer request (.conflict cap)
      | none => n.answer request .failed
    | none => { n with lock := some n.pid, creating := n.creating ++ [request] }
  else
    -- `AlreadySettingUp`
    n.answer request .failed

/-- The creation of the directory has ended: `replicate.py:314-326`, then `_plugin.py:329-333` and
`resource.py:250-259`. -/
def SetupNode.made {ω ρ} (reader : ω → ρ) (n : SetupNode ω ρ) (request : Nat) (r : Except PyErr ω) :
    SetupNode ω ρ :=
  if request ∈ n.creating then
    let n := { n with creating := n.creating.erase request, lock := none }
    match r with
    | .error _ => n.answer request .failed
    | .ok rw => { n with config := some rw, services := n.services ++ [rw] }.answer request (.created (reader rw))
  else n

/-- What can happen. -/
inductive SetupStep (ω : Type) where
  | post (request : Nat)
  | made (request : Nat) (r : Except PyErr ω)
  /-- The process dies and another one, with the given number, is started. -/
  | restart (pid : Nat)

/-- One step. -/
def SetupNode.step {ω ρ} (reader : ω → ρ) (digested : ω → String) (readonly : String → Option ρ)
    (n : SetupNode ω ρ) : SetupStep ω → SetupNode ω ρ
  | .post request => n.post digested readonly request
  | .made request r => n.made reader request r
  | .restart pid => n.start pid

/-- Several steps. -/
def SetupNode.run {ω ρ} (reader : ω → ρ) (digested : ω → String) (readonly : String → Option ρ)
    (n : SetupNode ω ρ) : List (SetupStep ω) → SetupNode ω ρ
  | [] => n
  | s :: ss => SetupNode.run reader digested readonly (n.step reader digested readonly s) ss

/-- A node that is started for the first time. -/
def newSetupNode {ω ρ} (pid : Nat) : SetupNode ω ρ := { pid }

end ZKAP
