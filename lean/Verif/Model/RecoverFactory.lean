import Verif.Model.Recovery
import Verif.Model.Json

/-!
The clients of a recovery: `RecoverProtocol` and `RecoverFactory` (`resource.py:262-433`).

Left out: the reason of a failure that is part of an update, logging, and the parsing of JSON and of
capabilities (`readonly_directory_from_string`, a parameter).  `κ` are the capabilities.
-/
namespace ZKAP

/-- What a client is sent: the update for a stage, or the end of the connection with a code. -/
inductive Sent where
  | update (stage : RecoveryStages)
  | close (code : Option Nat)
  deriving DecidableEq, Repr

/-- `AttributeError`. -/
def attribute_error : PyErr := .other 100

/-- `RecoverFactory`.  Clients are told apart by a number.  `sent_updates` is `node.reported`;
`recovering_d is not None` is `node.requested`. -/
structure RecoverFactory (κ : Type) where
  node : RecoveringNode
  recovering_cap : Option κ := none
  clients : List Nat := []
  /-- Everything that was sent, to any client, in order. -/
  log : List (Nat × Sent) := []

/-- `sendMessage` or `sendClose` for all clients in the list, `resource.py:353-354` and
`resource.py:377-378`. -/
def RecoverFactory.broadcast {κ} (f : RecoverFactory κ) (m : Sent) : RecoverFactory κ :=
  { f with log := f.log ++ f.clients.map fun c => (c, m) }

/-- The recoverer goes on: `resource.py:347-354` `_on_state_change` is called for every new state.
(The list of clients does not change meanwhile.) -/
def RecoverFactory.go_on {κ} (f : RecoverFactory κ) (n : RecoveringNode) : RecoverFactory κ :=
  (n.reported.drop f.node.reported.length).foldl (fun f s => f.broadcast (.update s)) { f with node := n }

/-- `resource.py:356-409` `initiate_recovery`.  If the coroutine ends at once the callbacks run at
once, otherwise when the download has ended. -/
def RecoverFactory.initiate_recovery {κ} [DecidableEq κ] (f : RecoverFactory κ) (cap : κ) (client : Nat) :
    RecoverFactory κ × Except PyErr Unit :=
  let f := { f with clients := f.clients ++ [client] }
  if f.node.requested = false then
    let f := { f with recovering_cap := some cap }.go_on f.node.request
    if f.node.waiting then (f, .ok ()) else (f.broadcast (.close none), .ok ())
  else if f.recovering_cap ≠ some cap then
    -- `self.sendClose`: a factory has no such attribute
    (f, .error attribute_error)
  else
    ({ f with log := f.log ++ f.node.reported.map fun s => (client, .update s) }, .ok ())

/-- `resource.py:290-308`: the capability in a request.  `none`: the payload is not JSON. -/
def parse_recovery_request {κ} (readonly : String → Option κ) (payload : Option Json) : Except PyErr κ :=
  match payload with
  | some (.obj [(k, v)]) =>
    if k = "recovery-capability" then
      match v with
      | .str s =>
        match readonly s with
        | some cap => .ok cap
        | none => .error .valueError
      | _ => .error .valueError
    else .error .valueError
  | _ => .error .valueError

/-- `resource.py:290-315` `onMessage`. -/
def RecoverFactory.on_message {κ} [DecidableEq κ] (readonly : String → Option κ) (f : RecoverFactory κ)
    (client : Nat) (payload : Option Json) : RecoverFactory κ × Except PyErr Unit :=
  match parse_recovery_request readonly payload with
  | .error _ => ({ f with log := f.log ++ [(client, .close (some 4000))] }, .ok ())
  | .ok cap => f.initiate_recovery cap client

/-- `resource.py:279-288` `onClose`: the connection of a client is gone. -/
def RecoverFactory.on_close {κ} (f : RecoverFactory κ) (client : Nat) : RecoverFactory κ :=
  { f with clients := f.clients.erase client }

/-- What can happen to the factory and the recovery. -/
inductive FactoryStep where
  | message (client : Nat) (payload : Option Json)
  | closed (client : Nat)
  | call (statements : List Sql)
  | progress (s : RecoveryStages)
  | downloaded (r : Except PyErr ReplicaData)

/-- One step.  The result of a message is what leaves `onMessage`. -/
def RecoverFactory.step {κ} [DecidableEq κ] (utc : String → Option String) (readonly : String → Option κ)
    (f : RecoverFactory κ) : FactoryStep → RecoverFactory κ × Except PyErr Unit
  | .message client payload => f.on_message readonly client payload
  | .closed client => (f.on_close client, .ok ())
  | .call statements =>
    match f.node.step utc (.call statements) with
    | (n, r) => (f.go_on n, r)
  | .progress s => (f.go_on (f.node.progress s), .ok ())
  | .downloaded r =>
    if f.node.waiting then ((f.go_on (f.node.downloaded utc r)).broadcast (.close none), .ok ())
    else (f, .ok ())

/-- Several steps. -/
def RecoverFactory.run {κ} [DecidableEq κ] (utc : String → Option String) (readonly : String → Option κ)
    (f : RecoverFactory κ) : List FactoryStep → RecoverFactory κ
  | [] => f
  | s :: ss => RecoverFactory.run utc readonly (f.step utc readonly s).1 ss

end ZKAP
