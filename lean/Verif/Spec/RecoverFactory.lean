import Verif.Model.RecoverFactory
import Verif.Spec.Recovery

/-! What clients of a recovery can observe. -/
namespace ZKAP.Spec

/-- What was sent to a client, in order. -/
def sentTo {κ} (f : RecoverFactory κ) (client : Nat) : List Sent :=
  (f.log.filter fun e => e.1 == client).map Prod.snd

/-- The stage an update is about. -/
def stageOf : Sent → Option RecoveryStages
  | .update s => some s
  | .close _ => none

/-- The stages a client was told about. -/
def updatesTo {κ} (f : RecoverFactory κ) (client : Nat) : List RecoveryStages :=
  (sentTo f client).filterMap stageOf

/-- A factory in a node that was just started. -/
def startedFactory {κ} (db : Database) : RecoverFactory κ := { node := startedNode db }

/-- The client sends nothing in these steps. -/
def Silent (client : Nat) (steps : List FactoryStep) : Prop := ∀ payload, .message client payload ∉ steps

/-- The connection of the client survives these steps. -/
def Stays (client : Nat) (steps : List FactoryStep) : Prop := .closed client ∉ steps

/-- The request of a client names this capability. -/
def Asks {κ} (readonly : String → Option κ) (payload : Option Json) (cap : κ) : Prop :=
  ∃ s, payload = some (.obj [("recovery-capability", .str s)]) ∧ readonly s = some cap

/-- The recovery has ended or was refused. -/
def Over {κ} (f : RecoverFactory κ) : Prop := f.node.requested = true ∧ f.node.waiting = false

end ZKAP.Spec
