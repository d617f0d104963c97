import Verif.Model.Generations
import Verif.Spec.Replication

/-! Vocabulary for nodes that are lost and replaced. -/
namespace ZKAP.Spec
open ZKAP

/-- What the history does to the store. -/
def callsIn : List RStep → List StoreOp
  | [] => []
  | .call .restart :: ss => callsIn ss
  | .call op :: ss => op :: callsIn ss
  | .crashedCall .restart :: ss => .restart :: callsIn ss
  | .crashedCall op :: ss => op :: .restart :: callsIn ss
  | .restart :: ss => .restart :: callsIn ss
  | _ :: ss => callsIn ss

/-- What one node that is never lost would go through: it is started again where the others are lost. -/
def allCalls (gs : List Generation) : List StoreOp := gs.flatMap fun g => callsIn g.steps ++ [.restart]

/-- When it is lost, replication is set up and everything has been uploaded. -/
def Uploaded (n : Node) : Prop := n.activity = .idle ∧ n.events = []

/-- Each generation has this, starting from the node it begins with. -/
def EachGeneration (P : Node → List RStep → Prop) (env : RepEnv) : Node → List Generation → Prop
  | _, [] => True
  | n, g :: gs => P n g.steps ∧ ∀ m, n.replaced env g = .ok m → EachGeneration P env m gs

end ZKAP.Spec
