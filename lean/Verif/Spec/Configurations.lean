import Verif.Model.Configurations
import Verif.Spec.Controller

/-! Specification vocabulary for changes of the configuration. -/
namespace ZKAP.Spec

/-- A new node after the given processes. -/
def nodeAfter (groups : Nat) (ps : List Period) : Controller := Controller.periods groups {} ps

/-- The issuer sent the token, signed with the key, to the process `p` (the one that comes after `before`). -/
def SentTo (groups : Nat) (before : List Period) (p : Period) (pk x : String) : Prop :=
  ∃ new v g us, (nodeAfter groups (before ++ [p])).log = (nodeAfter groups before).log ++ new ∧
    .answer v g (.success pk us) ∈ new ∧ x ∈ us

/-- The issuer sent the token in an answer signed with the key, at some time. -/
def SentWith (groups : Nat) (ps : List Period) (pk x : String) : Prop :=
  ∃ v g us, .answer v g (.success pk us) ∈ (nodeAfter groups ps).log ∧ x ∈ us

/-- A storage call reports the token spent, or bad. -/
def UsesUp (x : String) : StoreOp → Prop
  | .discard ts => x ∈ ts
  | .invalidate _ ts => x ∈ ts
  | _ => False

/-- No storage call of any of the processes reports the token spent, or bad. -/
def NeverUsed (ps : List Period) (x : String) : Prop :=
  ∀ p ∈ ps, ∀ op, .other op ∈ p.events → ¬ UsesUp x op

/-- While the process runs the voucher is submitted for this many tokens: as asked, or without a number
and the configuration says so many. -/
def Submitted (p : Period) (v : String) (n : Nat) : Prop :=
  .redeem v (some n) ∈ p.events ∨ (.redeem v none ∈ p.events ∧ n = p.default_token_count)

end ZKAP.Spec
