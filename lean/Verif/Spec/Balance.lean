import Verif.Spec.WholeNode

/-! What the property of `Verif.Props.Balance` talks about. -/
namespace ZKAP.Spec

/-- The tokens that all vouchers of a node are recorded to have given, together. -/
def givenByVouchers (t : Tables) : Nat :=
  (t.app.vouchers.map fun row => row.token_count.getD 0 + row.sequestered_count).sum

/-- The tokens in the database that came with a public key that was not allowed. -/
def sequestered (t : Tables) : List String :=
  (t.app.unblinded.filter fun r => t.app.groups.all fun g => !(g.rowid == r.group && g.spendable)).map (·.token)

/-- What a client pays when this happens: if it is the answer with which an operation succeeds, what this costs. -/
def paidAt (v : Int) (s : StorageSession) : SessionEvent → Nat
  | .answerPaid i (.result w) _ _ =>
    match s.paying[i]? with
    | none => 0
    | some (op, c) =>
      match paid_result w op with
      | .error _ => 0
      | .ok (_, buckets) => (paidWith v op buckets (holds c)).length
  | _ => 0

/-- What a client pays in a history. -/
def paidIn (sign : Signer) (v : Int) : StorageSession → List SessionEvent → Nat
  | _, [] => 0
  | s, e :: es => paidAt v s e + paidIn sign v (s.step sign v e) es

/-- What a node pays when this happens. -/
def nodePaidAt (v : Int) (n : WholeNode) : WholeEvent → Nat
  | .storage e => if n.redeeming.todo.isEmpty then paidAt v n.storage e else 0
  | _ => 0

/-- What a node pays in its life. -/
def nodePaidIn (cfg : RedeemCfg) (sign : Signer) (v : Int) : WholeNode → List WholeEvent → Nat
  | _, [] => 0
  | n, e :: es => nodePaidAt v n e + nodePaidIn cfg sign v (n.step cfg sign v e) es

/-- The tokens the vouchers gave have been paid, or were found to be invalid, or can be spent, or are in use, or are
sequestered; and each of them is only one of these. -/
def Balanced (t : Tables) (paid : Nat) : Prop :=
  givenByVouchers t = paid + (invalidTokens t).length + (select_available t).length + t.temp.in_use.length +
    (sequestered t).length

end ZKAP.Spec
