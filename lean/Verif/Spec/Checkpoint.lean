import Verif.Model.Store

/-! Specification vocabulary for the checkpoint of `docs/source/backup.rst`: the next token to be spent
separates a backup's tokens into spent and unspent ones. -/
namespace ZKAP.Spec

/-- All tokens that can be spent, in the order in which they are handed out (when rows come in the
order in which they were stored): the answer to a request without a limit. -/
def unspent (t : Tables) : List String :=
  match ((StoreOp.getTokens .natural (-1)).step t).1 with
  | .ok (.tokens ts) => ts
  | _ => []

/-- What happens on a node that does one storage operation after the other. -/
inductive Use where
  /-- A storage operation: `count` tokens are taken, the first `spent` of them are spent and the others
  are given back. -/
  | call (count : Int) (spent : Nat)
  /-- Anything that is not about tokens in use. -/
  | other (op : StoreOp)

/-- The calls on the store this comes to.  A request for more tokens than there are ends it. -/
def Use.ops (t : Tables) : Use → List StoreOp
  | .call count spent =>
    match ((StoreOp.getTokens .natural count).step t).1 with
    | .ok (.tokens ts) => [.getTokens .natural count, .discard (ts.take spent), .reset (ts.drop spent)]
    | _ => [.getTokens .natural count]
  | .other op => [op]

/-- The tables after some uses. -/
def runUses : List Use → Tables → Tables
  | [], t => t
  | u :: us, t => runUses us (runStore (u.ops t) t)

/-- Is this call on the store about tokens in use? -/
def AboutUse : StoreOp → Prop
  | .getTokens .. | .discard .. | .invalidate .. | .reset .. => True
  | _ => False

/-- The other events of these uses are not about tokens in use. -/
def OneByOne (us : List Use) : Prop := ∀ op, Use.other op ∈ us → ¬ AboutUse op

/-- The call adds none of these tokens. -/
def AddsNone (old : List String) : StoreOp → Prop
  | .insert _ _ _ ts _ _ => ∀ x ∈ ts, x ∉ old
  | _ => True

/-- The call takes tokens only in the order in which they were stored. -/
def InStoredOrder : StoreOp → Prop
  | .getTokens o _ => o = .natural
  | _ => True

/-- The checkpoint tells the tokens of a backup apart: those from the checkpoint on are the ones that are
still unspent now. -/
def Separates (checkpoint : String) (backup now : List String) : Prop :=
  backup.dropWhile (· ≠ checkpoint) = backup.filter (· ∈ now)

end ZKAP.Spec
