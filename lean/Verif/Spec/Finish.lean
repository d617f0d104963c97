import Verif.Spec.Controller

/-!
Specification vocabulary for redemptions in which nothing goes wrong.
-/
namespace ZKAP.Spec

/-- The random tokens that would be made up now are new and different from each other. -/
def FreshRandom (env : Env) (t : Tables) : Prop :=
  ∀ v g n, ∃ ts, env.random v g n = .ok ts ∧ ts.Nodup ∧ ∀ x ∈ ts, x ∉ t.app.tokens.map (·.text)

/-- Unblinded tokens are new and different from each other. -/
def NewTokens (us : List String) (t : Tables) : Prop :=
  us.Nodup ∧ ∀ x ∈ us, x ∉ t.app.unblinded.map (·.token)

/-- A run in which the node works and the issuer signs, and nothing else happens: each event is a
piece of work the node has to do, or a successful answer to a request it is waiting for. -/
def SmoothRun (cfg : RedeemCfg) : Controller → List RedeemEvent → Prop
  | _, [] => True
  | c, .work env :: es => c.todo ≠ [] ∧ FreshRandom env c.store ∧ SmoothRun cfg (c.step cfg (.work env)) es
  | c, .answer i (.success pk us) :: es =>
    i < c.waiting.length ∧ c.todo.all (·.isCall) = true ∧ NewTokens us c.store ∧
      SmoothRun cfg (c.step cfg (.answer i (.success pk us))) es
  | _, _ => False

/-- The node has nothing to do and waits for nothing. -/
def Idle (c : Controller) : Prop := c.todo = [] ∧ c.waiting = []

/-- The number of pending vouchers. -/
def pendingVouchers (t : Tables) : Nat := t.app.vouchers.countP (fun r => r.state == "pending")

end ZKAP.Spec
