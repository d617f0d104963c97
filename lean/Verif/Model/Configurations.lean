import Verif.Model.Controller

/-!
A node whose configuration changes: the file `tahoe.cfg` is edited and the node started again.
-/
namespace ZKAP

/-- The two items of the client's section of the configuration that the controller is made with
(`resource.py:154-175`, `controller.py:812-817`), and what happens while a process that has read them runs.  The
configuration is read once, when the node starts. -/
structure Period where
  default_token_count : Nat
  allowed_public_keys : List String
  events : List RedeemEvent

/-- `resource.py:154-175`: the arguments of `PaymentController`.  The number of redemption groups is not configurable. -/
def Period.cfg (groups : Nat) (p : Period) : RedeemCfg where
  num_redemption_groups := groups
  default_token_count := p.default_token_count
  allowed_public_keys := p.allowed_public_keys

/-- A process of the node: it starts on the database as the previous one left it (`.crash`: whatever
was in memory is gone), reads the configuration and runs. -/
def Controller.period (groups : Nat) (c : Controller) (p : Period) : Controller :=
  (c.step (p.cfg groups) .crash).run (p.cfg groups) p.events

/-- The processes of a node, one after the other, each with its own configuration. -/
def Controller.periods (groups : Nat) (c : Controller) (ps : List Period) : Controller :=
  ps.foldl (Controller.period groups) c

end ZKAP
