import Verif.Model.Controller

/-!
The redemption of vouchers at a node that recovers a replica while it is running.

The recovery is that of `resource.py:414-434` and `recover.py:221-275`; it works on the tables of the
store the controller uses.  It tells the controller nothing: `PaymentController` looks for vouchers
to redeem when it is created (`controller.py:829-835`), which is when the node starts, and later only
at those that have failed (`controller.py:849-854`).
-/
namespace ZKAP

/-- `model.py:370-389` `call_if_empty` with `recover.py:221-275` `recover`: where there are no vouchers
the tables are replaced.  The temporary tables stay.  A simplification: the recovery happens at once,
and nothing else is running. -/
def Controller.recovered (c : Controller) (app : App) : Controller :=
  if c.todo.isEmpty && c.store.app.vouchers.isEmpty then { c with store := { c.store with app := app } }
  else c

end ZKAP
