import Verif.Spec.Finish

/-!
Specification vocabulary for the vouchers of a recovered database.
-/
namespace ZKAP.Spec

/-- Nobody submits the voucher. -/
def NotSubmitted (v : String) (events : List RedeemEvent) : Prop := ∀ n, .redeem v n ∉ events

/-- Nobody submits the voucher or starts the node again. -/
def LeftAlone (v : String) (events : List RedeemEvent) : Prop :=
  NotSubmitted v events ∧ .crash ∉ events

/-- In the database, the voucher is in this state. -/
def InState (c : Controller) (v : String) (state : String) : Prop :=
  ∃ row, voucherRow c.store v = some row ∧ row.state = state

end ZKAP.Spec
