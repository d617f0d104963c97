import Verif.Model.VoucherJson
import Verif.Spec.Timestamp

namespace ZKAP.Spec

/-- The times in a state are times Python can represent. -/
def ValidState : VoucherState DateTime → Prop
  | .pending _ => True
  | .redeeming t _ => Valid t
  | .redeemed t _ => Valid t
  | .doubleSpend t => Valid t
  | .unpaid t => Valid t
  | .error t _ => Valid t

/-- A voucher object as its class admits it: a number of 44 ASCII characters, a positive number
of tokens, and times Python can represent. -/
structure ValidVoucher (v : Voucher DateTime) : Prop where
  length : v.number.length = 44
  ascii : ∀ c ∈ v.number.toList, c.toNat < 128
  tokens : 0 < v.expected_tokens
  created : ∀ t, v.created = some t → Valid t
  state : ValidState v.state

end ZKAP.Spec
