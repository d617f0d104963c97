import Verif.Spec.Recurrence

/-! What the property of `Verif.Props.IssuedValue` talks about. -/
namespace ZKAP.Spec

/-- What a voucher has given is the tokens of its first groups, of each once, and no more than it is for; and all it is for,
if it is shown as redeemed. -/
structure GivesItsValue (cfg : RedeemCfg) (log : List Happening) (row : VoucherRow) : Prop where
  groups : redeemedGroups row.number log = List.range row.counter
  shown : row.token_count.getD 0 + row.sequestered_count = tokensStored row.number log
  limit : tokensStored row.number log ≤ row.expected_tokens
  redeemed : row.state = "redeemed" →
    tokensStored row.number log = row.expected_tokens ∧ row.counter = cfg.num_redemption_groups

end ZKAP.Spec
