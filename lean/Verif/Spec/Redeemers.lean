import Verif.Model.Redeemers

/-!
Specification vocabulary for the redeemers for tests: histories of a controller with a given redeemer,
and what a voucher can come to with it.
-/
namespace ZKAP.Spec

/-- Does this event of the controller's history happen as this redeemer makes it happen?  Answers are
those of `redeemWithCounter` to the tokens that were sent, and the random tokens are those of
`random_tokens_for_voucher` (`controller.py:209-212`, `259-262`, `302-305`, `343-346`, `377-380`, `467-475`). -/
def ByRedeemer (r : Redeemer) (c : Controller) : RedeemEvent → Prop
  | .answer i a => ∀ s, c.waiting[i]? = some s → ∃ ask, r.redeemWithCounter ask s.tokens = some a
  | .work env => (∃ issuer, r = .ristretto issuer) ∨ env.random = dummy_random_tokens
  | _ => True

/-- A history of a controller with this redeemer. -/
def WithRedeemer (r : Redeemer) (cfg : RedeemCfg) (c : Controller) : List RedeemEvent → Prop
  | [] => True
  | e :: es => ByRedeemer r c e ∧ WithRedeemer r cfg (c.step cfg e) es

/-- What a voucher can be shown as with a redeemer. -/
def CanShow {τ} : Redeemer → VoucherState τ → Prop
  | _, .pending _ => True
  | _, .redeeming _ _ => True
  | .dummy _, .redeemed _ _ => True
  | .doubleSpend, .doubleSpend _ => True
  | .unpaid, .unpaid _ => True
  | .error configured, .error _ details => details = configured
  | .ristretto _, _ => True
  | _, _ => False

/-- The token made up for a voucher: the bytes of the voucher, the number of the group in four digits,
the number of the token in sixty digits, and `x` up to 96 bytes; all of this in base64. -/
def MadeUp (voucher : Bytes) (group n : Nat) (token : String) : Prop :=
  ∃ digits : List Char, (digits.length = 64 ∧ (∀ c ∈ digits, '0' ≤ c ∧ c ≤ '9')) ∧
    Nat.ofDigitChars 10 (digits.take 4) 0 = group ∧
    Nat.ofDigitChars 10 (digits.drop 4) 0 = n ∧
    ZKAP.ascii token = b64encode (voucher ++ digits.map (fun c => UInt8.ofNat c.toNat) ++
      List.replicate (32 - voucher.length) 120)

/-- The documented name of each redeemer in the configuration. -/
def redeemerName : Redeemer → String
  | .ristretto _ => "ristretto"
  | .dummy _ => "dummy"
  | .non => "non"
  | .doubleSpend => "double-spend"
  | .unpaid => "unpaid"
  | .error _ => "error"

/-- Is this the redeemer that the settings of the node ask for? -/
def AskedFor (c : NodeConfig) (r : Redeemer) : Prop :=
  let setting := c.option "storageclient.plugins.privatestorageio-zkapauthz-v2"
  (setting "redeemer" = some (redeemerName r) ∨ setting "redeemer" = none ∧ redeemerName r = "ristretto") ∧
  match r with
  | .ristretto issuer => setting "ristretto-issuer-root-url" = some issuer
  | .dummy key => setting "issuer-public-key" = some key
  | .error details => setting "details" = some details
  | _ => True

end ZKAP.Spec
