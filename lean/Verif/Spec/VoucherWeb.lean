import Verif.Model.VoucherWeb
import Verif.Spec.Controller

/-! What a user of the HTTP interface for vouchers relies on. -/
namespace ZKAP.Spec

/-- The request body is an object whose one key is "voucher", with this text. -/
def Submits (body : Option Json) (voucher : String) : Prop :=
  body = some (.obj [("voucher", .str voucher)])

/-- 44 ASCII characters that the code's base64 decoder takes. -/
def Acceptable (voucher : String) : Prop :=
  voucher.toList.length = 44 ∧ (∀ c ∈ voucher.toList, c.toNat < 128) ∧
    ∃ bs, urlsafe_b64decode (voucher.toList.map (fun c => UInt8.ofNat c.toNat)) = .ok bs

/-- The voucher is in the database. -/
def Recorded (c : Controller) (voucher : String) : Prop :=
  ∃ row ∈ c.store.app.vouchers, row.number = voucher

/-- The random tokens the redeemer makes are new. -/
def FreshTokens (env : Env) (c : Controller) (voucher : String) : Prop :=
  ∀ n, ∃ ts, env.random voucher 0 n = .ok ts ∧ ts.Nodup ∧
    ∀ x ∈ ts, x ∉ c.store.app.tokens.map (·.text)

end ZKAP.Spec
