import Verif.Model.WholeNode
import Verif.Spec.RealSigner

/-! What the property of `Verif.Props.WholeNode` talks about. -/
namespace ZKAP.Spec

/-- An answer that the redeemer accepted is what it makes of a response of the issuer to the request with the random
tokens that were sent.  The issuer may respond anything. -/
def AnswerReal (L : Ristretto) (n : WholeNode) (e : WholeEvent) : Prop :=
  ∀ i pk tokens, e = .redeeming (.answer i (.success pk tokens)) → ∀ s, n.redeeming.waiting[i]? = some s →
    ∃ issuer, to_answer (redeemWithCounter L issuer s.frame.voucher s.frame.counter (s.tokens.map ZKAP.ascii)) =
      .success pk tokens

/-- When tokens are about to be stored, none of them is one that was found to be invalid before. -/
def NotReissued (n : WholeNode) (e : WholeEvent) : Prop :=
  ∀ env f pk tokens rest, e = .redeeming (.work env) → n.redeeming.todo = .answered f (.success pk tokens) :: rest →
    ∀ x ∈ tokens, x ∉ invalidTokens n.storage.store

/-- Both, always. -/
def RealLife (L : Ristretto) (cfg : RedeemCfg) (v : Int) : WholeNode → List WholeEvent → Prop
  | _, [] => True
  | n, e :: es => AnswerReal L n e ∧ NotReissued n e ∧ RealLife L cfg v (n.step cfg (ristretto_signer L) v e) es

/-- The node is configured to spend only tokens that come with the public key of this signing key. -/
def OnlyKey (L : Ristretto) (k : L.Scalar) (cfg : RedeemCfg) : Prop :=
  ∀ pk ∈ cfg.allowed_public_keys, L.points.decode (ZKAP.ascii pk) = some (L.public_key k)

end ZKAP.Spec
