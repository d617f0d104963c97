import Verif.Spec.Plugin
import Verif.Spec.Conversation
import Verif.Spec.MaintRun
import Verif.Spec.ShortRun
import Verif.Spec.Traffic

/-! What the property of `Verif.Props.RealSigner` talks about. -/
namespace ZKAP.Spec

/-- The token came from the redemption of a voucher, with the public key of this signing key in the answer. -/
def Bought (L : Ristretto) (k : L.Scalar) (x : String) : Prop :=
  ∃ issuer voucher counter random pk tokens,
    to_answer (redeemWithCounter L issuer voucher counter random) = .success pk tokens ∧
    L.points.decode (ascii pk) = some (L.public_key k) ∧ x ∈ tokens

/-- All tokens that were ever put into the store to be spent did. -/
def OnlyBought (L : Ristretto) (k : L.Scalar) (history : List SessionEvent) : Prop :=
  ∀ op, .other op ∈ history → ∀ x, IssuesSpendable x op → Bought L k x

/-- The server, as its operator sets it up, has this signing key. -/
def HasKey (L : Ristretto) (k : L.Scalar) (cfg : ServerConfig) : Prop := cfg = server_with_key L cfg.pass_value k

/-- The servers of a maintenance run take part and have the key, and there are tokens for what has to be renewed. -/
structure EnoughToTend (L : Ristretto) (k : L.Scalar) (c : MaintScene) : Prop where
  value : 0 < c.node.pass_value
  distinct : c.indexes.Nodup
  minimum : 0 ≤ c.node.min_lease_remaining ∧ c.node.min_lease_remaining ≤ 31 * 24 * 60 * 60 * 1000000
  stops : ∀ stop ∈ c.stops, TakesPart c stop ∧ HasKey L k stop.cfg
  affords : Affords c.client.store (c.stops.map c.cost).sum

/-- Moreover, in the history the issuer did not issue a token again that was found invalid. -/
structure HasTokensToTend (L : Ristretto) (k : L.Scalar) (c : MaintScene) : Prop extends EnoughToTend L k c where
  reissue : NoReissueIn c.node.sign c.node.pass_value {} c.history

/-- The two make the same passes from good tokens. -/
def AgreeOn (good : String → Prop) (sign sign' : Signer) : Prop :=
  ∀ message tokens, (∀ x ∈ tokens, good x) → sign message tokens = sign' message tokens

end ZKAP.Spec
