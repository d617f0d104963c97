import Verif.Spec.Balance
import Verif.Spec.PassReuse

/-! What the property of `Verif.Props.Worth` talks about. -/
namespace ZKAP.Spec

/-- The tokens that all vouchers of a node are for, together. -/
def worth (t : Tables) : Nat := (t.app.vouchers.map fun row => row.expected_tokens).sum

/-- These are some of the different passes in the remote calls of a client.  Passes are different if they have different
preimages, which is what a server can tell (C154). -/
structure DifferentPasses (log : List Out) (passes : List Bytes) : Prop where
  different : passes.Nodup
  sent : ∀ b ∈ passes, ∃ op r, .sent op r ∈ log ∧ b ∈ preimages r

/-- The preimage of a pass is that of the token it is made of, whatever it is made for. -/
def OnePreimage (sign : Signer) : Prop :=
  ∀ m m' x p q, MadeFor sign m x p → MadeFor sign m' x q → p.pass_bytes.take 88 = q.pass_bytes.take 88

/-- What a node gets for its vouchers: the different passes it sends, what its storage operations cost and what it has left
are no more than what its vouchers are for. -/
structure NoMoreThanWorth (t : Tables) (log : List Out) (paid : Nat) : Prop where
  passes : ∀ passes, DifferentPasses log passes → passes.length ≤ worth t
  tokens : paid + (invalidTokens t).length + (select_available t).length + t.temp.in_use.length + (sequestered t).length ≤
    worth t
  all : (∀ row ∈ t.app.vouchers, row.state = "redeemed") →
    paid + (invalidTokens t).length + (select_available t).length + t.temp.in_use.length + (sequestered t).length = worth t

end ZKAP.Spec
