import Verif.Model.Books
import Verif.Spec.Spending
import Verif.Spec.ServerSpent

/-! Specification vocabulary for what a client and a server each have on record. -/
namespace ZKAP.Spec

/-- The tokens are real: a pass made from one of them carries the token's preimage, can be read
by the server and verifies for the message it was made for, and no two tokens have the same
preimage. -/
structure RealTokens (sign : Signer) (cfg : ServerConfig) (preimage : String → Bytes)
    (tokens : String → Prop) : Prop where
  pass : ∀ m ts ps, sign m ts = .ok ps → ∀ x p, (x, p) ∈ ts.zip ps → tokens x →
    p.preimage = preimage x ∧ Pass.from_bytes p.pass_bytes = .ok p ∧ cfg.verifies m p = true
  distinct : ∀ x y, tokens x → tokens y → preimage x = preimage y → x = y

/-- The tokens a successful answer pays with: for a created bucket each its price, taken from the
front; for the other requests all tokens of the call. -/
def payment (v : Int) (p : Pending) : List String :=
  match p.answer with
  | some (.ok buckets) =>
    match p.request with
    | .allocate _ _ _ size _ => (holds p.call).take (total v (List.replicate buckets (size : Int))).toNat
    | _ => holds p.call
  | _ => []

/-- The tokens paid with by answers that are on their way. -/
def underWay (v : Int) (b : Books) : List String := b.calls.flatMap (payment v)

/-- The tokens paid with by the answers that are lost in this event. -/
def lostBy (v : Int) (b : Books) : BooksEvent → List String
  | .lose i _ _ => (b.calls[i]?).elim [] (payment v)
  | .restart => underWay v b
  | _ => []

/-- The tokens paid with by all answers lost in a history. -/
def lostPayments (sign : Signer) (cfg : ServerConfig) (v : Int) : Books → List BooksEvent → List String
  | _, [] => []
  | b, e :: es => lostBy v b e ++ lostPayments sign cfg v (b.step sign cfg v e) es

/-- The token was in the client's store at some time. -/
def EverStored (sign : Signer) (cfg : ServerConfig) (v : Int) (b : Books) (events : List BooksEvent)
    (x : String) : Prop :=
  ∃ before, before <+: events ∧ Stored (b.run sign cfg v before).store x

/-- The issuer issues real tokens, and none it has issued before; and nobody else has these
tokens. -/
structure Honest (sign : Signer) (cfg : ServerConfig) (v : Int) (preimage : String → Bytes)
    (tokens : String → Prop) (b : Books) (events : List BooksEvent) : Prop where
  issued : ∀ before op after, events = before ++ .other op :: after → ∀ x, Issues x op →
    tokens x ∧ ¬ EverStored sign cfg v b before x
  others : ∀ op, .foreign op ∈ events → ∀ x, tokens x → preimage x ∉ validPreimages cfg op

end ZKAP.Spec
