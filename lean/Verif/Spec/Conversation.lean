import Verif.Model.Conversation
import Verif.Spec.Server
import Verif.Spec.StorageClient
import Verif.Spec.Wire

/-! What the properties of `Verif.Props.Conversation` talk about. -/
namespace ZKAP.Spec

/-- The storage index an operation is about. -/
def indexOf : StorageOp → SI
  | .allocateBuckets si .. | .addLease si .. | .writev si .. => si
  | _ => []

/-- What the operation costs with these shares at its storage index, at this time. -/
def costOf (v : Int) (bucket : Bucket) (now : Int) : StorageOp → Int
  | .allocateBuckets _ _ _ sharenums size _ => total v (List.replicate sharenums.length (size : Int))
  | .addLease .. => bucketPrice v bucket
  | .writev _ _ tw _ => writePrice v bucket now tw
  | _ => 0

/-- The passes made from tokens the client can spend are good: a pass for each, in the form of passes, and the
server accepts it for the message it was made for. -/
structure GoodTokens (sign : Signer) (cfg : ServerConfig) (t : Tables) : Prop where
  works : Signs sign
  good : ∀ message tokens passes, sign message tokens = .ok passes → ∀ x p, (x, p) ∈ tokens.zip passes →
    Available t x → Pass.from_bytes p.pass_bytes = .ok p ∧ cfg.verifies message p = true

/-- There are this many tokens the client can spend. -/
def Affords (t : Tables) (n : Int) : Prop :=
  ∃ tokens : List String, tokens.Nodup ∧ (∀ x ∈ tokens, Available t x) ∧ n ≤ tokens.length

/-- Nothing is wrong with the operation: the protocol has room for it, its shares are named once each, and a write
does not ask for what the server never does. -/
def Proper (op : StorageOp) : Prop :=
  Fits (op.request []) ∧
  match op with
  | .writev _ _ tw _ => Dict.WF tw ∧ ∀ kv ∈ tw, kv.2.new_length = none
  | _ => True

/-- The shares at the index are ones the server can speak of: numbered once each with numbers of 31 bits, and
with sizes of 64 bits. -/
def Tellable (bucket : Bucket) : Prop :=
  Dict.WF bucket ∧ ∀ kv ∈ bucket, kv.1 < 2 ^ 31 ∧ kv.2.data.length < 2 ^ 64

/-- The server can do what is asked once it is paid: room for a lease on every share, and for a
write the shares there are slots with the same write enabler. -/
def Willing (bucket : Bucket) (room : Nat → Bool) (op : StorageOp) : Prop :=
  match op with
  | .allocateBuckets .. => True
  | .addLease .. => ∀ n, room n = true
  | .writev _ secrets _ _ => (∀ n, room n = true) ∧
      ∀ kv ∈ bucket, kv.2.is_mutable = true ∧ kv.2.write_enabler = secrets.1
  | _ => False

/-- A client that can pay for an operation, with anything else in progress, and a server that will perform it.  The
two speak at the first moment and, if the price has to be asked for, at the second one. -/
structure Customer where
  sign : Signer
  cfg : ServerConfig
  op : StorageOp
  get_rref : Except PyErr RRef
  order : Order
  /-- what happened at the client before -/
  history : List SessionEvent
  server : Server
  first : Moment
  second : Moment

namespace Customer

/-- The client before the operation. -/
def client (c : Customer) : StorageSession := StorageSession.run c.sign c.cfg.pass_value {} c.history

/-- The server when the first call arrives. -/
def asked (c : Customer) : Server := c.server.run c.cfg c.first.others

/-- The shares it has then at the storage index. -/
def bucket (c : Customer) : Bucket := c.asked.buckets (indexOf c.op)

/-- The client and the server after two turns. -/
def result (c : Customer) : Talk :=
  converse c.sign c.cfg c.cfg.pass_value c.op c.get_rref c.order c.client c.server [c.first, c.second]

end Customer

/-- There are enough tokens for the operation, whether the price is taken at the time of the client or at that of the
server, and it can be performed; nobody else touches the storage index in between. -/
structure EnoughTokens (c : Customer) : Prop where
  value : 0 < c.cfg.pass_value
  right : RightServer c.get_rref
  paid : ¬ Free c.op
  proper : Proper c.op
  affords : ∀ now, costOf c.cfg.pass_value c.bucket now c.op ≤ 2 ^ 20 ∧
    Affords c.client.store (costOf c.cfg.pass_value c.bucket now c.op)
  time : 0 ≤ c.first.client_now
  tellable : Tellable c.bucket
  willing : Willing c.bucket c.first.room c.op ∧ Willing c.bucket c.second.room c.op
  undisturbed : (c.asked.run c.cfg c.second.others).buckets (indexOf c.op) = c.bucket

/-- Moreover, in the history the issuer did not issue a token again that was found invalid. -/
structure HasTokens (c : Customer) : Prop extends EnoughTokens c where
  reissue : NoReissueIn c.sign c.cfg.pass_value {} c.history

/-- The operation can be paid for and performed: the tokens are also good. -/
structure CanPay (c : Customer) : Prop extends HasTokens c where
  tokens : GoodTokens c.sign c.cfg c.client.store

/-- The operation was carried out: the caller has its result, and this many tokens left the client's store for as many
new records of spent passes at the server. -/
def CarriedOut (c : Customer) (price : Int) : Prop :=
  (∃ r, c.result.client.log.getLast? = some (.returned c.op r)) ∧
  ((storedTokens c.client.store).length : Int) = (storedTokens c.result.client.store).length + price ∧
  ∃ records, c.result.server.spent = c.result.before.spent ++ records ∧ (records.length : Int) = price

/-- The price that is charged: for an upload that of the buckets the server opened, otherwise the price when the
answer to the client's question arrived. -/
def charged (c : Customer) : Int :=
  match c.op with
  | .allocateBuckets _ _ _ _ size _ =>
    total c.cfg.pass_value
      (List.replicate (c.result.server.writers.length - c.result.before.writers.length) (size : Int))
  | op => costOf c.cfg.pass_value c.bucket c.first.client_now op

/-- The operation is a slot write. -/
def IsWrite : StorageOp → Prop
  | .writev .. => True
  | _ => False

/-- No lease on a share at the index ends between the time at which the client computes the price and the time at
which the server does. -/
def NoLeaseEnds (c : Customer) : Prop :=
  ∀ kv ∈ c.bucket, Leased kv.2 c.first.client_now → Leased kv.2 c.second.server_now

end ZKAP.Spec
