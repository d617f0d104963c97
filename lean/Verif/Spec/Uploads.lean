import Verif.Spec.Results

/-! What the property of `Verif.Props.Uploads` talks about. -/
namespace ZKAP.Spec

/-- The request does not end an upload that goes on through this bucket writer, handed out to this connection. -/
def GoesOn (writer canary : Nat) (op : ServerOp) : Prop :=
  (∀ data, op ≠ .close writer data) ∧ op ≠ .abort writer ∧ op ≠ .disconnect canary

/-- Requests that are what Python makes them, and no writes to a slot with this index. -/
def NoSlot (si : SI) (op : ServerOp) : Prop := ProperOp op ∧ ¬ SlotWriteAt si op

/-- An upload: a client asks a server with any shares and any history to store shares, is given a bucket writer, data
is written to it, and it is closed. -/
structure Upload where
  cfg : ServerConfig
  /-- what the server had in the beginning -/
  buckets : SI → Bucket
  /-- what was requested of it before -/
  earlier : List ServerOp
  sign : Signer
  pass_value : Int
  si : SI
  renew_secret : Bytes
  cancel_secret : Bytes
  sharenums : List Nat
  size : Nat
  canary : Nat
  get_rref : Except PyErr RRef
  order : Order
  client : StorageSession
  /-- the round trips of the client, and what other clients do in that time -/
  moments : List Moment
  sharenum : Nat
  writer : Nat
  /-- what other clients do while the data is written -/
  meanwhile : List ServerOp
  data : Bytes

namespace Upload

def op (u : Upload) : StorageOp :=
  .allocateBuckets u.si u.renew_secret u.cancel_secret u.sharenums u.size u.canary

/-- The two ends when the client has asked for bucket writers. -/
def asked (u : Upload) : Talk :=
  converse u.sign u.cfg u.pass_value u.op u.get_rref u.order u.client ((Server.init u.buckets).run u.cfg u.earlier) u.moments

/-- The server when the bucket writer has been closed. -/
def closed (u : Upload) : Server := (u.asked.server.run u.cfg u.meanwhile).step u.cfg (.close u.writer u.data)

end Upload

/-- The client was given the bucket writer for the share, writes no more than it said, and nobody writes to slots with
the same index. -/
structure GoodUpload (u : Upload) : Prop where
  shares : ProperShares u.buckets
  no_slot : ∀ n share, (u.buckets u.si).lookup n = some share → share.is_mutable = false
  earlier : ∀ op ∈ u.earlier, NoSlot u.si op
  sharenums : u.sharenums.Nodup
  moments : ∀ m ∈ u.moments, ∀ op ∈ m.others, NoSlot u.si op
  given : ∃ alreadygot writers, u.asked.client.log.getLast? = some (.returned u.op (.allocated alreadygot (.dict writers))) ∧
    (.int u.sharenum, .ref u.writer) ∈ writers
  meanwhile : ∀ op ∈ u.meanwhile, NoSlot u.si op ∧ GoesOn u.writer u.canary op
  fits : u.data.length ≤ u.size

/-- The answer to a question for readers has one for this share, and this is what is read through it.  The server
numbers the readers in the order in which it gives them. -/
def ReaderOf (s : Server) (si : SI) (readers : Dict Int Wire) (n : Nat) (data : Bytes) : Prop :=
  ∃ (ref : Nat) (given : Dict Nat Bytes), readers.lookup (n : Int) = some (.ref ref) ∧
    remote_get_buckets s si = .ok given ∧ given[ref]? = some (n, data)

end ZKAP.Spec
