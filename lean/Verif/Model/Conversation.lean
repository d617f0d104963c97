import Verif.Model.StorageClient
import Verif.Model.ServerReads

/-!
A storage client and a storage server at the two ends of one connection: the remote calls of
`Model/StorageClient.lean` go to the remote methods of `Model/Server.lean` and `Model/ServerReads.lean`, and what
these return or raise comes back as Foolscap carries it.
-/
namespace ZKAP

/-- What a remote call finds at the server besides the server's own state, and the client when the answer comes
back. -/
structure Moment where
  /-- what other clients do at the server before the call arrives -/
  others : List ServerOp
  server_now : Int
  /-- for which shares the server has room, for data or another lease -/
  room : Nat → Bool
  client_now : Int
  order : Order

/-- An exception of a remote method on its way back.  How Foolscap carries exceptions is not in this repository;
`MorePassesRequired` (`storage_common.py:30-51`) is taken to arrive as itself, as the client expects
(`_storage_client.py:158`), the others as failures the client does not tell apart. -/
def error_reply : SErr → Reply
  | .morePassesRequired _ _ signature_check_failed => .morePassesRequired signature_check_failed
  | _ => .failure remoteFailure

/-- A `ShareStat` as it travels: `foolscap.py:24-58`, a `Copyable` with its two attributes. -/
def stat_to_wire (kv : Nat × ShareStat) : Wire × Wire :=
  (.int kv.1, .stat [("size", .int kv.2.size), ("lease_expiration", .int kv.2.lease_expiration)])

/-- The data read from a slot as it travels. -/
def read_to_wire (kv : Nat × List Bytes) : Wire × Wire := (.int kv.1, byte_strings_to_wire kv.2)

/-- The server handles one remote call: `_storage_server.py:316-640`, method by method, and the answer as Foolscap
carries it.  The result of `get_version` comes from the wrapped server and is left out: an empty dict.
`advise_corrupt_share` writes a report that is not modelled.  The readers of `get_buckets` are numbered in
order; the writers of `allocate_buckets` have the identities the server gives them. -/
def server_reply (cfg : ServerConfig) (m : Moment) (s : Server) : StorageRequest → Server × Reply
  | .getVersion => (s, .result (.dict []))
  | .allocateBuckets passes si renew _ sharenums size canary =>
    match remote_allocate_buckets cfg ⟨passes, si, renew, sharenums, size, canary, m.server_now, m.room⟩ s with
    | (s', .ok (alreadygot, bucketwriters)) =>
      (s', .result (.tuple [.set (alreadygot.map fun n : Nat => .int n),
        .dict ((bucketwriters.zipIdx s.next_bw).map fun nb => (.int nb.1, .ref nb.2))]))
    | (s', .error e) => (s', error_reply e)
  | .addLease passes si renew _ =>
    match remote_add_lease cfg ⟨passes, si, renew, m.server_now, m.room⟩ s with
    | (s', .ok ()) => (s', .result .none)
    | (s', .error e) => (s', error_reply e)
  | .getBuckets si =>
    match remote_get_buckets s si with
    | .ok d => (s, .result (.dict (d.zipIdx.map fun nb => (.int nb.1.1, .ref nb.2))))
    | .error e => (s, error_reply e)
  | .shareSizes si =>
    (s, .result (.dict ((remote_share_sizes s si none).map fun kv => (.int kv.1, .int kv.2))))
  | .statShares sis => (s, .result (.list ((remote_stat_shares s sis).map fun d => .dict (d.map stat_to_wire))))
  | .readv si shares rv =>
    match remote_slot_readv s si shares rv with
    | .ok d => (s, .result (.dict (d.map read_to_wire)))
    | .error e => (s, error_reply e)
  | .writev passes si secrets tw rv =>
    match remote_slot_writev cfg ⟨passes, si, secrets.1, secrets.2.1, tw, rv, m.server_now, m.room⟩ s with
    | (s', .ok (good, read)) => (s', .result (.tuple [.bool good, .dict (read.map read_to_wire)]))
    | (s', .error e) => (s', error_reply e)
  | .adviseCorruptShare .. => (s, .result .none)

/-- Whether the call is one of those with passes. -/
def StorageRequest.with_passes : StorageRequest → Bool
  | .allocateBuckets .. | .addLease .. | .writev .. => true
  | _ => false

/-- The two ends.  `before` is the server as it was when the last call arrived. -/
structure Talk where
  client : StorageSession
  before : Server
  server : Server

/-- If the last thing that happened at the client is that a call went out, it arrives, is handled, and the answer
goes back to the operation that made the call, which is the last one in its list. -/
def Talk.turn (sign : Signer) (cfg : ServerConfig) (pass_value : Int) (k : Talk) (m : Moment) : Talk :=
  match k.client.log.getLast? with
  | some (.sent _ r) =>
    let before := k.server.run cfg m.others
    let (server, reply) := server_reply cfg m before r
    let event := if r.with_passes then .answerPaid (k.client.paying.length - 1) reply m.client_now m.order
      else .answer (k.client.asked.length - 1) reply m.client_now m.order
    ⟨k.client.step sign pass_value event, before, server⟩
  | _ => k

/-- An operation is started and its calls go to the server and back. -/
def converse (sign : Signer) (cfg : ServerConfig) (pass_value : Int) (op : StorageOp) (get_rref : Except PyErr RRef)
    (o : Order) (client : StorageSession) (server : Server) (moments : List Moment) : Talk :=
  moments.foldl (Talk.turn sign cfg pass_value)
    ⟨client.step sign pass_value (.start op get_rref o), server, server⟩

end ZKAP
