import Verif.Model.LeaseMaintenance
import Verif.Model.Wire

/-!
Lease maintenance over nodes without a storage index.  Tahoe-LAFS keeps the contents of a small
file (up to 55 bytes), or of a small immutable directory, in its capability: such a node has no
shares, and `get_storage_index()` of it is `None`, as its `IFilesystemNode` documents.
`lease_maintenance.py:69-126` hands on what `get_storage_index()` returns, so the storage indexes of
a run have the type `Option Bytes` here.
-/
namespace ZKAP

/-- What `get_storage_index()` returned, as an item of the argument of a remote call. -/
def storage_index_to_wire : Option Bytes → Wire
  | none => .none
  | some storage_index => .bytes storage_index

/-- `_storage_client.py:257-263`, with `foolscap.py:169-183`: the remote call of `stat_shares`.
Foolscap checks the argument against the schema before the call is sent; `answer` is what comes
of the call after that. -/
def call_stat_shares (answer : List Bytes → Except PyErr (List (Dict Nat ShareStat)))
    (storage_indexes : List (Option Bytes)) : Except PyErr (List (Dict Nat ShareStat)) :=
  let arg : Wire := .list (storage_indexes.map storage_index_to_wire)
  match RIPrivacyPassAuthorizedStorageServer "stat_shares" with
  | none => .error violation
  | some schema =>
    if schema.checkArgs [arg] then
      match wire_list wire_bytes arg with
      | some received => answer received
      | none => .error remoteFailure
    else .error violation

/-- A storage server as a maintenance run meets it, `lease_maintenance.py:187-240`: through the
remote call of `stat_shares`.  `lease_maintenance.py:254-296` `renew_lease` derives secrets from the
storage index, which fails for `None`. -/
def server_for_nodes (server : LeaseServer Bytes) : LeaseServer (Option Bytes) where
  stat_shares := call_stat_shares server.stat_shares
  add_lease
    | some storage_index => server.add_lease storage_index
    | none => .error .typeError
  now := server.now

end ZKAP
