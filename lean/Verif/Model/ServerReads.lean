import Verif.Model.Server

/-! The remote methods of the storage server that need no passes and change nothing.

The Tahoe-LAFS part is not in this repository; definitions prefixed `original_` model its
documented behaviour and are part of the trusted base. -/
namespace ZKAP

/-- Tahoe-LAFS `StorageServer.get_buckets` together with `BucketReader.read`: a reader for every
share file at the index, here the bytes it reads from offset 0 to the end. Opening a mutable
container as an immutable one raises; such shares are modelled by the error. -/
def original_get_buckets (bucket : Bucket) : Except SErr (Dict Nat Bytes) :=
  if bucket.any (fun kv => kv.2.is_mutable) then .error .wrongShareType
  else .ok (bucket.map (fun kv => (kv.1, kv.2.data)))

/-- `_storage_server.py:422-432` `remote_get_buckets`: one foolscap reader per reader of the wrapped
server (a dictionary comprehension over its items). -/
def remote_get_buckets (s : Server) (si : SI) : Except SErr (Dict Nat Bytes) :=
  match original_get_buckets (s.buckets si) with
  | .error e => .error e
  | .ok d => .ok (d.map (fun kv => (kv.1, kv.2)))

/-- Tahoe-LAFS `StorageServer.slot_readv`: the chosen shares, all of them when none is named. -/
def original_slot_readv (bucket : Bucket) (shares : List Nat) (readv : List (Nat × Nat)) :
    Except SErr (Dict Nat (List Bytes)) :=
  let chosen := bucket.filter (fun kv => shares.contains kv.1 || shares.isEmpty)
  if chosen.any (fun kv => !kv.2.is_mutable) then .error .wrongShareType
  else .ok (original_evaluate_read_vectors chosen readv)

/-- `_storage_server.py:625-639` `remote_slot_readv`. Simplification: the logged action
(lines 632-638) is dropped; `shares` is a list (the wrapped server fails on `None`). -/
def remote_slot_readv (s : Server) (si : SI) (shares : List Nat) (readv : List (Nat × Nat)) :
    Except SErr (Dict Nat (List Bytes)) :=
  original_slot_readv (s.buckets si) shares readv

end ZKAP
