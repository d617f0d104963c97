import Verif.Model.Server

/-!
The secrets with which lease maintenance renews a lease: `lease_maintenance.py:254-296`.
-/
namespace ZKAP

/-- The hashes of Tahoe-LAFS (`allmydata/util/hashutil.py`) from which the secrets of a lease are made. -/
structure LeaseHashes where
  file_renewal_secret_hash : Bytes → SI → Bytes
  bucket_renewal_secret_hash : Bytes → Bytes → Bytes
  file_cancel_secret_hash : Bytes → SI → Bytes
  bucket_cancel_secret_hash : Bytes → Bytes → Bytes

/-- The renew secret of the lease that a client of Tahoe-LAFS asks for when it stores a share:
`allmydata/immutable/upload.py` (`Tahoe2ServerSelector`), `allmydata/mutable/filenode.py`
(`get_renewal_secret`).  `client_secret` is the client's own, `lease_seed` the server's. -/
def original_renewal_secret (h : LeaseHashes) (client_secret : Bytes) (si : SI) (lease_seed : Bytes) : Secret :=
  h.bucket_renewal_secret_hash (h.file_renewal_secret_hash client_secret si) lease_seed

/-- `lease_maintenance.py:254-296` `renew_lease`.  `add_lease` is the server's method: storage index, renew secret
and cancel secret. -/
def renew_lease {α} (h : LeaseHashes) (renewal_secret cancel_secret : Bytes) (storage_index : SI)
    (lease_seed : Bytes) (add_lease : SI → Secret → Secret → α) : α :=
  let renew_secret :=
    h.bucket_renewal_secret_hash (h.file_renewal_secret_hash renewal_secret storage_index) lease_seed
  let cancel_secret :=
    h.bucket_cancel_secret_hash (h.file_cancel_secret_hash cancel_secret storage_index) lease_seed
  add_lease storage_index renew_secret cancel_secret

end ZKAP
