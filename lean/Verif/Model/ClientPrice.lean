import Verif.Model.Server

/-! How many passes the storage client decides to send: `_storage_client.py`. -/
namespace ZKAP

/-- `_storage_client.py:479-481`. -/
def client_allocate_num_passes (pass_value : Int) (sharenums : List Nat) (allocated_size : Int) : Int :=
  required_passes pass_value (List.replicate sharenums.length allocated_size)

/-- `_storage_client.py:538-539`, given the server's answer to `share_sizes`. -/
def client_add_lease_num_passes (pass_value : Int) (share_sizes : Dict Nat Int) : Int :=
  required_passes pass_value share_sizes.values

/-- `_storage_client.py:593-642`, given the server's answer `stats` to `stat_shares`. -/
def client_writev_num_passes (pass_value : Int) (stats : Dict Nat ShareStat) (tw : TWVectors)
    (now : Int) : Int :=
  let write_sharenums := get_write_sharenums tw
  if write_sharenums.length > 0 then
    let current_sizes :=
      (stats.filter (fun kv => decide (kv.2.lease_expiration > now) && write_sharenums.contains kv.1)).map
        (fun kv => (kv.1, kv.2.size))
    get_required_new_passes_for_mutable_write pass_value current_sizes tw
  else 0

end ZKAP
