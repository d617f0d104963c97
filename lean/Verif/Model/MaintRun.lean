import Verif.Model.Conversation
import Verif.Model.LeaseMaintenance
import Verif.Model.LeaseSecrets

/-!
A lease maintenance run and the storage servers it comes to: `lease_maintenance.py:129-296` with the methods of the
storage client (`Model/StorageClient.lean`) and of the servers (`Model/Conversation.lean`) that it calls, and with
the record of the run in the node's database (`model.py:925-993`).
-/
namespace ZKAP

/-- What a call of the storage client finds on its way: the reference to the server, the order of the tokens if they
are taken at once, and the moments of its remote calls. -/
structure Errand where
  get_rref : Except PyErr RRef
  order : Order
  moments : List Moment

/-- A storage server the run comes to; `now` is the time read before (`lease_maintenance.py:182`), in microseconds. -/
structure MaintStop where
  cfg : ServerConfig
  lease_seed : Bytes
  now : Int
  stat : Errand
  renewal : SI → Errand
  server : Server

/-- The node: its signer, its idea of the value of a pass, the secrets of its leases and the configured minimum time
remaining, in microseconds. -/
structure MaintNode where
  sign : Signer
  pass_value : Int
  hashes : LeaseHashes
  renewal_secret : Bytes
  cancel_secret : Bytes
  min_lease_remaining : Int

/-- A method of the storage client is called and awaited: what it comes to (`none` if it is not over after the
moments there are), the client and the server.  All storage clients of a node share its database. -/
def MaintNode.ask (nd : MaintNode) (cfg : ServerConfig) (e : Errand) (op : StorageOp) (client : StorageSession)
    (server : Server) : Option (Except PyErr OpResult) × StorageSession × Server :=
  let k := converse nd.sign cfg nd.pass_value op e.get_rref e.order client server e.moments
  (match k.client.log.getLast? with
    | some (.returned _ r) => some (.ok r)
    | some (.raised _ e) => some (.error e)
    | _ => none, k.client, k.server)

/-- The attributes `size` and `lease_expiration` of a `ShareStat` that arrived (`foolscap.py:24-58`).  The storage
client returns nothing else (`_storage_client.py:564-581`). -/
def stat_attributes (d : Dict String Wire) : Option ShareStat :=
  match d.lookup "size", d.lookup "lease_expiration" with
  | some (.int size), some (.int lease_expiration) => some ⟨size, lease_expiration⟩
  | _, _ => none

/-- The values of the dictionaries `stat_shares` returns. -/
def stats_of : OpResult → List (List ShareStat)
  | .stats l => l.map fun d => d.values.filterMap stat_attributes
  | _ => []

/-- `lease_maintenance.py:226`: `activity.observe`.  It raises for a pass value that is not positive; the
model goes on. -/
def MaintNode.observe (nd : MaintNode) (activity : LeaseMaintenance) (sizes : List Int) (client : StorageSession) :
    StorageSession :=
  client.step nd.sign nd.pass_value (.other (.maintObserve nd.pass_value sizes activity))

/-- The loop of `lease_maintenance.py:219-240`. -/
def tend_loop (nd : MaintNode) (activity : LeaseMaintenance) (stop : MaintStop) :
    List (SI × List ShareStat) → StorageSession → Server → Option (Except PyErr Unit × StorageSession × Server)
  | [], client, server => some (.ok (), client, server)
  | (storage_index, stats) :: rest, client, server =>
    if stats.isEmpty then tend_loop nd activity stop rest client server
    else
      let client := nd.observe activity (stats.map (·.size)) client
      match soonest_expiration stats with
      | .error e => some (.error e, client, server)
      | .ok most_endangered =>
        match needs_lease_renew nd.min_lease_remaining most_endangered stop.now with
        | .error e => some (.error e, client, server)
        | .ok false => tend_loop nd activity stop rest client server
        | .ok true =>
          match renew_lease nd.hashes nd.renewal_secret nd.cancel_secret storage_index stop.lease_seed
              (fun si renew cancel => nd.ask stop.cfg (stop.renewal si) (.addLease si renew cancel) client server) with
          | (none, _, _) => none
          | (some (.error e), client, server) => some (.error e, client, server)
          | (some (.ok _), client, server) => tend_loop nd activity stop rest client server

/-- `lease_maintenance.py:187-240` `renew_leases_on_server`. -/
def tend_server (nd : MaintNode) (activity : LeaseMaintenance) (storage_indexes : List SI) (stop : MaintStop)
    (client : StorageSession) : Option (Except PyErr Unit × StorageSession × Server) :=
  match nd.ask stop.cfg stop.stat (.statShares storage_indexes) client stop.server with
  | (none, _, _) => none
  | (some (.error e), client, server) => some (.error e, client, server)
  | (some (.ok r), client, server) => tend_loop nd activity stop (storage_indexes.zip (stats_of r)) client server

/-- The loop of `lease_maintenance.py:172-184` and `activity.finish()`; the servers as they are in the end. -/
def tend_servers (nd : MaintNode) (activity : LeaseMaintenance) (finished : String) (storage_indexes : List SI) :
    List MaintStop → StorageSession → Option (Except PyErr Unit × StorageSession × List Server)
  | [], client => some (.ok (), client.step nd.sign nd.pass_value (.other (.maintFinish finished activity)), [])
  | stop :: stops, client =>
    match tend_server nd activity storage_indexes stop client with
    | none => none
    | some (.error e, client, server) => some (.error e, client, server :: stops.map (·.server))
    | some (.ok (), client, server) =>
      match tend_servers nd activity finished storage_indexes stops client with
      | none => none
      | some (r, client, servers) => some (r, client, server :: servers)

/-- `lease_maintenance.py:129-184` `renew_leases`, after the storage indexes have been found; the observer is the one
of `_plugin.py:463`, `VoucherStore.start_lease_maintenance` (`model.py:881-890`). -/
def tend (nd : MaintNode) (started finished : String) (storage_indexes : List SI) (stops : List MaintStop)
    (client : StorageSession) : Option (Except PyErr Unit × StorageSession × List Server) :=
  match (StoreOp.maintStart started {}).step client.store with
  | (.ok (.maint activity), t) => tend_servers nd activity finished storage_indexes stops { client with store := t }
  | (.ok _, t) => some (.ok (), { client with store := t }, stops.map (·.server))
  | (.error e, t) => some (.error e, { client with store := t }, stops.map (·.server))

end ZKAP
