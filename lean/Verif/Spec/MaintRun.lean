import Verif.Model.MaintRun
import Verif.Spec.LeaseMaintenance
import Verif.Spec.Conversation
import Verif.Spec.Results

/-! What the property of `Verif.Props.MaintRun` talks about. -/
namespace ZKAP.Spec

/-- Every share has a lease with at least this much time remaining. -/
def secure (min_remaining now : Int) (bucket : Bucket) : Bool :=
  bucket.all fun kv => kv.2.leases.any fun l => decide (min_remaining ≤ l.expiration * 1000000 - now)

/-- A node with any history, and the servers a maintenance run comes to. -/
structure MaintScene where
  node : MaintNode
  history : List SessionEvent
  /-- the storage indexes of everything that is reachable -/
  indexes : List SI
  stops : List MaintStop
  started : String
  finished : String

namespace MaintScene

/-- The storage client before the run. -/
def client (c : MaintScene) : StorageSession := StorageSession.run c.node.sign c.node.pass_value {} c.history

/-- The run. -/
def run (c : MaintScene) : Option (Except PyErr Unit × StorageSession × List Server) :=
  tend c.node c.started c.finished c.indexes c.stops c.client

/-- The request for a new lease at an index. -/
def renewal (c : MaintScene) (stop : MaintStop) (si : SI) : StorageOp :=
  renew_lease c.node.hashes c.node.renewal_secret c.node.cancel_secret si stop.lease_seed StorageOp.addLease

/-- What a lease costs at an index of a server. -/
def price (c : MaintScene) (stop : MaintStop) (si : SI) : Int :=
  bucketPrice c.node.pass_value (stop.server.buckets si)

/-- The indexes with a share that has not enough lease left there. -/
def expiring (c : MaintScene) (stop : MaintStop) : List SI :=
  c.indexes.filter fun si => !secure c.node.min_lease_remaining stop.now (stop.server.buckets si)

/-- What it costs to renew these. -/
def cost (c : MaintScene) (stop : MaintStop) : Int := ((c.expiring stop).map (c.price stop)).sum

/-- What it costs to renew everything. -/
def value (c : MaintScene) (stop : MaintStop) : Int := (c.indexes.map (c.price stop)).sum

end MaintScene

/-- What other clients do leaves the shares at these indexes alone. -/
def LeavesAlone (cfg : ServerConfig) (indexes : List SI) (ops : List ServerOp) : Prop :=
  ∀ (s : Server), ∀ si ∈ indexes, (s.run cfg ops).buckets si = s.buckets si

/-- A server that takes part: it can be reached and told about, its clock is not behind the client's, it has room for
leases, and meanwhile nobody touches what the run is about. -/
structure TakesPart (c : MaintScene) (stop : MaintStop) : Prop where
  value : stop.cfg.pass_value = c.node.pass_value
  shares : ProperShares stop.server.buckets
  tellable : ∀ si ∈ c.indexes, Tellable (stop.server.buckets si)
  dates : ∀ si ∈ c.indexes, ∀ kv ∈ stop.server.buckets si, ∀ l ∈ kv.2.leases, 0 ≤ l.expiration ∧ l.expiration ≤ 253402300799
  right : RightServer stop.stat.get_rref ∧ ∀ si ∈ c.indexes, RightServer (stop.renewal si).get_rref
  reached : 1 ≤ stop.stat.moments.length ∧ ∀ si ∈ c.indexes, 2 ≤ (stop.renewal si).moments.length
  alone : (∀ m ∈ stop.stat.moments, LeavesAlone stop.cfg c.indexes m.others) ∧
    ∀ si ∈ c.indexes, ∀ m ∈ (stop.renewal si).moments, LeavesAlone stop.cfg c.indexes m.others
  room : ∀ si ∈ c.indexes, ∀ m ∈ (stop.renewal si).moments, ∀ n, m.room n = true
  clock : 0 < stop.now ∧ ∀ si ∈ c.indexes, ∀ m ∈ (stop.renewal si).moments, stop.now ≤ m.server_now * 1000000
  proper : Fits (.statShares c.indexes) ∧ ∀ si ∈ c.indexes, Proper (c.renewal stop si)
  each : ∀ si ∈ c.indexes, c.price stop si ≤ 2 ^ 20

/-- It also accepts the passes of the node. -/
structure GoodStop (c : MaintScene) (stop : MaintStop) : Prop extends TakesPart c stop where
  tokens : GoodTokens c.node.sign stop.cfg c.client.store

/-- The node has tokens for the leases that have to be renewed, and all servers take part. -/
structure CanTend (c : MaintScene) : Prop where
  value : 0 < c.node.pass_value
  reissue : NoReissueIn c.node.sign c.node.pass_value {} c.history
  works : Signs c.node.sign
  distinct : c.indexes.Nodup
  minimum : 0 ≤ c.node.min_lease_remaining ∧ c.node.min_lease_remaining ≤ 31 * 24 * 60 * 60 * 1000000
  stops : ∀ stop ∈ c.stops, GoodStop c stop
  affords : Affords c.client.store (c.stops.map c.cost).sum

/-- The run is complete, nothing is lost and everything has enough lease left; the tokens that left the store are the
price of what had to be renewed; the run is on record with the price of everything. -/
structure WellTended (c : MaintScene) (client : StorageSession) (servers : List Server) : Prop where
  complete : c.run = some (.ok (), client, servers)
  all : servers.length = c.stops.length
  leases : ∀ (i : Nat) stop server, c.stops[i]? = some stop → servers[i]? = some server → ∀ si ∈ c.indexes, ∀ n share,
    StoredShare stop.server si n share → ∃ share', StoredShare server si n share' ∧ share'.data = share.data ∧
      LeaseLasts c.node.min_lease_remaining stop.now share'
  tokens : ((storedTokens c.client.store).length : Int) = (storedTokens client.store).length + (c.stops.map c.cost).sum
  record : ∃ k, (∀ r ∈ c.client.store.app.maint, r.id ≠ k) ∧
    ⟨k, c.started, some c.finished, (c.stops.map c.value).sum⟩ ∈ client.store.app.maint

end ZKAP.Spec
