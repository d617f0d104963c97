import Verif.Spec.MaintRun

/-! What the property of `Verif.Props.ShortRun` talks about. -/
namespace ZKAP.Spec

/-- All servers take part; the node may have any number of tokens. -/
structure MayTend (c : MaintScene) : Prop where
  value : 0 < c.node.pass_value
  reissue : NoReissueIn c.node.sign c.node.pass_value {} c.history
  works : Signs c.node.sign
  distinct : c.indexes.Nodup
  minimum : 0 ≤ c.node.min_lease_remaining ∧ c.node.min_lease_remaining ≤ 31 * 24 * 60 * 60 * 1000000
  stops : ∀ stop ∈ c.stops, GoodStop c stop

/-- The shares at an index of a server are there afterwards, with their data and enough lease left. -/
def LeftSafe (c : MaintScene) (stop : MaintStop) (server : Server) (si : SI) : Prop :=
  ∀ n share, StoredShare stop.server si n share → ∃ share', StoredShare server si n share' ∧ share'.data = share.data ∧
    LeaseLasts c.node.min_lease_remaining stop.now share'

/-- What it costs to renew what has to be renewed at the first `i` servers, and at these indexes of another one. -/
def MaintScene.costBefore (c : MaintScene) (i : Nat) (stop : MaintStop) (indexes : List SI) : Int :=
  ((c.stops.take i).map c.cost).sum + ((indexes.filter fun si =>
    !secure c.node.min_lease_remaining stop.now (stop.server.buckets si)).map (c.price stop)).sum

/-- The run ended at an index of the server at `i`, for want of tokens. -/
structure RanOut (c : MaintScene) (i : Nat) (stop : MaintStop) (before : List SI) (si : SI) (after : List SI)
    (client : StorageSession) (servers : List Server) : Prop where
  ended : c.run = some (.error .notEnoughTokens, client, servers)
  place : c.stops[i]? = some stop ∧ c.indexes = before ++ si :: after
  due : secure c.node.min_lease_remaining stop.now (stop.server.buckets si) = false
  first : Affords c.client.store (c.costBefore i stop before) ∧ ¬ Affords c.client.store (c.costBefore i stop (before ++ [si]))
  done : (∀ j < i, ∀ stop' server, c.stops[j]? = some stop' → servers[j]? = some server →
      ∀ si ∈ c.indexes, LeftSafe c stop' server si) ∧
    ∀ server, servers[i]? = some server → ∀ si ∈ before, LeftSafe c stop server si
  undone : (∀ server, servers[i]? = some server → ∀ si' ∈ si :: after, server.buckets si' = stop.server.buckets si') ∧
    ∀ j > i, servers[j]? = (c.stops[j]?).map (·.server)
  all : servers.length = c.stops.length
  tokens : ((storedTokens c.client.store).length : Int) = (storedTokens client.store).length + c.costBefore i stop before
  usable : ∀ n, Affords client.store n ↔ Affords c.client.store (n + c.costBefore i stop before)
  record : ∃ k, (∀ r ∈ c.client.store.app.maint, r.id ≠ k) ∧ ⟨k, c.started, none,
    ((c.stops.take i).map c.value).sum + ((before ++ [si]).map (c.price stop)).sum⟩ ∈ client.store.app.maint

end ZKAP.Spec
