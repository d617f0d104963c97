import Verif.Spec.Upkeep

/-! What the property of `Verif.Props.Keeping` talks about. -/
namespace ZKAP.Spec

/-- Who asks the server for the shares at the index is given this data for the share. -/
def CanBeRead (s : Server) (si : SI) (n : Nat) (data : Bytes) : Prop :=
  ∃ read, remote_get_buckets s si = .ok read ∧ read.lookup n = some data

/-- After the visit to the `i`-th server in the `k`-th run, whatever happens at the server, at every time up to the
configured minimum time after the visit the data is what is read and it has a lease. -/
def KeptFrom (runs : List MaintScene) (i : Nat) (si : SI) (n : Nat) (data : Bytes) (k : Nat) : Prop :=
  ∀ c, runs[k]? = some c → ∃ client servers server stop, c.run = some (.ok (), client, servers) ∧
    c.stops[i]? = some stop ∧ servers[i]? = some server ∧
    ∀ ops t, t ≤ stop.now + c.node.min_lease_remaining →
      CanBeRead (server.run stop.cfg ops) si n data ∧
      ∃ share, StoredShare (server.run stop.cfg ops) si n share ∧ LeaseLasts 0 t share

end ZKAP.Spec
