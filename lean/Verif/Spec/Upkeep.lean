import Verif.Spec.RealSigner
import Verif.Spec.LeaseSecrets

/-! What the property of `Verif.Props.Upkeep` talks about. -/
namespace ZKAP.Spec

/-- A maintenance run comes after another one.  It finds everything the other one found and comes to the same servers,
each of them no later than the configured minimum time after it was there.  Between the two, anything at all may happen
at the servers. -/
structure NextRun (a b : MaintScene) : Prop where
  indexes : ∀ si ∈ a.indexes, si ∈ b.indexes
  servers : b.stops.length = a.stops.length
  visits : ∀ client servers, a.run = some (.ok (), client, servers) → ∀ (i : Nat) stop server next,
    a.stops[i]? = some stop → servers[i]? = some server → b.stops[i]? = some next →
    (∃ ops, next.server = server.run stop.cfg ops) ∧ next.now ≤ stop.now + a.node.min_lease_remaining

/-- A node's maintenance runs, one after the other, each of them one that can be carried out. -/
def Upkeep (possible : MaintScene → Prop) : List MaintScene → Prop
  | [] => True
  | [a] => possible a
  | a :: b :: rest => possible a ∧ NextRun a b ∧ Upkeep possible (b :: rest)

/-- After its visit to the `i`-th server in the `k`-th run, whatever happens at the server, the share has a lease
at every time up to the configured minimum time after the visit. -/
def LeasedFrom (runs : List MaintScene) (i : Nat) (si : SI) (n : Nat) (k : Nat) : Prop :=
  ∀ c, runs[k]? = some c → ∃ client servers server stop, c.run = some (.ok (), client, servers) ∧
    c.stops[i]? = some stop ∧ servers[i]? = some server ∧
    ∀ ops t, t ≤ stop.now + c.node.min_lease_remaining →
      ∃ share, StoredShare (server.run stop.cfg ops) si n share ∧ LeaseLasts 0 t share

end ZKAP.Spec
