import Verif.Spec.LeaseMaintenance
import Verif.Model.LiteralFiles

/-! Specification vocabulary for lease maintenance over nodes without a storage index. -/
namespace ZKAP.Spec

/-- A server that works: it tells about every storage index the shares it holds, with expiration
times a `datetime` can hold, and renews every lease. -/
structure Works {σ} (server : LeaseServer σ) (holds : σ → Dict Nat ShareStat) : Prop where
  stats : ∀ sis, server.stat_shares sis = .ok (sis.map holds)
  dates : ∀ si n st, (n, st) ∈ holds si →
    -62135596800 ≤ st.lease_expiration ∧ st.lease_expiration ≤ 253402300799
  leases : ∀ si, server.add_lease si = .ok ()

/-- The nodes reachable from the roots that have a storage index have one of at most 16 bytes, as
all storage indexes of Tahoe-LAFS. -/
def ProperIndexes {ν} (g : NodeGraph ν (Option Bytes)) (roots : List ν) : Prop :=
  ∀ n si, Reachable g roots n → g.storage_index n = some si → si.length ≤ 16

end ZKAP.Spec
