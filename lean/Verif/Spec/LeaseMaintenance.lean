import Verif.Model.LeaseMaintenance

/-! Specification vocabulary for lease maintenance. -/
namespace ZKAP.Spec

/-- `m` is an entry of the directory `n`. -/
def Child {ν σ} (g : NodeGraph ν σ) (n m : ν) : Prop :=
  ∃ children name, g.list n = .ok (some children) ∧ (name, m) ∈ children

/-- The nodes reachable from some roots. -/
inductive Reachable {ν σ} (g : NodeGraph ν σ) (roots : List ν) : ν → Prop where
  | root {n} : n ∈ roots → Reachable g roots n
  | child {n m} : Reachable g roots n → Child g n m → Reachable g roots m

/-- No infinite path leads from `n` from directory to entry. -/
def Finite {ν σ} (g : NodeGraph ν σ) (n : ν) : Prop := Acc (fun m n => Child g n m) n

/-- The server's answer about a storage index. -/
def AnswerAbout {σ} (server : LeaseServer σ) (sis : List σ) (si : σ) (shares : Dict Nat ShareStat) :
    Prop :=
  ∃ (stats : List (Dict Nat ShareStat)) (i : Nat),
    server.stat_shares sis = .ok stats ∧ sis[i]? = some si ∧ stats[i]? = some shares

/-- Some share has a lease that expires in less than the minimum time remaining. -/
def ExpiresSoon (min_remaining now : Int) (shares : Dict Nat ShareStat) : Prop :=
  ∃ n stat, (n, stat) ∈ shares ∧ stat.lease_expiration * 1000000 - now < min_remaining

/-- The renewals among the calls of a run. -/
def renewals {σ} (calls : List (MaintCall σ)) : List (Nat × σ) :=
  calls.filterMap fun c => match c with
    | .renew i si => some (i, si)
    | _ => none

end ZKAP.Spec

namespace ZKAP.Spec

/-- The share has a lease with at least this much time remaining. -/
def LeaseLasts (min_remaining now : Int) (share : Share) : Prop :=
  ∃ l ∈ share.leases, min_remaining ≤ l.expiration * 1000000 - now

/-- A storage server carrying out some renewals, in order: its state at the end, if all of
them succeed.  `call si` are the arguments with which the index `si` is renewed. -/
def renewedServer (cfg : ServerConfig) (call : SI → AddLeaseArgs) (s : Server) : List SI → Option Server
  | [] => some s
  | si :: rest =>
    match remote_add_lease cfg (call si) s with
    | (s', .ok ()) => renewedServer cfg call s' rest
    | (_, .error _) => none

/-- The intervals a maintenance service with this configuration works with: the first one is
the one computed at its construction, every other one is sampled. -/
structure FollowsConfig (c : LeaseMaintenanceConfig) (events : List TimerEvent) : Prop where
  first : ∀ d, .start d ∈ events →
    ∃ sample last_run now, Sampled c sample ∧ d = initial_interval sample last_run now
  other : ∀ d, .done d ∈ events → Sampled c d

end ZKAP.Spec

namespace ZKAP.Spec

/-- A server that answers every request of a run, with expiration times a `datetime` can hold. -/
structure Healthy {σ} (sis : List σ) (server : LeaseServer σ) : Prop where
  stats : ∃ stats, server.stat_shares sis = .ok stats ∧ ∀ d ∈ stats, ∀ n st, (n, st) ∈ d →
    -62135596800 ≤ st.lease_expiration ∧ st.lease_expiration ≤ 253402300799
  leases : ∀ si ∈ sis, server.add_lease si = .ok ()

end ZKAP.Spec
