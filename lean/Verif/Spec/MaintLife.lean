import Verif.Model.MaintLife
import Verif.Spec.LeaseMaintenance
import Verif.Spec.Timestamp

/-! The times between which maintenance is configured to run. -/
namespace ZKAP.Spec

/-- The shortest interval the configuration asks for. -/
def shortest (c : LeaseMaintenanceConfig) : Int := c.crawl_interval_mean - c.crawl_interval_range / 2

/-- The longest interval the configuration asks for. -/
def longest (c : LeaseMaintenanceConfig) : Int := c.crawl_interval_mean + c.crawl_interval_range / 2

/-- A configuration for which every interval is positive or zero. -/
structure Sensible (c : LeaseMaintenanceConfig) : Prop where
  range : 0 ≤ c.crawl_interval_range
  shortest : 0 ≤ shortest c

/-- Every interval in the life of the node was sampled as configured. -/
def LifeFollows (c : LeaseMaintenanceConfig) (events : List LifeEvent) : Prop :=
  ∀ e ∈ events, match e with
    | .start sample => Sampled c sample
    | .finish _ sample => Sampled c sample
    | _ => True

end ZKAP.Spec
