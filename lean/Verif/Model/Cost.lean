import Verif.Model.Pricing

/-! Cost of a replica: `tahoe.py` and `_plugin.py`. -/
namespace ZKAP

/-- `tahoe.py` `ShareEncoding` (needed, total). -/
structure ShareEncoding where
  needed : Int
  total : Nat
  deriving DecidableEq, Repr

/-- `tahoe.py:853-858` `share_sizes_for_data`. -/
def share_sizes_for_data (encoding : ShareEncoding) (data_size : Int) : List Int :=
  List.replicate encoding.total (share_size_for_data encoding.needed data_size)

/-- `tahoe.py:840-850` `required_passes_for_data`. -/
def required_passes_for_data (bytes_per_pass : Int) (encoding : ShareEncoding) (data_size : Int) : Int :=
  required_passes bytes_per_pass (share_sizes_for_data encoding data_size)

/-- `_plugin.py:115-147` `_CostBasedPolicy`. `factor` is `10` at the only place where
a policy is constructed (`_plugin.py:230-234`), so an integer. -/
structure CostBasedPolicy where
  bytes_per_pass : Int
  encoding : ShareEncoding
  factor : Int
  deriving DecidableEq, Repr

/-- `_plugin.py:139-147` `_CostBasedPolicy.should_snapshot`. -/
def CostBasedPolicy.should_snapshot (self : CostBasedPolicy) (snapshot_size : Int)
    (replica_sizes : List Int) : Bool :=
  let snapshot_cost := required_passes_for_data self.bytes_per_pass self.encoding snapshot_size
  let replica_cost :=
    (replica_sizes.map (required_passes_for_data self.bytes_per_pass self.encoding)).foldl (· + ·) 0
  decide (snapshot_cost * self.factor < replica_cost)

/-- The policy the plugin installs, `_plugin.py:230-234`. -/
def plugin_policy (pass_value : Int) (encoding : ShareEncoding) : CostBasedPolicy :=
  ⟨pass_value, encoding, 10⟩

end ZKAP
