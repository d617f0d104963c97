/-! Specification of prices, independent of the model. -/
namespace ZKAP.Spec

/-- `n` passes, each worth `v` bytes, are enough for `size` bytes and no smaller
non-negative number of passes is. -/
def LeastCover (v size n : Int) : Prop :=
  0 ≤ n ∧ size ≤ n * v ∧ ∀ m : Int, 0 ≤ m → size ≤ m * v → n ≤ m

/-- The number of passes for one share, as a formula: `⌈size / v⌉`. -/
def passes (v size : Int) : Int := (size + v - 1) / v

/-- The number of passes for several shares. -/
def total (v : Int) (sizes : List Int) : Int := (sizes.map (passes v)).sum

/-- What growing one share from `old` to (at least) `new` bytes costs. -/
def growth (v old new : Int) : Int := passes v (max old new) - passes v old

end ZKAP.Spec
