import Verif.Model.Py

/-! Pricing rules: `storage_common.py` and `pricecalculator.py`. -/
namespace ZKAP

/-- `storage_common.py:70` `BYTES_PER_PASS`. -/
def BYTES_PER_PASS : Int := 1024 * 1024

/-- One iteration of the loop of `required_passes`, `storage_common.py:162-166`:
`divmod` rounds towards minus infinity, as does `Int.fdiv`/`Int.fmod`. -/
def passes_for_size (bytes_per_pass x : Int) : Int :=
  let result := Int.fdiv x bytes_per_pass
  let b := Int.fmod x bytes_per_pass
  if b > 0 then result + 1 else result

/-- `storage_common.py:141-169` `required_passes`.
Simplification: the `isinstance` check is typing; division by zero is in
`required_passesE`. -/
def required_passes (bytes_per_pass : Int) (share_sizes : List Int) : Int :=
  share_sizes.foldl (fun zkaps x => zkaps + passes_for_size bytes_per_pass x) 0

/-- `storage_common.py:141-169` with the `ZeroDivisionError` of `divmod`. -/
def required_passesE (bytes_per_pass : Int) : List Int → Except PyErr Int
  | [] => .ok 0
  | x :: xs =>
    if bytes_per_pass = 0 then .error .zeroDivision
    else (required_passesE bytes_per_pass xs).map (passes_for_size bytes_per_pass x + ·)

/-- `storage_common.py:185-201` `share_size_for_data`: `div_ceil(datasize, k)`, which
is `allmydata.util.mathutil.div_ceil`: `n // d + (n % d != 0)`. -/
def share_size_for_data (shares_needed datasize : Int) : Int :=
  Int.fdiv datasize shares_needed + (if Int.fmod datasize shares_needed ≠ 0 then 1 else 0)

/-- `pricecalculator.py:54-69` `PriceCalculator.calculate`. `shares_total` is a
`Nat`: a negative count repeats a Python list zero times, as `0` does. -/
def price_calculate (shares_needed : Int) (shares_total : Nat) (pass_value : Int)
    (sizes : List Int) : Int :=
  ((sizes.map (share_size_for_data shares_needed)).map
    (fun share_size => required_passes pass_value (List.replicate shares_total share_size))).foldl
      (· + ·) 0

/-- A test vector element `(offset, length, operator, specimen)`,
`storage_common.py:173`. -/
structure TestItem where
  offset : Nat
  length : Nat
  specimen : Bytes
  deriving DecidableEq, Repr

/-- `(testv, datav, new_length)`, `storage_common.py:173-175`.  Simplification: offsets and sizes
are natural numbers; the foolscap schema admits negative ones, which Tahoe-LAFS refuses. -/
structure TW where
  testv : List TestItem
  datav : List (Nat × Bytes)
  new_length : Option Nat
  deriving DecidableEq, Repr

abbrev TWVectors := Dict Nat TW

/-- `storage_common.py:204-214` `has_writes`. -/
def has_writes (tw : TWVectors) : Bool :=
  tw.values.any (fun t => !t.datav.isEmpty || t.new_length.isSome)

/-- `storage_common.py:217-232` `get_write_sharenums` (a set; order irrelevant). -/
def get_write_sharenums (tw : TWVectors) : List Nat :=
  (tw.filter (fun kv => !kv.2.datav.isEmpty)).map Prod.fst

/-- Python's `max` of a non-empty iterable of offsets plus lengths, written as a fold.
Every term is a natural number so starting from `0` does not change the maximum. -/
def max_end (datav : List (Nat × Bytes)) : Nat :=
  datav.foldl (fun m od => Nat.max m (od.1 + od.2.length)) 0

/-- `storage_common.py:235-248` `get_allocated_size`; `max` of an empty sequence raises
`ValueError`. -/
def get_allocated_size (tw : TWVectors) : Except PyErr Nat :=
  match tw.filter (fun kv => !kv.2.datav.isEmpty) with
  | [] => .error .valueError
  | l => .ok (l.foldl (fun m kv => Nat.max m (max_end kv.2.datav)) 0)

/-- `storage_common.py:251-269` `get_implied_data_length`. -/
def get_implied_data_length (datav : List (Nat × Bytes)) (new_length : Option Nat) : Nat :=
  let data_based_size := if datav.isEmpty then 0 else max_end datav
  match new_length with
  | none => data_based_size
  | some n => Nat.min n data_based_size

/-- The loop body `storage_common.py:299-301`. -/
def size_update (new_sizes : Dict Nat Int) (u : Nat × Int) : Dict Nat Int :=
  if u.2 > new_sizes.getD u.1 0 then new_sizes.set u.1 u.2 else new_sizes

/-- `storage_common.py:272-316` `get_required_new_passes_for_mutable_write`
(without the log call). -/
def get_required_new_passes_for_mutable_write (pass_value : Int)
    (current_sizes : Dict Nat Int) (tw : TWVectors) : Int :=
  let current_passes := required_passes pass_value current_sizes.values
  let size_updates : Dict Nat Int :=
    tw.map (fun kv => (kv.1, (get_implied_data_length kv.2.datav kv.2.new_length : Int)))
  let new_sizes := size_updates.foldl size_update current_sizes
  required_passes pass_value new_sizes.values - current_passes

end ZKAP
