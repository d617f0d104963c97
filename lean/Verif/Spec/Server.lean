import Verif.Model.Server
import Verif.Spec.Pricing

/-! Specification of what the storage server charges, in terms of stored shares only. -/
namespace ZKAP.Spec

/-- The share has a lease that has not expired. -/
def Leased (share : Share) (now : Int) : Prop := ∃ l ∈ share.leases, now < l.expiration

instance (share : Share) (now : Int) : Decidable (Leased share now) :=
  inferInstanceAs (Decidable (∃ l ∈ share.leases, now < l.expiration))

/-- The size of share `n` that is currently paid for: its data length if it is leased. -/
def paidSize (bucket : Bucket) (now : Int) (n : Nat) : Int :=
  match bucket.lookup n with
  | none => 0
  | some share => if Leased share now then share.data.length else 0

/-- The end of the furthest write. -/
def writtenEnd (datav : List (Nat × Bytes)) : Nat :=
  (datav.map (fun w => w.1 + w.2.length)).foldr max 0

/-- The price of a slot write: for each share in the request, the growth in passes from
what is paid for to the end of what is written. -/
def writePrice (v : Int) (bucket : Bucket) (now : Int) (tw : TWVectors) : Int :=
  (tw.map (fun kv => growth v (paidSize bucket now kv.1) (writtenEnd kv.2.datav))).sum

/-- The price of one lease period for all shares at an index. -/
def bucketPrice (v : Int) (bucket : Bucket) : Int :=
  (bucket.map (fun kv => passes v kv.2.data.length)).sum

/-- How many of the passes verify. -/
def validCount (ok : Pass → Bool) (ps : List Pass) : Nat := (ps.filter ok).length

/-- `l` lists exactly the positions of the passes that do not verify. -/
def FailedPositions (ok : Pass → Bool) (ps : List Pass) (l : List Nat) : Prop :=
  l.Nodup ∧ ∀ i, i ∈ l ↔ ∃ p, ps[i]? = some p ∧ ok p = false

/-- The wire strings parse to these passes. -/
def Parses (wire : List Bytes) (ps : List Pass) : Prop :=
  wire.map Pass.from_bytes = ps.map .ok

end ZKAP.Spec
