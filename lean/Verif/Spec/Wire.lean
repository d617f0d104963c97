import Verif.Model.Wire
import Verif.Model.ClientPrice

/-! What the properties of `Verif.Props.Wire` talk about. -/
namespace ZKAP.Spec

/-- Passes a storage server takes with one call. -/
def PassesFit (passes : List Bytes) : Prop := passes.length ≤ 2 ^ 20 ∧ ∀ p ∈ passes, p.length = 177

def ReadsFit (reads : List (Nat × Nat)) : Prop := ∀ r ∈ reads, r.1 < 2 ^ 64 ∧ r.2 < 2 ^ 31

/-- What is written to one share. -/
def WritesFit (shnum : Nat) (tw : TW) : Prop :=
  shnum < 2 ^ 31 ∧ (∀ t ∈ tw.testv, t.offset < 2 ^ 64 ∧ t.length < 2 ^ 31) ∧
    (∀ d ∈ tw.datav, d.1 < 2 ^ 64) ∧ ∀ n, tw.new_length = some n → n < 2 ^ 64

/-- The requests the protocol has room for: storage indexes of at most 16 bytes, secrets of 32 bytes,
share numbers of 31 bits, sizes and offsets of 64 bits, at most 256 shares allocated at once
and at most 2²⁰ passes, each of 177 bytes. -/
def Fits : StorageRequest → Prop
  | .getVersion => True
  | .allocateBuckets passes storage_index renew_secret cancel_secret sharenums allocated_size _ =>
    PassesFit passes ∧ storage_index.length ≤ 16 ∧ renew_secret.length = 32 ∧ cancel_secret.length = 32 ∧
      sharenums.length ≤ 256 ∧ (∀ n ∈ sharenums, n < 2 ^ 31) ∧ allocated_size < 2 ^ 64
  | .addLease passes storage_index renew_secret cancel_secret =>
    PassesFit passes ∧ storage_index.length ≤ 16 ∧ renew_secret.length = 32 ∧ cancel_secret.length = 32
  | .getBuckets storage_index => storage_index.length ≤ 16
  | .shareSizes storage_index => storage_index.length ≤ 16
  | .statShares storage_indexes => ∀ s ∈ storage_indexes, s.length ≤ 16
  | .readv storage_index shares r_vector =>
    storage_index.length ≤ 16 ∧ (∀ n ∈ shares, n < 2 ^ 31) ∧ ReadsFit r_vector
  | .writev passes storage_index secrets tw_vectors r_vector =>
    PassesFit passes ∧ storage_index.length ≤ 16 ∧
      (secrets.1.length = 32 ∧ secrets.2.1.length = 32 ∧ secrets.2.2.length = 32) ∧
      (∀ kv ∈ tw_vectors, WritesFit kv.1 kv.2) ∧ ReadsFit r_vector
  | .adviseCorruptShare _ storage_index shnum _ => storage_index.length ≤ 16 ∧ shnum < 2 ^ 31

/-- The items of a dict from the network, as typed items: key by key and value by value. -/
def Items {α} (value : Wire → Option α) (d : List (Wire × Wire)) (items : List (Int × α)) : Prop :=
  d.map (fun kv => (kv.1.asInt, value kv.2)) = items.map (fun it => (some it.1, some it.2))

def ShareNumber (n : Int) : Prop := -2 ^ 31 ≤ n ∧ n < 2 ^ 31

/-- A well-formed answer to `share_sizes`: sizes by share number. -/
def SizesAnswer (answer : Wire) (sizes : List (Int × Int)) : Prop :=
  ∃ d, answer = .dict d ∧ Items Wire.asInt d sizes ∧ ∀ it ∈ sizes, ShareNumber it.1 ∧ it.2.natAbs < 2 ^ 64

/-- A well-formed answer to a slot write: whether the tests passed, and the data read by share number. -/
def WriteAnswer (answer : Wire) (ok : Bool) (data : List (Int × List Bytes)) : Prop :=
  ∃ d, answer = .tuple [.bool ok, .dict d] ∧ Items (wire_list wire_bytes) d data

/-- A well-formed answer to `get_buckets`: remote references by share number. -/
def BucketsAnswer (answer : Wire) (buckets : List (Int × Nat)) : Prop :=
  ∃ d, answer = .dict d ∧ Items (fun w => match w with | .ref n => some n | _ => none) d buckets ∧
    d.length ≤ 256 ∧ ∀ it ∈ buckets, ShareNumber it.1

/-- A well-formed answer to `allocate_buckets`: the shares the server already has and the references to
those to be written, of the shares that were asked for. -/
def AllocateAnswer (asked : List Nat) (answer : Wire) : Prop :=
  ∃ got d buckets, answer = .tuple [.set got, .dict d] ∧ (∀ w ∈ got, ∃ n ∈ asked, w = .int n) ∧
    Items (fun w => match w with | .ref n => some n | _ => none) d buckets ∧
    ∀ it ∈ buckets, ∃ n ∈ asked, it.1 = (n : Int)

/-- A well-formed item of an answer to `stat_shares`: a share with its size and the end of its lease. -/
def StatItem (answer : Wire) : Prop :=
  ∃ attributes size expiration, answer = .stat attributes ∧
    attributes.lookup "size" = some (.int size) ∧ 0 ≤ size ∧
    attributes.lookup "lease_expiration" = some (.int expiration)

end ZKAP.Spec
