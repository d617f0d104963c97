import Verif.Model.ShareDir
import Verif.Spec.ShareFile

/-!
What the directories of a storage server should hold.
-/
namespace ZKAP.Spec

/-- The file holds the share: its kind can be seen from its header, and its size and its leases are read
from it. -/
structure FileOf (leases : Bytes → Except PyErr (List Int)) (file : Bytes) (share : Share) : Prop where
  kind : get_stat file = .ok (if share.is_mutable then .slot else .bucket)
  size : stat_share_size file = .ok share.data.length
  leases : leases file = .ok (share.leases.map (·.expiration))

/-- The names and files of a directory that holds a bucket and other files.  A share is under its number; the
names of the other files are no numbers. -/
inductive HoldsShares (leases : Bytes → Except PyErr (List Int)) : List (String × Bytes) → Bucket → Prop where
  | empty : HoldsShares leases [] []
  | share {dir bucket} (n : Nat) (file : Bytes) (share : Share) (hf : FileOf leases file share)
      (h : HoldsShares leases dir bucket) : HoldsShares leases ((str_int n, file) :: dir) ((n, share) :: bucket)
  | other {dir bucket} (name : String) (file : Bytes) (hn : py_int name = none)
      (h : HoldsShares leases dir bucket) : HoldsShares leases ((name, file) :: dir) bucket

/-- All shares of a bucket are of one kind. -/
def OneKind (bucket : Bucket) : Prop :=
  ∃ m, ∀ kv ∈ bucket, kv.2.is_mutable = m

/-- The directory of a storage index holds its bucket; if there is no share there may be no directory. -/
def DirOf (leases : Bytes → Except PyErr (List Int)) (dir : Listing) (bucket : Bucket) : Prop :=
  (dir = .error ENOENT ∧ bucket = []) ∨ ∃ contents, dir = .ok contents ∧ HoldsShares leases contents bucket

/-- A file too short to be a share. -/
def Damaged (file : Bytes) : Prop := file.length < 32

end ZKAP.Spec
