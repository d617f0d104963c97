import Verif.Model.ServerReads

/-! Specification vocabulary for stored data: who may change what. -/
namespace ZKAP.Spec

/-- A share is stored. -/
def StoredShare (s : Server) (si : SI) (n : Nat) (share : Share) : Prop :=
  (s.buckets si).lookup n = some share

/-- Requests whose sets are sets and whose dictionaries are dictionaries, as Python guarantees. -/
def ProperOp : ServerOp → Prop
  | .allocate a => a.sharenums.Nodup
  | .writev a => Dict.WF a.tw_vectors
  | _ => True

/-- A write to the slot by someone who knows its write enabler. -/
def HolderWrite (si : SI) (write_enabler : Secret) (op : ServerOp) : Prop :=
  ∃ a, op = .writev a ∧ a.storage_index = si ∧ a.write_enabler = write_enabler

/-- A write to some slot at this storage index. -/
def SlotWriteAt (si : SI) (op : ServerOp) : Prop := ∃ a, op = .writev a ∧ a.storage_index = si

/-- The start of an upload of immutable shares to this storage index. -/
def UploadAt (si : SI) (op : ServerOp) : Prop := ∃ a, op = .allocate a ∧ a.storage_index = si

/-- Shares that were stored before the server started have distinct numbers. -/
def ProperShares (buckets : SI → Bucket) : Prop := ∀ si, Dict.WF (buckets si)

end ZKAP.Spec
