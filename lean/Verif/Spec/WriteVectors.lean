import Verif.Model.Pricing

/-! What the property of `Verif.Props.WriteVectors` talks about. -/
namespace ZKAP.Spec

/-- The request writes these bytes at this place of this share. -/
def WritesAt (tw : TWVectors) (sharenum offset : Nat) (data : Bytes) : Prop :=
  ∃ kv ∈ tw, kv.1 = sharenum ∧ (offset, data) ∈ kv.2.datav

/-- The request has something to say about the length of this share. -/
def SetsLength (tw : TWVectors) (sharenum : Nat) : Prop :=
  ∃ kv ∈ tw, kv.1 = sharenum ∧ kv.2.new_length ≠ none

/-- This is the end of what is written furthest into a share. -/
def FurthestEnd (tw : TWVectors) (m : Nat) : Prop :=
  (∃ n offset data, WritesAt tw n offset data ∧ m = offset + data.length) ∧
    ∀ n offset data, WritesAt tw n offset data → offset + data.length ≤ m

end ZKAP.Spec
