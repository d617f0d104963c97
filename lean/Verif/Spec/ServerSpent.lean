import Verif.Spec.Server

/-! Specification of what a storage server may record as spent, and of its spending metric. -/
namespace ZKAP.Spec

/-- The message passes are checked against and the passes sent, for requests that carry passes. -/
def request : ServerOp → Option (Bytes × List Bytes)
  | .allocate a => some (allocate_buckets_message a.storage_index, a.passes)
  | .addLease a => some (add_lease_message a.storage_index, a.passes)
  | .writev a => some (slot_testv_and_readv_and_writev_message a.storage_index, a.passes)
  | _ => none

/-- The preimage of a pass as sent, if it is a pass that verifies for the message. -/
def validPreimage (cfg : ServerConfig) (message wire : Bytes) : Option Bytes :=
  match Pass.from_bytes wire with
  | .error _ => none
  | .ok p => if cfg.verifies message p then some p.preimage else none

/-- The preimages of the valid passes a request carries, in order. -/
def validPreimages (cfg : ServerConfig) (op : ServerOp) : List Bytes :=
  match request op with
  | none => []
  | some (message, passes) => passes.filterMap (validPreimage cfg message)

/-- No mutable write in the history carries more valid passes than it costs at that moment. -/
def NoSurplus (cfg : ServerConfig) : Server → List ServerOp → Prop
  | _, [] => True
  | s, op :: ops =>
    (∀ a, op = .writev a → ((validPreimages cfg op).length : Int) ≤
      writePrice cfg.pass_value (s.buckets a.storage_index) a.now a.tw_vectors) ∧
    NoSurplus cfg (s.step cfg op) ops

end ZKAP.Spec
