import Verif.Spec.Server
import Verif.Model.Ristretto
import Verif.Model.Wire

/-! What the properties of `Verif.Props.Slot` talk about. -/
namespace ZKAP.Spec

/-- The pass is one of the issuer with key `k`, for this message: it holds the encoding of a token and of the
signature on the message that only someone who had the token signed with `k` can make. -/
def GenuinePass (L : Ristretto) (k : L.Scalar) (message : Bytes) (p : Pass) : Prop :=
  ∃ token signature, L.preimages.decode p.preimage = some token ∧ L.signatures.decode p.signature = some signature ∧
    L.same (L.sign (L.derive token (L.smul k (L.hash token))) message) signature = true

/-- Among the byte strings sent are this many genuine passes for the message. -/
def HasGenuine (L : Ristretto) (k : L.Scalar) (message : Bytes) (sent : List Bytes) (price : Int) : Prop :=
  ∃ chosen : List Bytes, chosen.Sublist sent ∧
    (∀ b ∈ chosen, ∃ p, Pass.from_bytes b = .ok p ∧ GenuinePass L k message p) ∧ price ≤ chosen.length

/-- The byte that the last of the writes to position `i` puts there. -/
def lastWritten (writes : List (Nat × Bytes)) (i : Nat) : Option UInt8 :=
  writes.reverse.findSome? fun w => if w.1 ≤ i then w.2[i - w.1]? else none

/-- The byte at position `i` after the writes: the last one written there, else what was there before, else zero
before the end of the writes. -/
def byteAfter (old : Bytes) (writes : List (Nat × Bytes)) (i : Nat) : Option UInt8 :=
  match lastWritten writes i, old[i]? with
  | some b, _ => some b
  | none, some b => some b
  | none, none => if i < writtenEnd writes then some 0 else none

/-- The data of a share, empty if there is none. -/
def dataOf (bucket : Bucket) (n : Nat) : Bytes := (bucket.lookup n).elim [] Share.data

/-- All tests of the request hold of the data. -/
def TestsHold (bucket : Bucket) (tw : TWVectors) : Prop :=
  ∀ kv ∈ tw, ∀ t ∈ kv.2.testv, ∀ i : Nat,
    ((dataOf bucket kv.1).drop t.offset |>.take t.length)[i]? = t.specimen[i]?

/-- What the read vectors select from a share: from each offset, as much of the length as there is. -/
def selected (data : Bytes) (reads : List (Nat × Nat)) : List Bytes :=
  reads.map fun r => (data.drop r.1).take r.2

/-- The answer to `stat_shares` for one storage index, as a server sends it. -/
def statAnswer (stats : Dict Nat ShareStat) : Wire :=
  .list [.dict (stats.map fun kv =>
    (.int kv.1, .stat [("size", .int kv.2.size), ("lease_expiration", .int kv.2.lease_expiration)]))]

end ZKAP.Spec
