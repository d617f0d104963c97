import Verif.Spec.StorageClient

/-! What the properties of `Verif.Props.PassReuse` talk about. -/
namespace ZKAP.Spec

/-- What a server can recognise a pass by: the preimages, the first 88 bytes of the passes in a remote call. -/
def preimages (r : StorageRequest) : List Bytes := (passesIn r).map (·.take 88)

/-- The tokens the issuer issues in a history. -/
def IssuedIn (events : List SessionEvent) (x : String) : Prop := ∃ op, .other op ∈ events ∧ Issues x op

/-- Passes made of these tokens have the same preimage exactly if they are made of the same token. -/
def Recognisable (sign : Signer) (tokens : String → Prop) : Prop :=
  ∀ m x p m' y q, tokens x → tokens y → MadeFor sign m x p → MadeFor sign m' y q →
    (p.pass_bytes.take 88 = q.pass_bytes.take 88 ↔ x = y)

/-- The remote call has a pass made of the token. -/
def Shows (sign : Signer) (r : StorageRequest) (x : String) : Prop :=
  ∃ m p, MadeFor sign m x p ∧ p.pass_bytes.take 88 ∈ preimages r

/-- The issuer does not issue a token again that this client has found invalid or sent to a server. -/
def NeverReissued (sign : Signer) (v : Int) : StorageSession → List SessionEvent → Prop
  | _, [] => True
  | s, e :: es =>
    (∀ op, e = .other op → ∀ x, Issues x op →
      x ∉ invalidTokens s.store ∧ ∀ op' r, .sent op' r ∈ s.log → ¬ Shows sign r x) ∧
      NeverReissued sign v (s.step sign v e) es

/-- The upload got fewer buckets than it asked for. -/
def FewerBuckets (op : StorageOp) (result : OpResult) : Prop :=
  ∃ si renew cancel sharenums size canary got buckets n,
    op = .allocateBuckets si renew cancel sharenums size canary ∧ result = .allocated got buckets ∧
    py_len buckets = .ok n ∧ n < sharenums.length

/-- Something happened after which the client takes the tokens of an operation for unused although they were sent: the
operation failed, it was an upload that got fewer buckets than it asked for, or the client was restarted. -/
def GivenBack (op : StorageOp) (between : List Out) : Prop :=
  (∃ e, .raised op e ∈ between) ∨ (∃ result, .returned op result ∈ between ∧ FewerBuckets op result) ∨
  .restarted ∈ between

/-- The server refused some of the passes of the operation. -/
def Refused (op : StorageOp) (between : List Out) : Prop :=
  ∃ failed now, .got op (.morePassesRequired failed) now ∈ between ∧ failed ≠ []

end ZKAP.Spec
