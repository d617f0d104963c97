import Verif.Model.LeaseSecrets

/-! Who has a lease on what. -/
namespace ZKAP.Spec

/-- The share `n` at `si` has a lease with this secret until `e`. -/
def LeaseUntil (s : Server) (si : SI) (n : Nat) (secret : Secret) (e : Int) : Prop :=
  ∃ share, (s.buckets si).lookup n = some share ∧ ⟨secret, e⟩ ∈ share.leases

/-- No share has two leases with one secret. -/
def OneLeaseEach (s : Server) : Prop :=
  ∀ si, ∀ kv ∈ s.buckets si, (kv.2.leases.map (·.renew_secret)).Nodup

/-- The share `n` at `si` is being uploaded. -/
def BeingUploaded (s : Server) (si : SI) (n : Nat) : Prop :=
  ∃ w ∈ s.writers, w.si = si ∧ w.sharenum = n

/-- Different inputs give different hashes. -/
structure CollisionFree (h : LeaseHashes) : Prop where
  file : ∀ {c c' si si'}, h.file_renewal_secret_hash c si = h.file_renewal_secret_hash c' si' → c = c' ∧ si = si'
  bucket : ∀ {f f' l l'}, h.bucket_renewal_secret_hash f l = h.bucket_renewal_secret_hash f' l' → f = f' ∧ l = l'

end ZKAP.Spec
