import Verif.Spec.Conversation

/-! What the property of `Verif.Props.BadTokens` talks about. -/
namespace ZKAP.Spec

/-- Some of the tokens the client can spend are good and some are not: from each of them a pass can be made, and the
server accepts the passes of the good ones. -/
structure MixedTokens (sign : Signer) (cfg : ServerConfig) (t : Tables) (good : String → Prop) : Prop where
  works : Signs sign
  made : ∀ message tokens passes, sign message tokens = .ok passes → ∀ x p, (x, p) ∈ tokens.zip passes →
    Available t x → Pass.from_bytes p.pass_bytes = .ok p ∧ (cfg.verifies message p = true ↔ good x)

/-- There are this many good tokens the client can spend. -/
def AffordsGood (t : Tables) (good : String → Prop) (n : Int) : Prop :=
  ∃ tokens : List String, tokens.Nodup ∧ (∀ x ∈ tokens, Available t x ∧ good x) ∧ n ≤ tokens.length

/-- There are at most this many others. -/
def BadAtMost (t : Tables) (good : String → Prop) (n : Nat) : Prop :=
  ∀ tokens : List String, tokens.Nodup → (∀ x ∈ tokens, Available t x ∧ ¬ good x) → tokens.length ≤ n

/-- The client and the server after further turns. -/
def Customer.outcome (c : Customer) (later : List Moment) : Talk :=
  converse c.sign c.cfg c.cfg.pass_value c.op c.get_rref c.order c.client c.server (c.first :: c.second :: later)

/-- What is at the storage index is the same, and has the same leases, at each of these moments. -/
structure Steady (c : Customer) (later : List Moment) : Prop where
  shares : ∀ k, (c.asked.run c.cfg (((c.second :: later).take k).flatMap (·.others))).buckets (indexOf c.op) = c.bucket
  leases : IsWrite c.op → ∀ m ∈ c.second :: later, ∀ kv ∈ c.bucket,
    (Leased kv.2 c.first.client_now ↔ Leased kv.2 m.server_now)

/-- The operation can be paid for with good tokens, if there is a turn for each of the bad ones. -/
structure CanPayWithGood (c : Customer) (good : String → Prop) (later : List Moment) : Prop where
  value : 0 < c.cfg.pass_value
  reissue : NoReissueIn c.sign c.cfg.pass_value {} c.history
  right : RightServer c.get_rref
  paid : ¬ Free c.op
  proper : Proper c.op
  tokens : MixedTokens c.sign c.cfg c.client.store good
  affords : costOf c.cfg.pass_value c.bucket c.first.client_now c.op ≤ 2 ^ 20 ∧
    AffordsGood c.client.store good (costOf c.cfg.pass_value c.bucket c.first.client_now c.op)
  bad : BadAtMost c.client.store good later.length
  time : 0 ≤ c.first.client_now
  tellable : Tellable c.bucket
  willing : ∀ m ∈ c.first :: c.second :: later, Willing c.bucket m.room c.op
  steady : Steady c later

/-- The operation was carried out for good tokens, and the bad ones that were tried have been set aside. -/
structure CarriedOutWithGood (c : Customer) (good : String → Prop) (later : List Moment) : Prop where
  returned : ∃ r, (c.outcome later).client.log.getLast? = some (.returned c.op r)
  paid : ∃ (records : List Bytes) (rejected : List String),
    (c.outcome later).server.spent = (c.outcome later).before.spent ++ records ∧
    (records.length : Int) = (match c.op with
      | .allocateBuckets _ _ _ _ size _ => total c.cfg.pass_value (List.replicate
          ((c.outcome later).server.writers.length - (c.outcome later).before.writers.length) (size : Int))
      | op => costOf c.cfg.pass_value c.bucket c.first.client_now op) ∧
    rejected.Nodup ∧ (∀ x ∈ rejected, Available c.client.store x ∧ ¬ good x) ∧
    (c.outcome later).client.store.app.invalid =
      c.client.store.app.invalid ++ rejected.map (fun x => ⟨x, "signature check failed"⟩) ∧
    (storedTokens c.client.store).length =
      (storedTokens (c.outcome later).client.store).length + records.length + rejected.length

end ZKAP.Spec
