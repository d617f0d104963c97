import Verif.Model.Ristretto
import Verif.Spec.Server

/-! What is relied on of the library `challenge_bypass_ristretto`, and an issuer that follows the
protocol.  These are hypotheses of the theorems, not axioms; `Props/Ristretto.lean` exhibits a
small group that has all of them. -/
namespace ZKAP.Spec

/-- Encoding then decoding gives the value back. -/
def RoundTrips {α} (c : Codec α) : Prop := ∀ x, c.decode (c.encode x) = some x

/-- What the library promises about its own values: encodings round-trip and have their documented
sizes, unblinding undoes blinding and commutes with signing, a signature equals itself. -/
structure Lawful (L : Ristretto) : Prop where
  random_tokens : RoundTrips L.random_tokens
  points : RoundTrips L.points
  unblinded_tokens : RoundTrips L.unblinded_tokens
  preimages : RoundTrips L.preimages
  signatures : RoundTrips L.signatures
  proofs : RoundTrips L.proofs
  unblinded_size : ∀ t, (L.unblinded_tokens.raw t).length = 96
  preimage_size : ∀ t, (L.preimages.raw t).length = 64
  signature_size : ∀ s, (L.signatures.raw s).length = 64
  unblinds : ∀ r k P, L.smul (L.inverse r) (L.smul k (L.smul r P)) = L.smul k P
  same_refl : ∀ s, L.same s s = true

/-- Soundness of the proof: if it verifies for a public key, the tokens were signed with the key
the public key belongs to. -/
def Sound (L : Ristretto) : Prop :=
  ∀ proof blinded signed pk, L.proves proof blinded signed pk = true →
    ∀ k, L.public_key k = pk → signed = blinded.map (L.smul k)

/-- Completeness of the proof: what `prove` makes verifies. -/
def Complete (L : Ristretto) (prove : L.Scalar → List L.Point → L.Proof) : Prop :=
  ∀ k blinded, L.proves (prove k blinded) blinded (blinded.map (L.smul k)) (L.public_key k) = true

/-- Any point can be blinded to look like any other: the points a token can be blinded to do not
depend on its preimage. -/
def Blinds (L : Ristretto) : Prop := ∀ t Q, ∃ r, L.smul r (L.hash t) = Q

/-- Read the points of a request. -/
def readPoints (L : Ristretto) : List String → Option (List L.Point)
  | [] => some []
  | s :: ss =>
    match L.points.decode (ascii s), readPoints L ss with
    | some p, some ps => some (p :: ps)
    | _, _ => none

/-- An issuer with signing key `k` that follows the protocol for a paid, unspent voucher. -/
def honestIssuer (L : Ristretto) (prove : L.Scalar → List L.Point → L.Proof) (k : L.Scalar)
    (request : RedeemRequest) : Option Json :=
  match readPoints L request.redeemTokens with
  | none => none
  | some ps => some (.obj [
      ("success", .bool true),
      ("public-key", .str (text (L.points.encode (L.public_key k)))),
      ("signatures", .arr (ps.map (fun p => .str (text (L.points.encode (L.smul k p)))))),
      ("proof", .str (text (L.proofs.encode (prove k ps))))])

/-- The response is an object that does not claim success and gives this reason. -/
def RefusedWith (body : Option Json) (reason : String) : Prop :=
  ∃ result, body = some (.obj result) ∧
    (∀ v, result.lookup "success" = some v → v.truthy = false) ∧
    result.lookup "reason" = some (.str reason)

end ZKAP.Spec
