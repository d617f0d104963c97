import Verif.Model.Json
import Verif.Model.Pass
import Verif.Model.Controller
import Verif.Model.Server

/-!
The redeemer that speaks to the issuer, `controller.py:550-719`, and the server's check of one
pass, `_storage_server.py:129-157`, on top of the library `challenge_bypass_ristretto`.

The library is not in this repository.  `Ristretto` lists its operations as they are documented
(the Ristretto-flavoured Privacy Pass protocol); nothing is assumed about them here.
-/
namespace ZKAP

/-- Why `redeemWithCounter` raised.  The first four are the exceptions of `controller.py:93-132`;
`decode` is any exception of the library; `py` is an exception of the interpreter. -/
inductive RedeemErr where
  | unexpectedResponse
  | alreadySpent
  | unpaid
  | unrecognizedFailureReason
  | decode
  | attributeError
  | py (e : PyErr)
  deriving DecidableEq, Repr

/-- Serialisation of one of the library's types.  `raw` is the fixed-length binary form,
`encode_base64` its base64 text; `decode` is `decode_base64`, `none` for any exception it raises. -/
structure Codec (α : Type) where
  raw : α → Bytes
  decode : Bytes → Option α

/-- The library's `encode_base64`. -/
def Codec.encode {α} (c : Codec α) (x : α) : Bytes := b64encode (c.raw x)

/-- The operations of `challenge_bypass_ristretto` that the code uses. -/
structure Ristretto where
  Scalar : Type
  Point : Type
  Preimage : Type
  MacKey : Type
  Signature : Type
  Proof : Type
  /-- scalar multiplication -/
  smul : Scalar → Point → Point
  /-- inverse of a scalar -/
  inverse : Scalar → Scalar
  /-- the group's base point -/
  base : Point
  /-- the point a preimage is hashed to -/
  hash : Preimage → Point
  /-- `UnblindedToken.derive_verification_key_sha512` -/
  derive : Preimage → Point → MacKey
  /-- `VerificationKey.sign_sha512` -/
  sign : MacKey → Bytes → Signature
  /-- the comparison of two signatures in `VerificationKey.invalid_sha512` -/
  same : Signature → Signature → Bool
  /-- verification of a batch DLEQ proof for blinded tokens, signed tokens and a public key -/
  proves : Proof → List Point → List Point → Point → Bool
  random_tokens : Codec (Preimage × Scalar)
  points : Codec Point
  unblinded_tokens : Codec (Preimage × Point)
  preimages : Codec Preimage
  signatures : Codec Signature
  proofs : Codec Proof

namespace Ristretto
variable (L : Ristretto)

/-- `RandomToken.blind`. -/
def blind (t : L.Preimage × L.Scalar) : L.Point := L.smul t.2 (L.hash t.1)

/-- `PublicKey` of a `SigningKey`. -/
def public_key (k : L.Scalar) : L.Point := L.smul k L.base

/-- `SigningKey.rederive_unblinded_token`. -/
def rederive (k : L.Scalar) (t : L.Preimage) : L.Preimage × L.Point := (t, L.smul k (L.hash t))

/-- `BatchDLEQProof.invalid_or_unblind`: raises unless the proof verifies and the lists have one
length; otherwise unblinds each signed token with the blind of the random token beside it. -/
def invalid_or_unblind (proof : L.Proof) (tokens : List (L.Preimage × L.Scalar))
    (blinded signed : List L.Point) (pk : L.Point) : Except RedeemErr (List (L.Preimage × L.Point)) :=
  if L.proves proof blinded signed pk && decide (tokens.length = signed.length) then
    .ok (List.zipWith (fun t q => (t.1, L.smul (L.inverse t.2) q)) tokens signed)
  else .error .decode

end Ristretto

/-- `str.encode("ascii")` of a JSON value: only a `str` has `encode`
(`AttributeError`), and every character must be ASCII (`UnicodeEncodeError`, a `ValueError`). -/
def Json.encode_ascii : Json → Except RedeemErr Bytes
  | .str s => if s.toList.all (fun c => decide (c.toNat < 128)) then .ok (ascii s)
      else .error (.py .valueError)
  | _ => .error .attributeError

/-- `bool(j)`. -/
def Json.truthy : Json → Bool
  | .null => false
  | .bool b => b
  | .int n => n != 0
  | .float m _ => m != 0
  | .special _ => true
  | .str s => s != ""
  | .arr items => !items.isEmpty
  | .obj items => !items.isEmpty

/-- `j == s` for a `str` `s`. -/
def Json.isStr (j : Json) (s : String) : Bool :=
  match j with
  | .str t => t == s
  | _ => false

/-- `len(j)` succeeds and `iter(j)` yields these: the items of a list, the characters of a string, the keys
of an object.  Anything else is a `TypeError`. -/
def Json.iter : Json → Except RedeemErr (List Json)
  | .arr items => .ok items
  | .str s => .ok (s.toList.map (fun c => .str (String.ofList [c])))
  | .obj items => .ok (items.map (fun kv => .str kv.1))
  | _ => .error (.py .typeError)

/-- `list(f(x) for x in xs)` where `f` may raise. -/
def try_map {α β ε} (f : α → Except ε β) : List α → Except ε (List β)
  | [] => .ok []
  | x :: xs =>
    match f x with
    | .error e => .error e
    | .ok y =>
      match try_map f xs with
      | .error e => .error e
      | .ok ys => .ok (y :: ys)

/-- `decode_base64` as an exception. -/
def Codec.decode_base64 {α} (c : Codec α) (s : Bytes) : Except RedeemErr α :=
  match c.decode s with
  | some x => .ok x
  | none => .error .decode

/-- `decode_base64(j.encode("ascii"))`. -/
def Codec.decode_json {α} (c : Codec α) (j : Json) : Except RedeemErr α :=
  match j.encode_ascii with
  | .error e => .error e
  | .ok s => c.decode_base64 s

/-- `bytes.decode("ascii")` of base64 text. -/
def text (s : Bytes) : String := String.ofList (s.map (fun b => Char.ofNat b.toNat))

/-- The keys of the JSON object sent to the issuer, `controller.py:626-635`. -/
structure RedeemRequest where
  redeemVoucher : String
  redeemCounter : Nat
  redeemTokens : List String
  deriving DecidableEq, Repr

/-- `controller.py:618-622`: the saved random tokens as the library's. -/
def basic_random_tokens (L : Ristretto) (random_tokens : List Bytes) :
    Except RedeemErr (List (L.Preimage × L.Scalar)) :=
  try_map L.random_tokens.decode_base64 random_tokens

/-- `controller.py:622-637`: the request. -/
def redeem_request (L : Ristretto) (voucher : String) (counter : Nat)
    (tokens : List (L.Preimage × L.Scalar)) : RedeemRequest :=
  ⟨voucher, counter, (tokens.map L.blind).map (fun p => text (L.points.encode p))⟩

/-- `UnblindedToken(token.encode_base64())` with the validator of `model.py:1022`. -/
def new_unblinded_token (L : Ristretto) (t : L.Preimage × L.Point) : Except RedeemErr Bytes :=
  match base64_bytes 128 (L.unblinded_tokens.encode t) with
  | .error e => .error (.py e)
  | .ok () => .ok (L.unblinded_tokens.encode t)

/-- `result[k]`, `controller.py:657-664`, after `result` is known to be a dict. -/
def result_get (result : Dict String Json) (k : String) : Except RedeemErr Json :=
  match result.lookup k with
  | some v => .ok v
  | none => .error (.py .keyError)

/-- `controller.py:655-693`: what is done with a result that claims success.  The order of the
look-ups, of the `len` and of the decodings is that of the source. -/
def redeem_succeeded (L : Ristretto) (tokens : List (L.Preimage × L.Scalar))
    (result : Dict String Json) : Except RedeemErr (String × List Bytes) := do
  let marshaled_public_key ← result_get result "public-key"
  let marshaled_proof ← result_get result "proof"
  let marshaled_signed_tokens ← result_get result "signatures"
  let signed ← marshaled_signed_tokens.iter
  let public_key ← L.points.decode_json marshaled_public_key
  let clients_signed_tokens ← try_map L.points.decode_json signed
  let clients_proof ← L.proofs.decode_json marshaled_proof
  let unblinded ← L.invalid_or_unblind clients_proof tokens (tokens.map L.blind)
    clients_signed_tokens public_key
  let unblinded_tokens ← try_map (new_unblinded_token L) unblinded
  match marshaled_public_key with
  | .str s => .ok (s, unblinded_tokens)
  | _ => .error .attributeError

/-- `controller.py:638-693`: the issuer's answer.  `body` is the parsed response, `none` if
`loads` raised `ValueError`.  The HTTP status is not looked at.  Not modelled: failure of the
HTTP request itself, which raises and ends like the last error below. -/
def redeem_response (L : Ristretto) (tokens : List (L.Preimage × L.Scalar)) (body : Option Json) :
    Except RedeemErr (String × List Bytes) :=
  match body with
  | none => .error .unexpectedResponse
  | some (.obj result) =>
    let success := ((result.lookup "success").getD (.bool false)).truthy
    if success then redeem_succeeded L tokens result
    else
      let reason := (result.lookup "reason").getD .null
      if reason.isStr "double-spend" then .error .alreadySpent
      else if reason.isStr "unpaid" then .error .unpaid
      else .error .unrecognizedFailureReason
  | some _ => .error .attributeError

/-- `controller.py:616-693` `redeemWithCounter`, with the issuer as a function from the request to the
parsed response. -/
def redeemWithCounter (L : Ristretto) (issuer : RedeemRequest → Option Json) (voucher : String)
    (counter : Nat) (random_tokens : List Bytes) : Except RedeemErr (String × List Bytes) :=
  match basic_random_tokens L random_tokens with
  | .error e => .error e
  | .ok tokens => redeem_response L tokens (issuer (redeem_request L voucher counter tokens))

/-- `controller.py:997-1059`: what the controller makes of it (`_redeem_success`,
`_redeem_failure`); the tokens reach the database as text, `model.py:615`.  The message of the
error is not modelled. -/
def to_answer (r : Except RedeemErr (String × List Bytes)) : IssuerAnswer :=
  match r with
  | .ok (pk, toks) => .success pk (toks.map text)
  | .error .alreadySpent => .alreadySpent
  | .error .unpaid => .unpaid
  | .error _ => .failed ""

/-- `controller.py:695-719` `tokens_to_passes`. -/
def tokens_to_passes (L : Ristretto) (message : Bytes) (unblinded_tokens : List Bytes) :
    Except RedeemErr (List Pass) :=
  match try_map L.unblinded_tokens.decode_base64 unblinded_tokens with
  | .error e => .error e
  | .ok basic =>
    let keys := basic.map (fun t => L.derive t.1 t.2)
    let signatures := keys.map (fun k => L.sign k message)
    let preimages := basic.map (fun t => t.1)
    try_map (fun ps : L.Preimage × L.Signature =>
      match Pass.new (L.preimages.encode ps.1) (L.signatures.encode ps.2) with
      | .error e => .error (.py e)
      | .ok p => .ok p) (preimages.zip signatures)

/-- `_storage_server.py:129-157` `_is_invalid_pass`: `True` also for every exception. -/
def _is_invalid_pass (L : Ristretto) (message : Bytes) (pass_ : Pass) (signing_key : L.Scalar) : Bool :=
  match L.preimages.decode pass_.preimage with
  | none => true
  | some preimage =>
    match L.signatures.decode pass_.signature with
    | none => true
    | some proposed =>
      let unblinded := L.rederive signing_key preimage
      let key := L.derive unblinded.1 unblinded.2
      !L.same (L.sign key message) proposed

/-- A storage server whose signing key is `k`, `_storage_server.py:171-184`. -/
def server_with_key (L : Ristretto) (pass_value : Int) (k : L.Scalar) : ServerConfig :=
  ⟨pass_value, fun message p => !_is_invalid_pass L message p k⟩

end ZKAP
