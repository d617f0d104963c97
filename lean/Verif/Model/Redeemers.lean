import Verif.Model.Controller
import Verif.Model.Plugin
import Verif.Model.Decimal
import Verif.Model.Pass

/-!
The redeemers for tests, `controller.py:234-515`: what they answer to the controller and which tokens
they make up.  `redeemer` in the configuration selects one of them (`get_redeemer`,
`Model/Plugin.lean`).

Left out: `IndexedRedeemer` and `RecordingRedeemer` (`controller.py:195-231`, `389-413`), which hand
their arguments to other redeemers, are not in `_REDEEMERS` (`controller.py:1122-1129`), and are
used only by the test suite.
-/
namespace ZKAP

/-- Text of which all characters are below 256, from its bytes (`bytes.decode("ascii")` for what is
ASCII, as base64 is). -/
def text_of (b : Bytes) : String := String.ofList (b.map (fun c => Char.ofNat c.toNat))

/-- The format `{:0>width}` for a natural number: its decimal digits, with zeros in front up to the
width; nothing is cut off when there are more digits. -/
def zero_padded (width n : Nat) : List Char :=
  List.replicate (width - (decimal n).length) '0' ++ decimal n

/-- `"{:0>4}{:0>60}".format(counter, n).encode("ascii")`, `controller.py:427`. -/
def dummy_padding (counter n : Nat) : Bytes :=
  (zero_padded 4 counter ++ zero_padded 60 n).map (fun c => UInt8.ofNat c.toNat)

/-- `controller.py:421-429` `dummy_random_token`, with the validator of `RandomToken`
(`model.py:1060`). -/
def dummy_random_token (v : Bytes) (counter n : Nat) : Except PyErr String :=
  let token_value := b64encode (v ++ dummy_padding counter n)
  match base64_bytes 128 token_value with
  | .error e => .error e
  | .ok () => .ok (text_of token_value)

/-- The first elements of a sequence of results: `list(f(n) for n in range(count))`, which raises the
first exception. -/
def first_results {α} (f : Nat → Except PyErr α) : Nat → Except PyErr (List α)
  | 0 => .ok []
  | n + 1 =>
    match first_results f n with
    | .error e => .error e
    | .ok xs => match f n with
      | .error e => .error e
      | .ok x => .ok (xs ++ [x])

/-- `controller.py:416-431` `dummy_random_tokens`. -/
def dummy_random_tokens (voucher : String) (counter count : Nat) : Except PyErr (List String) :=
  match urlsafe_b64decode (ascii voucher) with
  | .error e => .error e
  | .ok v => first_results (dummy_random_token v counter) count

/-- `controller.py:482-485` `dummy_unblinded_token`, with the validator of `UnblindedToken`
(`model.py:1022`).  `b"x" * k` is empty for negative `k`, as `List.replicate` of the truncated
difference is. -/
def dummy_unblinded_token (random_token : String) : Except PyErr String :=
  match b64decode (ascii random_token) with
  | none => .error .valueError
  | some random_value =>
    let unblinded_value := random_value ++ List.replicate (96 - random_value.length) 120
    match base64_bytes 128 (b64encode unblinded_value) with
    | .error e => .error e
    | .ok () => .ok (text_of (b64encode unblinded_value))

/-- `list(f(token) for token in tokens)`, which raises the first exception. -/
def each_result {α β} (f : α → Except PyErr β) : List α → Except PyErr (List β)
  | [] => .ok []
  | x :: xs =>
    match f x with
    | .error e => .error e
    | .ok y => match each_result f xs with
      | .error e => .error e
      | .ok ys => .ok (y :: ys)

/-- `redeemWithCounter` of the redeemers: `controller.py:482-490` (`DummyRedeemer`), `264-268`
(`NonRedeemer`, which never answers), `307-310` (`ErrorRedeemer`), `348-351`
(`DoubleSpendRedeemer`), `382-385` (`UnpaidRedeemer`).  `ask` is the answer of the issuer, which only
`RistrettoRedeemer` asks (`Model/Ristretto.lean`).  Simplification: the text of the exceptions that
making up tokens can raise is left out. -/
def Redeemer.redeemWithCounter (ask : IssuerAnswer) (random_tokens : List String) :
    Redeemer → Option IssuerAnswer
  | .ristretto _ => some ask
  | .dummy public_key =>
    match each_result dummy_unblinded_token random_tokens with
    | .error _ => some (.failed "")
    | .ok tokens => some (.success public_key tokens)
  | .non => none
  | .error details => some (.failed details)
  | .doubleSpend => some .alreadySpent
  | .unpaid => some .unpaid

/-- `tokens_to_passes` of `DummyRedeemer` for one token, `controller.py:496-509`.  `hexdigest` stands
for `sha256(·).hexdigest().encode("ascii")`. -/
def dummy_token_to_pass (hexdigest : Bytes → Bytes) (token : String) : Except PyErr Pass :=
  let token_digest := hexdigest (ascii token)
  let preimage := ascii "preimage-" ++ token_digest.drop 9
  let signature := ascii "signature-" ++ token_digest.drop 10
  Pass.new (b64encode preimage) (b64encode signature)

/-- `tokens_to_passes` of the redeemers for tests: `controller.py:492-515` (`DummyRedeemer`); the
others raise (`269-275`, `312-318`, `338-341`, `372-375`).  The one of `RistrettoRedeemer` is
`ristretto_signer` (`Model/Plugin.lean`), here an argument. -/
def Redeemer.tokens_to_passes (sign : List String → Except PyErr (List Pass))
    (hexdigest : Bytes → Bytes) (tokens : List String) : Redeemer → Except PyErr (List Pass)
  | .ristretto _ => sign tokens
  | .dummy _ => each_result (dummy_token_to_pass hexdigest) tokens
  | _ => .error (.other 60)

end ZKAP
