import Verif.Model.Base64

/-! Passes and the validators of token values: `model.py`, `validators.py`, `foolscap.py`. -/
namespace ZKAP

/-- `bytes.split(sep)` for a one-byte separator. -/
def bytes_split (sep : UInt8) : Bytes → List Bytes
  | [] => [[]]
  | c :: cs =>
    if c = sep then [] :: bytes_split sep cs
    else match bytes_split sep cs with
      | [] => [[c]]
      | h :: t => (c :: h) :: t

/-- `validators.py:153-171` `base64_bytes(length)`: the test
`if not is_base64_encoded(urlsafe_b64decode)` applies `not` to a function object, which
is never falsy, so the only check left is that of the length. -/
def base64_bytes (length : Nat) (value : Bytes) : Except PyErr Unit :=
  if value.length ≠ length then .error .valueError else .ok ()

/-- `model.py:1025-1033` `Pass`. -/
structure Pass where
  preimage : Bytes
  signature : Bytes
  deriving DecidableEq, Repr

/-- `Pass(preimage, signature)` with the attrs validators of `model.py:1032-1033`. -/
def Pass.new (preimage signature : Bytes) : Except PyErr Pass :=
  match base64_bytes 88 preimage with
  | .error e => .error e
  | .ok () => match base64_bytes 88 signature with
    | .error e => .error e
    | .ok () => .ok ⟨preimage, signature⟩

/-- `model.py:1035-1046` `Pass.pass_bytes`. -/
def Pass.pass_bytes (self : Pass) : Bytes := self.preimage ++ (32 :: self.signature)

/-- `model.py:1048-1050` `Pass.from_bytes`: a wrong number of parts is a `TypeError`
from calling the two-argument constructor. -/
def Pass.from_bytes (pass_ : Bytes) : Except PyErr Pass :=
  match bytes_split 32 pass_ with
  | [a, b] => Pass.new a b
  | _ => .error .typeError

/-- `foolscap.py:83`. -/
def _PASS_LENGTH : Nat := 177
/-- `foolscap.py:78`. -/
def _MAXIMUM_PASSES_PER_CALL : Nat := 2 ^ 20

end ZKAP
