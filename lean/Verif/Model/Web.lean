import Verif.Model.Json
import Verif.Model.Pricing

/-! The HTTP API: authorization (`private.py`) and the price endpoint (`resource.py`). -/
namespace ZKAP

/-! ### Authorization -/

/-- `bytes.split(b" ", 1)`: the part before the first space and, if there is one, the rest. -/
def split_first_space : Bytes → Bytes × Option Bytes
  | [] => ([], none)
  | b :: bs =>
    if b = 32 then ([], some bs)
    else
      let (first, rest) := split_first_space bs
      (b :: first, rest)

/-- `bytes.lower()`. -/
def lower (bs : Bytes) : Bytes := bs.map (fun b => if 65 ≤ b ∧ b ≤ 90 then b + 32 else b)

/-- `private.py:37` `SCHEME`: `b"tahoe-lafs"`. -/
def SCHEME : Bytes := [116, 97, 104, 111, 101, 45, 108, 97, 102, 115]

/-- What a request with the given `Authorization` header is answered with. -/
inductive Access where
  | granted
  | unauthorized
  deriving DecidableEq, Repr

/-- `private.py:50-57` `Token.equals`. -/
def token_equals (proposed valid : Bytes) : Bool := valid == proposed

/-- `private.py:61-72` `TokenChecker.requestAvatarId`. -/
def request_avatar_id (required proposed : Bytes) : Access :=
  if token_equals proposed required then .granted else .unauthorized

/-- `private.py:104-132` `create_private_tree`: Twisted's `HTTPAuthSessionWrapper` with the one
credential factory of `private.py:75-87`.  The wrapper splits the header at spaces, compares
the lower-cased first word with the scheme, and joins the remaining words with spaces; a
missing or empty header is an anonymous login, which no checker of the portal handles. -/
def private_tree (auth_token : Bytes) (header : Option Bytes) : Access :=
  match header with
  | none => .unauthorized
  | some [] => .unauthorized
  | some h =>
    let (scheme, rest) := split_first_space h
    if lower scheme = SCHEME then request_avatar_id auth_token (rest.getD []) else .unauthorized

/-! ### The price endpoint -/

/-- The answer of `_CalculatePrice.render_POST`. -/
inductive PriceResponse where
  | badRequest
  | price (price period : Int)
  deriving DecidableEq, Repr

/-- `isinstance(size, int) and size >= 0` for every element; the values if so. -/
def natural_sizes : List Json → Option (List Int)
  | [] => some []
  | j :: js =>
    match j.asInt with
    | none => none
    | some n =>
      if 0 ≤ n then
        match natural_sizes js with
        | none => none
        | some ns => some (n :: ns)
      else none

/-- `resource.py:512-576` `render_POST`.  `body` is the result of `loads`, `none` if it raised
`ValueError`; JSON objects keep the last of several items with one key. -/
def calculate_price (calculate : List Int → Int) (lease_period : Int) (content_type : Option String)
    (body : Option Json) : PriceResponse :=
  if content_type ≠ some "application/json" then .badRequest
  else
    match body with
    | none => .badRequest
    | some (.obj items) =>
      match items.lookup "version", items.lookup "sizes" with
      | some version, some sizes =>
        if version.isOne then
          match sizes with
          | .arr js =>
            match natural_sizes js with
            | some ns => .price (calculate ns) lease_period
            | none => .badRequest
          | _ => .badRequest
        else .badRequest
      | _, _ => .badRequest
    | some _ => .badRequest

end ZKAP
