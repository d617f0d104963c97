import Verif.Model.Json
import Verif.Model.Base64
import Verif.Model.Controller

/-! The HTTP resources for vouchers and for lease maintenance, `resource.py:616-762`, on top of the
payment controller.  Rendering of the objects as JSON is in `Model/VoucherJson.lean`. -/
namespace ZKAP

/-- A continuation byte of UTF-8. -/
def utf8_cont (b : UInt8) : Bool := 128 ≤ b.toNat && b.toNat ≤ 191

/-- Python's `bytes.decode("utf-8")` (strict): the code points, or `none` for
`UnicodeDecodeError`.  Overlong forms, surrogates and values above U+10FFFF are errors. -/
def utf8_decode : Bytes → Option (List Nat)
  | [] => some []
  | a :: rest =>
    if a.toNat < 128 then (utf8_decode rest).map (a.toNat :: ·)
    else
      match rest with
      | [] => none
      | b :: rest2 =>
        if 194 ≤ a.toNat && a.toNat ≤ 223 then
          if utf8_cont b then
            (utf8_decode rest2).map (((a.toNat - 192) * 64 + (b.toNat - 128)) :: ·)
          else none
        else
          match rest2 with
          | [] => none
          | c :: rest3 =>
            if 224 ≤ a.toNat && a.toNat ≤ 239 then
              if utf8_cont b && utf8_cont c && (a.toNat != 224 || 160 ≤ b.toNat)
                  && (a.toNat != 237 || b.toNat ≤ 159) then
                (utf8_decode rest3).map
                  (((a.toNat - 224) * 4096 + (b.toNat - 128) * 64 + (c.toNat - 128)) :: ·)
              else none
            else
              match rest3 with
              | [] => none
              | d :: rest4 =>
                if 240 ≤ a.toNat && a.toNat ≤ 244 && utf8_cont b && utf8_cont c && utf8_cont d
                    && (a.toNat != 240 || 144 ≤ b.toNat) && (a.toNat != 244 || b.toNat ≤ 143) then
                  (utf8_decode rest4).map (((a.toNat - 240) * 262144 + (b.toNat - 128) * 4096
                    + (c.toNat - 128) * 64 + (d.toNat - 128)) :: ·)
                else none

/-- A text from its code points. -/
def of_points (cs : List Nat) : String := String.ofList (cs.map Char.ofNat)

/-- The code points of a text.  Simplification: a text is a list of Unicode scalar values, so
lone surrogates, which JSON escapes can make, are left out; they are not ASCII and are refused. -/
def points_of (s : String) : List Nat := s.toList.map Char.toNat

/-- The answer to **PUT** on the collection. -/
inductive PutAnswer where
  | accepted
  | badRequest
  deriving DecidableEq, Repr

/-- `resource.py:660-687`: the voucher in the body, if the request is accepted.  `body` is
the parsed request body, `none` if `loads` raised. -/
def submitted (body : Option Json) : Option String :=
  match body with
  | some (.obj items) =>
    if items.map Prod.fst = ["voucher"] then
      match items.lookup "voucher" with
      | some (.str voucher) => if is_syntactic_voucher (points_of voucher) then some voucher else none
      | _ => none
    else none
  | _ => none

/-- `resource.py:660-693` `render_PUT`.  `Deferred.fromCoroutine` runs `redeem` until it first
waits, which is at the latest after it has sent the request for one group: three pieces of work.
What `redeem` raises ends up in the `Deferred`, which nobody looks at; the answer is the same. -/
def render_PUT (cfg : RedeemCfg) (env : Env) (body : Option Json) (c : Controller) :
    PutAnswer × Controller :=
  match submitted body with
  | none => (.badRequest, c)
  | some voucher =>
    (.accepted, c.run cfg [.redeem voucher none, .work env, .work env, .work env])

/-- `resource.py:695-704` `render_GET` of the collection: the vouchers listed. -/
def render_GET (c : Controller) : Except PyErr (List (Voucher String)) :=
  match (transact store_list c.store).1 with
  | .error e => .error e
  | .ok rows =>
    match rows.mapM (Voucher.from_row sameText) with
    | .error e => .error e
    | .ok vouchers => .ok (vouchers.map (incorporate_transient_state c))

/-- The answer to **GET** of a child.  `serverError` is an exception in `getChild`, which the web
server answers with status 500. -/
inductive ChildAnswer where
  | badRequest
  | notFound
  | view (v : Voucher String)
  | serverError
  deriving DecidableEq, Repr

/-- `resource.py:706-714` `getChild`, and the rendering of what it returns. -/
def getChild (c : Controller) (segment : Bytes) : ChildAnswer :=
  match utf8_decode segment with
  | none => .serverError
  | some voucher_str =>
    if is_syntactic_voucher voucher_str then
      match get_object (of_points voucher_str) c.store with
      | .error .keyError => .notFound
      | .error _ => .serverError
      | .ok voucher_obj => .view (incorporate_transient_state c voucher_obj)
    else .badRequest

end ZKAP
