import Verif.Model.Py

/-! Base64 as used by the code: Python's `base64` module and `_base64.py`. -/
namespace ZKAP

/-- ASCII text to bytes (`str.encode("ascii")` for literals in the source). -/
def ascii (s : String) : Bytes := s.toList.map (fun c => UInt8.ofNat c.toNat)

/-- The standard base64 alphabet of Python's `base64.b64encode`, by index. -/
def b64char (i : Nat) : UInt8 :=
  if i < 26 then UInt8.ofNat (65 + i)
  else if i < 52 then UInt8.ofNat (71 + i)
  else if i < 62 then UInt8.ofNat (i - 4)
  else if i = 62 then 43 else 47

/-- Inverse table of `b64char` (`table_a2b_base64` of CPython's `binascii`): the value
of a base64 digit or `none`. -/
def b64val (c : UInt8) : Option Nat :=
  if 65 ≤ c.toNat ∧ c.toNat ≤ 90 then some (c.toNat - 65)
  else if 97 ≤ c.toNat ∧ c.toNat ≤ 122 then some (c.toNat - 71)
  else if 48 ≤ c.toNat ∧ c.toNat ≤ 57 then some (c.toNat + 4)
  else if c.toNat = 43 then some 62
  else if c.toNat = 47 then some 63
  else none

/-- Python's `base64.b64encode`. -/
def b64encode : Bytes → Bytes
  | [] => []
  | [a] => [b64char (a.toNat / 4), b64char (a.toNat % 4 * 16), 61, 61]
  | [a, b] => [b64char (a.toNat / 4), b64char (a.toNat % 4 * 16 + b.toNat / 16),
      b64char (b.toNat % 16 * 4), 61]
  | a :: b :: c :: rest =>
    b64char (a.toNat / 4) :: b64char (a.toNat % 4 * 16 + b.toNat / 16) ::
      b64char (b.toNat % 16 * 4 + c.toNat / 64) :: b64char (c.toNat % 64) :: b64encode rest

/-- CPython's `binascii.a2b_base64` (non-strict), as a state machine over the position
in the current quad, the left-over bits and the number of consecutive pad characters.
`none` is `binascii.Error`.  Non-alphabet characters are skipped. -/
def a2b_base64 : Bytes → (quad left pads : Nat) → Option Bytes
  | [], quad, _, _ => if quad = 0 then some [] else none
  | c :: cs, quad, left, pads =>
    if c = 61 then
      if quad ≥ 2 then
        if quad + (pads + 1) ≥ 4 then some [] else a2b_base64 cs quad left (pads + 1)
      else a2b_base64 cs quad left pads
    else
      match b64val c with
      | none => a2b_base64 cs quad left pads
      | some v =>
        if quad = 0 then a2b_base64 cs 1 v 0
        else if quad = 1 then
          (a2b_base64 cs 2 (v % 16) 0).map (UInt8.ofNat (left * 4 + v / 16) :: ·)
        else if quad = 2 then
          (a2b_base64 cs 3 (v % 4) 0).map (UInt8.ofNat (left * 16 + v / 4) :: ·)
        else
          (a2b_base64 cs 0 0 0).map (UInt8.ofNat (left * 64 + v) :: ·)

/-- Python's `base64.b64decode(s)`. -/
def b64decode (s : Bytes) : Option Bytes := a2b_base64 s 0 0 0

/-- `bytes.maketrans(b"-_", b"+/")` applied to a string (`altchars` handling of
`base64.b64decode`). -/
def alt_to_std (s : Bytes) : Bytes :=
  s.map (fun c => if c = 45 then 43 else if c = 95 then 47 else c)

/-- The alphabet translation of `base64.urlsafe_b64encode`. -/
def std_to_alt (s : Bytes) : Bytes :=
  s.map (fun c => if c = 43 then 45 else if c = 47 then 95 else c)

/-- Python's `base64.urlsafe_b64encode`. -/
def urlsafe_b64encode (s : Bytes) : Bytes := std_to_alt (b64encode s)

/-- One character of the class `[A-Za-z0-9-_]`, `_base64.py:23`. -/
def urlsafe_digit (c : UInt8) : Bool :=
  (65 ≤ c.toNat && c.toNat ≤ 90) || (97 ≤ c.toNat && c.toNat ≤ 122) ||
    (48 ≤ c.toNat && c.toNat ≤ 57) || c.toNat == 45 || c.toNat == 95

/-- What may follow the digits in `_base64.py:23`: at most two `=`, then the end or one
final newline (Python's `$` also matches just before a final newline). -/
def b64_tail (s : Bytes) : Bool :=
  s == [] || s == [61] || s == [61, 61] || s == [10] || s == [61, 10] || s == [61, 61, 10]

/-- `_b64decode_validator.match`, `_base64.py:23`: `^[A-Za-z0-9-_]*={0,2}$`.  The digits
and `=` are disjoint so greedy matching needs no backtracking. -/
def b64_validator_match : Bytes → Bool
  | [] => true
  | c :: cs => if urlsafe_digit c then b64_validator_match cs else b64_tail (c :: cs)

/-- `_base64.py:26-32` `urlsafe_b64decode`. -/
def urlsafe_b64decode (s : Bytes) : Except PyErr Bytes :=
  if !b64_validator_match s then .error .valueError
  else match b64decode (alt_to_std s) with
    | some b => .ok b
    | none => .error .valueError

/-- `resource.py:725-744` `is_syntactic_voucher` applied to a text string given as its
list of code points: encoding as ASCII fails for code points of 128 and above. -/
def is_syntactic_voucher (voucher : List Nat) : Bool :=
  if voucher.length ≠ 44 then false
  else if voucher.any (fun c => c ≥ 128) then false
  else match urlsafe_b64decode (voucher.map UInt8.ofNat) with
    | .ok _ => true
    | .error _ => false

/-- `storage_common.py:50-57` `_message_maker`. -/
def make_message (label : Bytes) (storage_index : Bytes) : Bytes :=
  label ++ (32 :: b64encode storage_index)

/-- `storage_common.py:62`. -/
def allocate_buckets_message : Bytes → Bytes := make_message (ascii "allocate_buckets")
/-- `storage_common.py:63`. -/
def add_lease_message : Bytes → Bytes := make_message (ascii "add_lease")
/-- `storage_common.py:64-66`. -/
def slot_testv_and_readv_and_writev_message : Bytes → Bytes :=
  make_message (ascii "slot_testv_and_readv_and_writev")

end ZKAP
