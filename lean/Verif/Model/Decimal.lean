import Verif.Model.Py
import Verif.Model.Timestamp

/-!
Decimal numbers: Python's `str(n)` and `int(s)` for integers.
-/
namespace ZKAP

/-- The digits of a natural number, `str(n)` for `n >= 0`. -/
def decimal (n : Nat) : List Char :=
  if h : n < 10 then [digit n] else decimal (n / 10) ++ [digit (n % 10)]
termination_by n
decreasing_by omega

/-- `str(n)`. -/
def str_int (n : Int) : String :=
  String.ofList (if n < 0 then '-' :: decimal n.natAbs else decimal n.natAbs)

/-- The value of a decimal digit. -/
def digit_value (c : Char) : Option Nat :=
  if 48 ≤ c.toNat ∧ c.toNat ≤ 57 then some (c.toNat - 48) else none

/-- Digits read from the left. -/
def read_digits (acc : Nat) : List Char → Option Nat
  | [] => some acc
  | c :: cs =>
    match digit_value c with
    | none => none
    | some d => read_digits (acc * 10 + d) cs

/-- `int(s)` without a sign. -/
def read_nat : List Char → Option Nat
  | [] => none
  | c :: cs => read_digits 0 (c :: cs)

/-- `int(s)`.  Simplification: Python also ignores white space around the number, allows `_`
between digits and accepts the digits of other scripts; here these are a `ValueError`. -/
def int_str (s : String) : Except PyErr Int :=
  match s.toList with
  | '-' :: cs =>
    match read_nat cs with
    | none => .error .valueError
    | some n => .ok (-(n : Int))
  | '+' :: cs =>
    match read_nat cs with
    | none => .error .valueError
    | some n => .ok n
  | cs =>
    match read_nat cs with
    | none => .error .valueError
    | some n => .ok n

end ZKAP
