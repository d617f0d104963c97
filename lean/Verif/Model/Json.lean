import Verif.Model.Py

/-! JSON values as Python's `json` module represents them. -/
namespace ZKAP

/-- `_types.py` `JSON`.  A finite float is `mantissa * 2 ^ exponent`; `special` is `NaN` and the
infinities, which `json.loads` accepts. -/
inductive Json where
  | null
  | bool (b : Bool)
  | int (n : Int)
  | float (mantissa exponent : Int)
  | special (code : Nat)
  | str (s : String)
  | arr (items : List Json)
  | obj (items : List (String × Json))

/-- `d[k]` where `d` may be any JSON value: only objects have string keys. -/
def Json.get (j : Json) (k : String) : Except PyErr Json :=
  match j with
  | .obj items =>
    match items.lookup k with
    | some v => .ok v
    | none => .error .keyError
  | _ => .error .typeError

/-- `j == 1` in Python: the integer, the float and `True`. -/
def Json.isOne : Json → Bool
  | .int n => n == 1
  | .bool b => b
  | .float m e => if 0 ≤ e then m * 2 ^ e.toNat == 1 else m == 2 ^ (-e).toNat
  | _ => false

/-- The value of `j` if `isinstance(j, int)`: integers and booleans. -/
def Json.asInt : Json → Option Int
  | .int n => some n
  | .bool b => some (if b then 1 else 0)
  | _ => none

end ZKAP
