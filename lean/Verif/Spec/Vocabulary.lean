import Verif.Spec.Misc
import Verif.Spec.Plugin
import Verif.Spec.Wire
import Verif.Spec.ShareFile

/-! What the words mean that the statements share with the model. -/
namespace ZKAP.Spec

/-- The JSON values Python takes to be equal to one. -/
inductive EqualsOne : Json → Prop where
  | int : EqualsOne (.int 1)
  | true_ : EqualsOne (.bool true)
  /-- The float `2^k * 2^-k`. -/
  | float (k : Nat) : EqualsOne (.float (2 ^ k) (-k))

/-- The JSON values that are integers to Python. -/
inductive IntegerValue : Json → Int → Prop where
  | int (n : Int) : IntegerValue (.int n) n
  | true_ : IntegerValue (.bool true) 1
  | false_ : IntegerValue (.bool false) 0

/-- A JSON list of integers, none of which is negative. -/
inductive SizesOf : List Json → List Int → Prop where
  | none : SizesOf [] []
  | size {j n js ns} : IntegerValue j n → 0 ≤ n → SizesOf js ns → SizesOf (j :: js) (n :: ns)

/-- The JSON values Python takes to be false. -/
inductive Falsy : Json → Prop where
  | null : Falsy .null
  | false_ : Falsy (.bool false)
  | zero : Falsy (.int 0)
  | float (e : Int) : Falsy (.float 0 e)
  | str : Falsy (.str "")
  | arr : Falsy (.arr [])
  | obj : Falsy (.obj [])

/-- The code points of Unicode white space, as Python's `str.strip` knows it. -/
def whiteSpace : List Nat :=
  [0x9, 0xa, 0xb, 0xc, 0xd, 0x1c, 0x1d, 0x1e, 0x1f, 0x20, 0x85, 0xa0, 0x1680, 0x2000, 0x2001, 0x2002, 0x2003,
    0x2004, 0x2005, 0x2006, 0x2007, 0x2008, 0x2009, 0x200a, 0x2028, 0x2029, 0x202f, 0x205f, 0x3000]

/-- The integers that come over the network. -/
inductive WireInteger : Wire → Int → Prop where
  | int (n : Int) : WireInteger (.int n) n
  | true_ : WireInteger (.bool true) 1
  | false_ : WireInteger (.bool false) 0

end ZKAP.Spec
