import Verif.Model.Calls
import Verif.Spec.Wire

/-! What the property of `Verif.Props.Calls` talks about: the calls the protocol has, argument by argument.  `P` is what
is required of numbers besides that they are not too large. -/
namespace ZKAP.Spec

/-- A number of 32 bits, with its sign. -/
def SmallNumber (P : Int → Prop) (w : Wire) : Prop := ∃ n, w.asInt = some n ∧ P n ∧ -2 ^ 31 ≤ n ∧ n < 2 ^ 31

/-- A number of 64 bits, and a sign. -/
def LargeNumber (P : Int → Prop) (w : Wire) : Prop := ∃ n, w.asInt = some n ∧ P n ∧ n.natAbs < 2 ^ 64

def AnyBytes (w : Wire) : Prop := ∃ b, w = .bytes b

def IsIndex (w : Wire) : Prop := ∃ b, w = .bytes b ∧ b.length ≤ 16

def IsSecret (w : Wire) : Prop := ∃ b, w = .bytes b ∧ b.length = 32

/-- At most 2²⁰ passes of 177 bytes. -/
def ArePasses (w : Wire) : Prop := ∃ passes : List Bytes, w = .list (passes.map .bytes) ∧ PassesFit passes

/-- A list of which each element is so. -/
def ListOf (P : Wire → Prop) (w : Wire) : Prop := ∃ l, w = .list l ∧ ∀ x ∈ l, P x

/-- Where to read and how much. -/
def IsRead (P : Int → Prop) (w : Wire) : Prop := ∃ offset size, w = .tuple [offset, size] ∧ LargeNumber P offset ∧ SmallNumber P size

/-- Where to compare, how much, how, and with what. -/
def IsTest (P : Int → Prop) (w : Wire) : Prop := ∃ offset size operator specimen, w = .tuple [offset, size, operator, specimen] ∧
  LargeNumber P offset ∧ SmallNumber P size ∧ AnyBytes operator ∧ AnyBytes specimen

/-- Where to write, and what. -/
def IsWritten (P : Int → Prop) (w : Wire) : Prop := ∃ offset data, w = .tuple [offset, data] ∧ LargeNumber P offset ∧ AnyBytes data

/-- The tests, the writes and the new length of a share. -/
def IsChange (P : Int → Prop) (w : Wire) : Prop := ∃ tests writes length, w = .tuple [tests, writes, length] ∧
  ListOf (IsTest P) tests ∧ ListOf (IsWritten P) writes ∧ (length = .none ∨ LargeNumber P length)

/-- The calls. -/
inductive Called (P : Int → Prop) : String → List Wire → Prop where
  | version : Called P "get_version" []
  | allocate {passes index renew cancel shares size canary} : ArePasses passes → IsIndex index → IsSecret renew →
      IsSecret cancel → (∃ l, shares = .set l ∧ l.length ≤ 256 ∧ ∀ x ∈ l, SmallNumber P x) → LargeNumber P size →
      (∃ n, canary = .ref n) → Called P "allocate_buckets" [passes, index, renew, cancel, shares, size, canary]
  | lease {passes index renew cancel} : ArePasses passes → IsIndex index → IsSecret renew → IsSecret cancel →
      Called P "add_lease" [passes, index, renew, cancel]
  | buckets {index} : IsIndex index → Called P "get_buckets" [index]
  | sizes {index shares} : IsIndex index → Called P "share_sizes" [index, shares]
  | stat {indexes} : ListOf IsIndex indexes → Called P "stat_shares" [indexes]
  | read {index shares reads} : IsIndex index → ListOf (SmallNumber P) shares → ListOf (IsRead P) reads →
      Called P "slot_readv" [index, shares, reads]
  | write {passes index enabler renew cancel changes reads} : ArePasses passes → IsIndex index → IsSecret enabler →
      IsSecret renew → IsSecret cancel → (∃ d, changes = .dict d ∧ ∀ kv ∈ d, SmallNumber P kv.1 ∧ IsChange P kv.2) →
      ListOf (IsRead P) reads →
      Called P "slot_testv_and_readv_and_writev" [passes, index, .tuple [enabler, renew, cancel], changes, reads]
  | corrupt {type index share reason} : AnyBytes type → IsIndex index → SmallNumber P share → AnyBytes reason →
      Called P "advise_corrupt_share" [type, index, share, reason]

end ZKAP.Spec
