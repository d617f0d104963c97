import Verif.Model.Store
import Verif.Spec.Pricing

/-!
Specification vocabulary for the voucher store.  It refers to the tables and to the
calls of the model's interface, not to its functions.
-/
namespace ZKAP.Spec

/-- The token is stored, in a redemption group with the given flag. -/
def StoredIn (a : App) (spendable : Bool) (x : String) : Prop :=
  ∃ r ∈ a.unblinded, r.token = x ∧ ∃ g ∈ a.groups, g.rowid = r.group ∧ g.spendable = spendable

/-- The token can be obtained from the store: stored, spendable and not in use. -/
def Available (t : Tables) (x : String) : Prop :=
  StoredIn t.app true x ∧ x ∉ t.temp.in_use

/-- The call stores the token. -/
def Issues (x : String) : StoreOp → Prop
  | .insert _ _ _ ts _ _ => x ∈ ts
  | _ => False

/-- The call stores the token as spendable. -/
def IssuesSpendable (x : String) : StoreOp → Prop
  | .insert _ _ _ ts _ s => x ∈ ts ∧ s = true
  | _ => False

/-- The call gives the token back to the store unspent. -/
def GivesBack (x : String) : StoreOp → Prop
  | .reset ts => x ∈ ts
  | .restart => True
  | _ => False

/-- Where a token is. -/
inductive Status where
  | available | inUse | sequestered | invalid | discarded
  deriving DecidableEq, Repr

/-- The book a careful accountant keeps about every token. -/
abbrev Ledger := String → Option Status

/-- The accountant's entry for one call, given the call and its outcome.  Failed calls are
not entered. -/
def Ledger.enter (l : Ledger) (op : StoreOp) (outcome : Except PyErr Answer) : Ledger :=
  match op, outcome with
  | .insert _ _ _ ts _ spendable, .ok _ => fun x =>
      if x ∈ ts then some (if spendable then .available else .sequestered) else l x
  | .getTokens _ _, .ok (.tokens ts) => fun x => if x ∈ ts then some .inUse else l x
  | .discard ts, .ok _ => fun x =>
      if x ∈ ts then
        match l x with
        | none => none
        | some .invalid => some .invalid
        | some _ => some .discarded
      else l x
  | .invalidate _ ts, .ok _ => fun x => if x ∈ ts then some .invalid else l x
  | .reset ts, .ok _ => fun x =>
      if x ∈ ts ∧ l x = some .inUse then some .available else l x
  | .restart, _ => fun x => if l x = some .inUse then some .available else l x
  | _, _ => l

/-- The tables and the book after a history. -/
def keepBook : List StoreOp → Tables → Ledger → Tables × Ledger
  | [], t, l => (t, l)
  | op :: ops, t, l => keepBook ops (op.step t).2 (l.enter op (op.step t).1)

/-- The issuer never issues a token that was issued or declared invalid before. -/
def FreshIssues : List StoreOp → Tables → Ledger → Prop
  | [], _, _ => True
  | op :: ops, t, l =>
    (∀ x, Issues x op → l x = none) ∧ FreshIssues ops (op.step t).2 (l.enter op (op.step t).1)

end ZKAP.Spec

namespace ZKAP.Spec

/-- Exactly `n` tokens have the property. -/
def CountIs (P : String → Prop) (n : Nat) : Prop :=
  ∃ l : List String, l.Nodup ∧ (∀ x, x ∈ l ↔ P x) ∧ l.length = n

/-- The record of a voucher. -/
def voucherRow (t : Tables) (v : String) : Option VoucherRow :=
  t.app.vouchers.find? (fun r => decide (r.number = v))

end ZKAP.Spec

namespace ZKAP.Spec

/-- What a call adds to the price of the maintenance run with number `k`: the price of the
observed shares, if the call is an observation by that run. -/
def observed (k : Nat) : StoreOp → Int
  | .maintObserve pass_value sizes m => if m.rowid = some k then total pass_value sizes else 0
  | _ => 0

/-- The time of the last of these calls that finishes run `k`. -/
def finishTime (k : Nat) : List StoreOp → Option String
  | [] => none
  | op :: ops =>
    match finishTime k ops with
    | some f => some f
    | none =>
      match op with
      | .maintFinish now m => if m.rowid = some k then some now else none
      | _ => none

/-- Pass values are positive. -/
def PositivePassValue : StoreOp → Prop
  | .maintObserve pass_value _ _ => 0 < pass_value
  | _ => True

end ZKAP.Spec
