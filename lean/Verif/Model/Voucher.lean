import Verif.Model.Store

/-!
Voucher objects: `model.py:1063-1369` without the JSON form (see `Model/VoucherJson.lean`).
The type of date/time values is a parameter, so that code which only passes them
on can be modelled without reading them.
-/
namespace ZKAP

/-- The state classes `Pending`, `Redeeming`, `Redeemed`, `DoubleSpend`, `Unpaid` and `Error`,
`model.py:1063-1205`. -/
inductive VoucherState (τ : Type) where
  | pending (counter : Nat)
  | redeeming (started : τ) (counter : Nat)
  | redeemed (finished : τ) (token_count : Nat)
  | doubleSpend (finished : τ)
  | unpaid (finished : τ)
  | error (finished : τ) (details : String)
  deriving DecidableEq, Repr

/-- `should_start_redemption` of the six classes, `model.py:1074,1098,1126,1144,1167,1191`. -/
def VoucherState.should_start_redemption {τ} : VoucherState τ → Bool
  | .pending _ => true
  | .redeeming _ _ => false
  | .redeemed _ _ => false
  | .doubleSpend _ => false
  | .unpaid _ => true
  | .error _ _ => true

/-- `start_at_counter` of the six classes, `model.py:1077,1101,1129,1147,1170,1194`. -/
def VoucherState.start_at_counter {τ} : VoucherState τ → Except PyErr Nat
  | .pending counter => .ok counter
  | .redeeming _ _ => .error .valueError
  | .redeemed _ _ => .error .valueError
  | .doubleSpend _ => .error .valueError
  | .unpaid _ => .ok 0
  | .error _ _ => .error .valueError

/-- `model.py:1219-1254` `Voucher`. -/
structure Voucher (τ : Type) where
  number : String
  expected_tokens : Nat
  created : Option τ := none
  state : VoucherState τ := .pending 0
  deriving DecidableEq, Repr

/-- `model.py:1258-1277` `state_from_row`.  `parse` is `parse_datetime(_, delimiter=" ")`
together with the check of the attribute that the result has a time zone. -/
def state_from_row {τ} (parse : String → Except PyErr τ) (r : VoucherRow) :
    Except PyErr (VoucherState τ) :=
  if r.state == "pending" then .ok (.pending r.counter)
  else if r.state == "double-spend" then
    match r.finished with
    | none => .error .assertionError
    | some f =>
      match parse f with
      | .error e => .error e
      | .ok d => .ok (.doubleSpend d)
  else if r.state == "redeemed" then
    match r.token_count with
    | none => .error .assertionError
    | some n =>
      match r.finished with
      | none => .error .typeError
      | some f =>
        match parse f with
        | .error e => .error e
        | .ok d => .ok (.redeemed d n)
  else .error .valueError

/-- `model.py:1256-1293` `Voucher.from_row`.  The check that the number is 44 base64
characters is left out: numbers get into the table only from objects that passed it. -/
def Voucher.from_row {τ} (parse : String → Except PyErr τ) (r : VoucherRow) :
    Except PyErr (Voucher τ) :=
  match parse r.created with
  | .error e => .error e
  | .ok created =>
    match state_from_row parse r with
    | .error e => .error e
    | .ok state =>
      .ok { number := r.number, expected_tokens := r.expected_tokens, created := some created,
            state := state }

end ZKAP
