import Verif.Model.StoreSql
import Verif.Spec.Schema

/-!
What it means that the tables of a database hold the records of the store.  Rows are listed in the
order of the columns in `Spec/Schema.lean`.
-/
namespace ZKAP.Spec

/-- A text or `NULL`. -/
def optText : Option String → Value
  | none => .null
  | some s => .text s

/-- A number or `NULL`. -/
def optNat : Option Nat → Value
  | none => .null
  | some n => .int n

/-- A row of `[vouchers]`.  `pk` is the value of `[public-key]`, which this version does not use. -/
def voucherValues (pk : Value) (v : VoucherRow) : Row :=
  [.text v.number, .text v.created, .text v.state, optText v.finished, optNat v.token_count, pk,
   .int v.counter, .int v.expected_tokens, .int v.sequestered_count]

/-- A row of `[tokens]`. -/
def tokenValues (r : TokenRow) : Row := [.text r.text, .text r.voucher, .int r.counter]

/-- A row of `[unblinded-tokens]`. -/
def unblindedValues (r : UnblindedRow) : Row := [.text r.token, .int r.group]

/-- A row of `[lease-maintenance-spending]`. -/
def maintValues (r : MaintRow) : Row := [.int r.id, .text r.started, optText r.finished, .int r.count]

/-- A row of `[invalid-unblinded-tokens]`. -/
def invalidValues (r : InvalidRow) : Row := [.text r.token, .text r.reason]

/-- A row of `[redemption-groups]`. -/
def groupValues (g : GroupRow) : Row :=
  [.int g.rowid, .text g.voucher, .int (if g.spendable then 1 else 0), optText g.public_key]

/-- The table of that name has these rows. -/
def HasRows (db : Database) (name : String) (rows : List Row) : Prop :=
  ∀ t ∈ db.tables, t.schema.name = name → t.rows = rows

/-- The database has the tables of the current version, in any order, and they hold these records. -/
structure Holds (db : Database) (a : App) : Prop where
  schema : (db.tables.map (·.schema)).Perm (schemaAt currentVersion)
  vouchers : ∃ pk : String → Value,
    HasRows db "vouchers" (a.vouchers.map fun v => voucherValues (pk v.number) v)
  tokens : HasRows db "tokens" (a.tokens.map tokenValues)
  unblinded : HasRows db "unblinded-tokens" (a.unblinded.map unblindedValues)
  maint : HasRows db "lease-maintenance-spending" (a.maint.map maintValues)
  invalid : HasRows db "invalid-unblinded-tokens" (a.invalid.map invalidValues)
  groups : HasRows db "redemption-groups" (a.groups.map groupValues)

/-- The connection sees these tables. -/
structure SessionHolds (s : Session) (t : Tables) : Prop where
  main : Holds s.main t.app
  temp_schema : s.temp.tables.map (·.schema) = temporary_tables
  in_use : HasRows s.temp "in-use" (t.temp.in_use.map fun x => [.text x])
  to_discard : HasRows s.temp "to-discard" (t.temp.to_discard.map fun x => [.text x])
  to_reset : HasRows s.temp "to-reset" (t.temp.to_reset.map fun x => [.text x])

/-- The answers to the calls of a history. -/
def answers : List StoreOp → Tables → List (Except PyErr Answer)
  | [], _ => []
  | op :: ops, t => (op.step t).1 :: answers ops (op.step t).2

/-- The statement that a record of a change of the tables stands for. -/
def sqlOf : Stmt → StoreSql
  | .insertVoucher number expected created =>
    .insertOrIgnore "vouchers" [("number", .text number), ("expected-tokens", .int expected),
      ("created", .text created)]
  | .insertToken voucher counter text =>
    .insertNamed "tokens" [("voucher", .text voucher), ("counter", .int counter), ("text", .text text)]
  | .insertGroup voucher public_key spendable =>
    .insertNamed "redemption-groups" [("voucher", .text voucher), ("public-key", .text public_key),
      ("spendable", boolValue spendable)]
  | .updateRedeemed state tokens sequestered finished number =>
    .set "vouchers" [("state", .value (.text state)), ("token-count", .coalescePlus tokens),
      ("sequestered-count", .coalescePlus sequestered), ("finished", .value (.text finished)),
      ("counter", .plus 1)] [("number", .text number)]
  | .insertUnblinded token group =>
    .insertNamed "unblinded-tokens" [("token", .text token), ("redemption-group", .int group)]
  | .deleteTokens voucher counter =>
    .delete "tokens" [("voucher", .text voucher), ("counter", .int counter)]
  | .updateDoubleSpent finished number =>
    .set "vouchers" [("state", .value (.text "double-spend")), ("finished", .value (.text finished))]
      [("number", .text number), ("state", .text "pending")]
  | .insertInUse token => .insert "in-use" [.text token]
  | .insertToDiscard token => .insert "to-discard" [.text token]
  | .deleteInUseToDiscard => .deleteIn "in-use" "unblinded-token" (.table "to-discard")
  | .deleteUnblindedToDiscard => .deleteIn "unblinded-tokens" "token" (.table "to-discard")
  | .clearToDiscard => .clear "to-discard"
  | .insertInvalid token reason => .insert "invalid-unblinded-tokens" [.text token, .text reason]
  | .deleteInUseInvalid => .deleteIn "in-use" "unblinded-token" (.select "token" "invalid-unblinded-tokens")
  | .deleteUnblindedInvalid =>
    .deleteIn "unblinded-tokens" "token" (.select "token" "invalid-unblinded-tokens")
  | .insertToReset token => .insert "to-reset" [.text token]
  | .deleteInUseToReset => .deleteIn "in-use" "unblinded-token" (.table "to-reset")
  | .clearToReset => .clear "to-reset"
  | .insertMaint started =>
    .insertNamed "lease-maintenance-spending" [("started", .text started), ("finished", .null),
      ("count", .int 0)]
  | .updateMaintCount count id =>
    .set "lease-maintenance-spending" [("count", .plus count)] [("id", optNat id)]
  | .updateMaintFinished finished id =>
    .set "lease-maintenance-spending" [("finished", .value (.text finished))] [("id", optNat id)]

/-- Random tokens belong to vouchers. -/
def ForeignKeys (a : App) : Prop := ∀ r ∈ a.tokens, r.voucher ∈ a.vouchers.map (·.number)

/-- The objects for the rows, until one cannot be made. -/
def allFromRow {τ} (parse : String → Except PyErr τ) : List VoucherRow → Except PyErr (List (Voucher τ))
  | [] => .ok []
  | v :: vs =>
    match Voucher.from_row parse v with
    | .error e => .error e
    | .ok v =>
      match allFromRow parse vs with
      | .error e => .error e
      | .ok vs => .ok (v :: vs)

/-- The calls of a history are made in one process and all return. -/
def AllReturnSql : List StoreOp → Session → Prop
  | [], _ => True
  | op :: ops, s => (∃ a, (op.sqlProg.run s).2 = .ok a) ∧ op ≠ .restart ∧
      AllReturnSql ops (op.sqlStep s).2

/-- The tokens that `add` asks for are made without touching the database. -/
def makesTokensOutside : StoreOp → Prop
  | .add _ _ _ _ _ tokens => tokens ≠ .error .operationalError
  | _ => True

end ZKAP.Spec
