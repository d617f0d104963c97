import Verif.Model.Database
import Verif.Model.Connection
import Verif.Model.Voucher

/-!
The schema and its upgrades (`schema.py`) and the opening of the database (`model.py:133-209`).
-/
namespace ZKAP

/-- `schema.py:76-128`, the first version of `[vouchers]`. -/
def vouchers_v1 : TableDef where
  name := "vouchers"
  columns := [{ name := "number" }, { name := "created" },
    { name := "state", default := .text "pending" }, { name := "finished" }, { name := "token-count" }]
  key := .plain "number"

/-- `schema.py:94-102`, the first version of `[tokens]`. -/
def tokens_v1 : TableDef where
  name := "tokens"
  columns := [{ name := "text" }, { name := "voucher" }]
  key := .plain "text"
  foreign := [⟨"voucher", "vouchers", "number"⟩]

/-- `schema.py:103-109`, the first version of `[unblinded-tokens]`. -/
def unblinded_tokens_v1 : TableDef where
  name := "unblinded-tokens"
  columns := [{ name := "token" }]
  key := .plain "token"

/-- `schema.py:110-127` `[lease-maintenance-spending]`. -/
def lease_maintenance_spending_v1 : TableDef where
  name := "lease-maintenance-spending"
  columns := [{ name := "id" }, { name := "started" }, { name := "finished" }, { name := "count" }]
  key := .integer "id"

/-- `schema.py:161-168` `[invalid-unblinded-tokens]`. -/
def invalid_unblinded_tokens_v5 : TableDef where
  name := "invalid-unblinded-tokens"
  columns := [{ name := "token" }, { name := "reason" }]
  key := .plain "token"

/-- `schema.py:171-189` `[redemption-groups]`. -/
def redemption_groups_v6 : TableDef where
  name := "redemption-groups"
  columns := [{ name := "rowid" }, { name := "voucher" }, { name := "spendable" },
    { name := "public-key" }]
  key := .integer "rowid"

/-- `schema.py:216-234` `[event-stream]`. -/
def event_stream_v7 : TableDef where
  name := "event-stream"
  columns := [{ name := "sequence-number" }, { name := "statement" }, { name := "important" }]
  key := .autoincrement "sequence-number"

/-- `schema.py:75-274` `_UPGRADES`. -/
def upgrades : Dict Int (List Sql) := [
  (0, [.createTable vouchers_v1, .createTable tokens_v1, .createTable unblinded_tokens_v1,
    .createTable lease_maintenance_spending_v1]),
  (1, [.addColumn "vouchers" { name := "public-key" }]),
  (2, [.addColumn "vouchers" { name := "counter", default := .int 0 }]),
  (3, [.addColumn "tokens" { name := "counter", notNull := true, default := .int 0 },
    .addColumn "vouchers" { name := "expected-tokens", notNull := true, default := .int 32768 }]),
  (4, [.createTable invalid_unblinded_tokens_v5]),
  (5, [.createTable redemption_groups_v6,
    .groupsOfRedeemed,
    .addColumn "vouchers" { name := "sequestered-count", notNull := true, default := .int 0 },
    .addColumn "unblinded-tokens" { name := "redemption-group", default := .int 1 }]),
  (6, [.createTable event_stream_v7]),
  (7, [.toUtc "vouchers" "created", .toUtc "lease-maintenance-spending" "started",
    .toUtc "lease-maintenance-spending" "finished"]),
  (8, [.addColumn "event-stream" { name := "serialized_arguments", default := .blob [0x80] }])]

/-- The loop of `get_schema_upgrades`, at most `n` times. -/
def upgrades_loop (table : Dict Int (List Sql)) : Nat → Int → List Sql
  | 0, _ => []
  | n + 1, from_version =>
    match table.lookup from_version with
    | none => []
    | some statements =>
      statements ++ .incrementVersion :: upgrades_loop table n (from_version + 1)

/-- `schema.py:39-53` `get_schema_upgrades`.  The table is a parameter so that software of earlier
versions can be talked about.  The loop ends after at most as many rounds as the table has keys. -/
def get_schema_upgrades (table : Dict Int (List Sql)) (from_version : Int) : List Sql :=
  upgrades_loop table table.length from_version

/-- The part of `schema.py:20-36` `get_schema_version` that follows the `CREATE TABLE`.  A value that
is not an integer would be returned as it is and be in no version table; here it raises. -/
def read_schema_version (db : Database) : Except PyErr Int :=
  match db.find "version" with
  | none => .error .operationalError
  | some t =>
    match t.schema.index "version" with
    | none => .error .operationalError
    | some _ =>
      match t.values "version" with
      | [.int v] => .ok v
      | _ => .error .valueError

/-- Execute statements one after the other on a connection until one raises. -/
def Conn.executeAll (utc : String → Option String) (c : Conn Database) :
    List Sql → Conn Database × Except PyErr Unit
  | [] => (c, .ok ())
  | s :: ss =>
    match c.execute s.opensTransaction (fun deferred db => s.exec utc deferred db) with
    | (c, .error e) => (c, .error e)
    | (c, .ok ()) => c.executeAll utc ss

/-- `schema.py:20-66` together: the body of the `with conn` in `model.py:154-167`.  The creation of
the temporary tables is left out: they are not in the file. -/
def upgrade_body (utc : String → Option String) (table : Dict Int (List Sql)) (c : Conn Database) :
    Conn Database × Except PyErr Unit :=
  match c.executeAll utc [.createVersion] with
  | (c, .error e) => (c, .error e)
  | (c, .ok ()) =>
    match read_schema_version c.current with
    | .error e => (c, .error e)
    | .ok actual_version => c.executeAll utc (get_schema_upgrades table actual_version)

/-- `model.py:145-209` `initialize_database` on a new connection to a database: what the file holds
afterwards, or what was raised. -/
def initialize_database (utc : String → Option String) (table : Dict Int (List Sql)) (db : Database) :
    Database × Except PyErr Unit :=
  let (c, r) := upgrade_body utc table { committed := db }
  let (c, r) := c.exit Database.foreignOk r
  (c.committed, r)

/-- The process dies after `n` statements of `initialize_database` (not counting the one that makes
the version table): what the file holds. -/
def crash_while_initializing (utc : String → Option String) (table : Dict Int (List Sql))
    (n : Nat) (db : Database) : Database :=
  match ({ committed := db } : Conn Database).executeAll utc [.createVersion] with
  | (c, .error _) => c.rollback.crash
  | (c, .ok ()) =>
    match read_schema_version c.current with
    | .error _ => c.rollback.crash
    | .ok actual_version =>
      (c.executeAll utc ((get_schema_upgrades table actual_version).take n)).1.crash

/-- A value of a text column. -/
def Value.asText : Value → Option String
  | .text s => some s
  | _ => none

/-- A count. -/
def Value.asNat : Value → Option Nat
  | .int n => some n.toNat
  | _ => none

/-- A row of the `SELECT` in `model.py:398-407` (`get`) and `model.py:506-515` (`list`).  `none` if a
value has not the type that the code relies on. -/
def voucher_row (d : TableDef) (row : Row) : Option VoucherRow := do
  let number ← (d.get row "number").asText
  let created ← (d.get row "created").asText
  let state ← (d.get row "state").asText
  let counter ← (d.get row "counter").asNat
  let expected_tokens ← (d.get row "expected-tokens").asNat
  let sequestered_count ← (d.get row "sequestered-count").asNat
  return { number, created, state, counter, expected_tokens, sequestered_count,
           finished := (d.get row "finished").asText, token_count := (d.get row "token-count").asNat }

end ZKAP
