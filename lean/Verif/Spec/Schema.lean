import Verif.Model.Schema
import Verif.Model.VoucherJson
import Verif.Spec.Timestamp

/-!
What a database of each schema version looks like.  `schema.py` describes the versions only by the
statements that lead from one to the next; here each version is described by its tables and columns,
with the version that introduced them.
-/
namespace ZKAP.Spec

/-- A table, its columns, and since when they exist. -/
structure TableHistory where
  since : Nat
  name : String
  key : Key := .none
  foreign : List Foreign := []
  columns : List (Nat × Column)

/-- All tables in the order of their creation. -/
def history : List TableHistory := [
  { since := 0, name := "version", columns := [(0, { name := "version" })] },
  { since := 1, name := "vouchers", key := .plain "number", columns := [
      (1, { name := "number" }), (1, { name := "created" }),
      (1, { name := "state", default := .text "pending" }), (1, { name := "finished" }),
      (1, { name := "token-count" }), (2, { name := "public-key" }),
      (3, { name := "counter", default := .int 0 }),
      (4, { name := "expected-tokens", notNull := true, default := .int 32768 }),
      (6, { name := "sequestered-count", notNull := true, default := .int 0 })] },
  { since := 1, name := "tokens", key := .plain "text",
    foreign := [{ column := "voucher", parent := "vouchers", parentColumn := "number" }],
    columns := [(1, { name := "text" }), (1, { name := "voucher" }),
      (4, { name := "counter", notNull := true, default := .int 0 })] },
  { since := 1, name := "unblinded-tokens", key := .plain "token", columns := [
      (1, { name := "token" }), (6, { name := "redemption-group", default := .int 1 })] },
  { since := 1, name := "lease-maintenance-spending", key := .integer "id", columns := [
      (1, { name := "id" }), (1, { name := "started" }), (1, { name := "finished" }),
      (1, { name := "count" })] },
  { since := 5, name := "invalid-unblinded-tokens", key := .plain "token", columns := [
      (5, { name := "token" }), (5, { name := "reason" })] },
  { since := 6, name := "redemption-groups", key := .integer "rowid", columns := [
      (6, { name := "rowid" }), (6, { name := "voucher" }), (6, { name := "spendable" }),
      (6, { name := "public-key" })] },
  { since := 7, name := "event-stream", key := .autoincrement "sequence-number", columns := [
      (7, { name := "sequence-number" }), (7, { name := "statement" }), (7, { name := "important" }),
      (9, { name := "serialized_arguments", default := .blob [0x80] })] }]

/-- The version this software works with. -/
def currentVersion : Nat := 9

/-- The tables of a version. -/
def schemaAt (v : Nat) : List TableDef :=
  (history.filter fun h => h.since ≤ v).map fun h =>
    { name := h.name
      columns := (h.columns.filter fun c => c.1 ≤ v).map Prod.snd
      key := h.key
      foreign := h.foreign }

/-- A database of version `v`: it has the tables of that version, every row has a value for each
column, and the version is recorded. -/
structure OfVersion (v : Nat) (db : Database) : Prop where
  tables : db.tables.map (·.schema) = schemaAt v
  rows : ∀ t ∈ db.tables, ∀ row ∈ t.rows, row.length = t.schema.columns.length
  version : ∀ t ∈ db.tables, t.schema.name = "version" → t.rows = [[.int v]]

/-- The values of a column of a table, one for each row; `none` if there is no such column. -/
def columnValues (db : Database) (table column : String) : Option (List Value) :=
  match db.tables.find? fun t => t.schema.name == table with
  | none => none
  | some t =>
    match t.schema.columns.findIdx? fun c => c.name == column with
    | none => none
    | some i => some (t.rows.map fun row => row.getD i .null)

/-- The columns that hold times and are converted by the upgrade to version 8. -/
def convertedTimes : List (String × String) :=
  [("vouchers", "created"), ("lease-maintenance-spending", "started"),
   ("lease-maintenance-spending", "finished")]

/-- The database has this unblinded token. -/
def HasToken (db : Database) (token : String) : Prop :=
  ∃ vs, columnValues db "unblinded-tokens" "token" = some vs ∧ .text token ∈ vs

/-- The token can be spent by software that knows redemption groups: its group exists and is
spendable (the query of `model.py:699-711`). -/
def Spendable (db : Database) (token : String) : Prop :=
  ∃ tokens ∈ db.tables, ∃ groups ∈ db.tables, ∃ row ∈ tokens.rows, ∃ group ∈ groups.rows,
    tokens.schema.name = "unblinded-tokens" ∧ groups.schema.name = "redemption-groups" ∧
    tokens.schema.get row "token" = .text token ∧
    tokens.schema.get row "redemption-group" = groups.schema.get group "rowid" ∧
    groups.schema.get group "spendable" = .int 1

/-- Some voucher is marked as redeemed. -/
def SomeRedeemed (db : Database) : Prop :=
  ∃ vs, columnValues db "vouchers" "state" = some vs ∧ .text "redeemed" ∈ vs

/-- A time without time zone, as versions up to 7 wrote it. -/
def LocalTime (s : String) : Prop := ∃ t, Valid t ∧ isoformat t = s ++ "+00:00"

/-- SQLite's `datetime(·, "utc")` turns a time without time zone into another one. -/
def ConvertsTimes (utc : String → Option String) : Prop :=
  ∀ s, LocalTime s → ∃ u, utc s = some u ∧ LocalTime u

/-- The database has this row in the table of vouchers. -/
def HasVoucherRow (db : Database) (r : VoucherRow) : Prop :=
  ∃ t ∈ db.tables, t.schema.name = "vouchers" ∧ ∃ row ∈ t.rows, voucher_row t.schema row = some r

/-- A row that software of versions up to 7 can read: times have no time zone, and a voucher in a
final state has its time and count. -/
def ReadableLocal (r : VoucherRow) : Prop :=
  LocalTime r.created ∧
    (r.state = "pending" ∨
     (r.state = "double-spend" ∧ ∃ f, r.finished = some f ∧ LocalTime f) ∨
     (r.state = "redeemed" ∧ ∃ f n, r.finished = some f ∧ LocalTime f ∧ r.token_count = some n))

/-- A row that this software can read. -/
def Readable (r : VoucherRow) : Prop := ∃ v, Voucher.from_row (parse_datetime ' ') r = .ok v

end ZKAP.Spec
