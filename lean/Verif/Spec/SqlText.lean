import Verif.Model.SqlText
import Verif.Spec.Recovery

/-! Vocabulary for the text of snapshots. -/
namespace ZKAP.Spec
open ZKAP

/-- A value as SQLite stores it: numbers have 64 bits. -/
def StoredValue : Value → Prop
  | .int n => -(2 ^ 63) ≤ n ∧ n < 2 ^ 63
  | _ => True

/-- Text without the character NUL. -/
def NoNul (s : String) : Prop := ∀ c ∈ s.toList, c.toNat ≠ 0

/-- No text in the value contains NUL. -/
def ValueNoNul : Value → Prop
  | .text s => NoNul s
  | _ => True

/-- Every value in the database is one SQLite can store, and every table has columns. -/
structure StoredDatabase (db : Database) : Prop where
  values : ∀ t ∈ db.tables, ∀ row ∈ t.rows, ∀ v ∈ row, StoredValue v
  numbers : ∀ s, db.sequence = some s → ∀ e ∈ s, StoredValue (.int e.2)
  columns : ∀ t ∈ db.tables, t.schema.columns ≠ []

/-- No text in the database contains NUL. -/
structure DatabaseNoNul (db : Database) : Prop where
  values : ∀ t ∈ db.tables, ∀ row ∈ t.rows, ∀ v ∈ row, ValueNoNul v
  numbers : ∀ s, db.sequence = some s → ∀ e ∈ s, NoNul e.1

/-- The definitions of the tables are kept as `CREATE TABLE` statements that SQLite understands. -/
def KeepsDefinitions (ddl : DdlText) (db : Database) : Prop :=
  ∀ t ∈ db.tables, (∃ rest, ddl.write t.schema = "CREATE TABLE".toList ++ rest) ∧
    ddl.read (ddl.write t.schema) = some t.schema

/-- The texts are short enough for SQLite, and there are fewer than 2^64. -/
def FitsFile (ddl : DdlText) (dump : List Sql) : Prop :=
  dump.length < 2 ^ 64 ∧ ∀ s ∈ dump, (write_sql ddl s).length ≤ 1000000000

end ZKAP.Spec
