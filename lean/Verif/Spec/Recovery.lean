import Verif.Model.Recovery
import Verif.Spec.Schema

/-!
What SQLite guarantees of a database, and what it means that two databases have the same contents.
-/
namespace ZKAP.Spec

/-- The rows of a table satisfy its definition. -/
structure TableOk (t : Table) : Prop where
  rows : ∀ row ∈ t.rows, row.length = t.schema.columns.length
  notNull : ∀ row ∈ t.rows, ∀ c ∈ t.schema.columns, c.notNull = true → t.schema.get row c.name ≠ .null
  /-- Rows have different primary keys, except `NULL`. -/
  key : ∀ c, t.schema.key.column = some c →
    t.rows.Pairwise fun r s => t.schema.get s c = .null ∨ t.schema.get r c ≠ t.schema.get s c
  /-- An `INTEGER PRIMARY KEY` is a number. -/
  number : ∀ c, t.schema.key = .integer c ∨ t.schema.key = .autoincrement c →
    ∀ row ∈ t.rows, ∃ n, t.schema.get row c = .int n

/-- A database as SQLite keeps it. -/
structure WellFormed (db : Database) : Prop where
  names : (db.tables.map (·.schema.name)).Nodup
  unreserved : ∀ t ∈ db.tables, reservedName t.schema.name = false
  tables : ∀ t ∈ db.tables, TableOk t
  /-- Foreign keys point to primary keys of existing tables. -/
  parents : ∀ t ∈ db.tables, ∀ f ∈ t.schema.foreign, ∃ p ∈ db.tables, p.schema.name = f.parent ∧
    p.schema.key.column = some f.parentColumn
  foreign : ∀ t ∈ db.tables, ∀ row ∈ t.rows, ∀ f ∈ t.schema.foreign,
    t.schema.get row f.column = .null ∨ ∃ p ∈ db.tables, p.schema.name = f.parent ∧
      ∃ r ∈ p.rows, p.schema.get r f.parentColumn = t.schema.get row f.column
  /-- `sqlite_sequence` belongs to an `AUTOINCREMENT` table … -/
  sequence : ∀ s, db.sequence = some s → ∃ t ∈ db.tables, ∃ c, t.schema.key = .autoincrement c
  /-- … and has a number for each such table with rows, not below that of any row. -/
  numbers : ∀ t ∈ db.tables, ∀ c, t.schema.key = .autoincrement c → ∃ s, db.sequence = some s ∧
    ∀ row ∈ t.rows, ∀ n, t.schema.get row c = .int n → ∃ m, s.lookup t.schema.name = some m ∧ n ≤ m

/-- All tables of the database can be dropped, in any order: no row refers to another. -/
structure Droppable (db : Database) : Prop where
  names : (db.tables.map (·.schema.name)).Nodup
  rows : ∀ t ∈ db.tables, ∀ row ∈ t.rows, ∀ f ∈ t.schema.foreign, t.schema.get row f.column = .null

/-- The statements are a dump of the database, with its tables in some order. -/
def IsDump (db : Database) (statements : List Sql) : Prop :=
  ∃ before after, (before ++ after).Perm db.tables ∧ statements = iterdump before db.sequence after

/-- The databases have the same tables, with the same rows in the same order, and the same numbers in
`sqlite_sequence`. -/
structure SameContents (src db : Database) : Prop where
  tables : db.tables.Perm src.tables
  find : ∀ name, db.tables.find? (fun t => t.schema.name == name) =
    src.tables.find? (fun t => t.schema.name == name)
  sequence : src.sequence.isSome → db.sequence = src.sequence

/-- The store has no vouchers. -/
def NoVouchers (db : Database) : Prop :=
  ∀ t ∈ db.tables, t.schema.name = "vouchers" → t.rows = []

/-- The statements that methods of the store execute. -/
def storeStatement : Sql → Bool
  | .insert .. | .insertNamed .. | .insertOrIgnore .. | .update .. | .delete .. => true
  | _ => false

/-- The numbers of the vouchers in the database. -/
def voucherNumbers (db : Database) : List Value :=
  match db.find "vouchers" with
  | none => []
  | some t => t.values "number"

/-- A statement of the store that removes no voucher. -/
def keepsVouchers : Sql → Bool
  | .insert .. | .insertNamed .. | .insertOrIgnore .. => true
  | .update table sets _ => table != "vouchers" || sets.all fun c => c.1 != "number"
  | .delete table _ => table != "vouchers"
  | _ => false

/-- The calls among some steps remove no vouchers. -/
def CallsKeepVouchers (steps : List RecoveryStep) : Prop :=
  ∀ statements, .call statements ∈ steps → ∀ s ∈ statements, keepsVouchers s = true

/-- No method of the store returns while a recovery waits for its download. -/
def NoCallSucceedsWhileWaiting (utc : String → Option String) (n : RecoveringNode) :
    List RecoveryStep → Prop
  | [] => True
  | s :: ss =>
    (n.waiting = true → ∀ statements, s = .call statements → (n.step utc s).2 ≠ .ok ()) ∧
      NoCallSucceedsWhileWaiting utc (n.step utc s).1 ss

/-- A node that was just started with this database. -/
def startedNode (db : Database) : RecoveringNode := { conn := { committed := db } }

/-- The stages that a downloader reports. -/
def downloadStage (s : RecoveryStages) : Prop := s = .inspect_replica ∨ s = .downloading

/-- The stages that end a recovery. -/
def finalStage (s : RecoveryStages) : Prop :=
  s = .succeeded ∨ s = .download_failed ∨ s = .import_failed

/-- What is reported about a recovery: nothing yet; that it is refused; or that it was started, how
the download goes on, and how it ended. -/
def DocumentedReports (l : List RecoveryStages) : Prop :=
  l = [] ∨ l = [.import_failed] ∨
    ∃ ds, (∀ s ∈ ds, downloadStage s) ∧
      (l = .started :: ds ∨ ∃ f, finalStage f ∧ l = .started :: ds ++ [f])

/-- A replica that consists of this snapshot. -/
def snapshotOnly (statements : List Sql) : ReplicaData := ⟨.ok (statements.map some), []⟩

end ZKAP.Spec
