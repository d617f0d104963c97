import Verif.Model.Py

/-!
A small relational database: the part of SQLite that schema upgrades (`schema.py`), snapshots
(`replicate.py:366-393`) and recovery (`recover.py:219-322`) use.

The other files model the store's tables as typed records (`Model/Store.lean`), which is enough as
long as the tables are the ones of the current version.  Here tables are data: they can be missing,
lack columns or be dropped.

What SQLite does and this file says:

* `CREATE TABLE` of a table that exists, and any use of a table or column that does not, raise
  `OperationalError`;
* `ALTER TABLE … ADD COLUMN` gives every existing row the default value;
* rows are checked for `NOT NULL` columns and the primary key (`IntegrityError`); several rows may
  have the primary key `NULL` unless the column is an `INTEGER PRIMARY KEY`, where `NULL` means the
  next number;
* the table `sqlite_sequence` appears with the first `AUTOINCREMENT` table, keeps the highest number
  ever given to a row of each such table, and loses the row of a table that is dropped;
* a foreign key needs the table it points to (`OperationalError`); the row is checked at the end of
  the statement, or on commit after `PRAGMA defer_foreign_keys = ON`.

Left out: column types and the conversions they cause, `WITHOUT ROWID`, indexes, triggers, views.
-/
namespace ZKAP

/-- A value stored by SQLite.  Floating point numbers do not occur. -/
inductive Value where
  | null
  | int (n : Int)
  | text (s : String)
  | blob (b : Bytes)
  deriving DecidableEq, Repr

/-- A column definition. -/
structure Column where
  name : String
  notNull : Bool := false
  default : Value := .null
  deriving DecidableEq, Repr

/-- How rows of a table are told apart. -/
inductive Key where
  /-- No primary key. -/
  | none
  /-- `PRIMARY KEY([column])` of a column of another type than `INTEGER`. -/
  | plain (column : String)
  /-- `INTEGER PRIMARY KEY`. -/
  | integer (column : String)
  /-- `INTEGER PRIMARY KEY AUTOINCREMENT`. -/
  | autoincrement (column : String)
  deriving DecidableEq, Repr

/-- The name of the key column. -/
def Key.column : Key → Option String
  | .none => .none
  | .plain c => some c
  | .integer c => some c
  | .autoincrement c => some c

/-- A foreign key: this column refers to that column of that table. -/
structure Foreign where
  column : String
  parent : String
  parentColumn : String
  deriving DecidableEq, Repr

/-- A row of `sqlite_master` for a table. -/
structure TableDef where
  name : String
  columns : List Column
  key : Key := .none
  foreign : List Foreign := []
  deriving DecidableEq, Repr

/-- A row: one value for each column. -/
abbrev Row := List Value

/-- A table with its rows in order of `rowid`. -/
structure Table where
  schema : TableDef
  rows : List Row := []
  deriving DecidableEq, Repr

/-- A database: its tables in the order of `sqlite_master` and the contents of `sqlite_sequence`
if there is such a table. -/
structure Database where
  tables : List Table := []
  sequence : Option (Dict String Int) := none
  deriving DecidableEq, Repr

/-- The table of that name. -/
def Database.find (db : Database) (name : String) : Option Table :=
  db.tables.find? fun t => t.schema.name == name

/-- Replace the table of that name. -/
def Database.modify (db : Database) (name : String) (f : Table → Table) : Database :=
  { db with tables := db.tables.map fun t => if t.schema.name == name then f t else t }

/-- The position of a column. -/
def TableDef.index (d : TableDef) (column : String) : Option Nat :=
  d.columns.findIdx? fun c => c.name == column

/-- The value of a column in a row.  Only used for columns that exist. -/
def TableDef.get (d : TableDef) (row : Row) (column : String) : Value :=
  match d.index column with
  | none => .null
  | some i => row.getD i .null

/-- The values of a column, in order of the rows. -/
def Table.values (t : Table) (column : String) : List Value :=
  t.rows.map fun row => t.schema.get row column

/-- The largest integer among some values; 0 if there is none.  Numbers given to rows are
positive. -/
def maxInt : List Value → Int
  | [] => 0
  | .int n :: vs => max n (maxInt vs)
  | _ :: vs => maxInt vs

/-- The row of a table in `sqlite_sequence`. -/
def Database.sequenceOf (db : Database) (name : String) : Int :=
  ((db.sequence.getD []).lookup name).getD 0

/-- The number SQLite gives to a new row: one more than the largest, and with `AUTOINCREMENT` also
more than any number given before. -/
def Database.nextNumber (db : Database) (t : Table) : Int :=
  match t.schema.key with
  | .integer c => maxInt (t.values c) + 1
  | .autoincrement c => max (maxInt (t.values c)) (db.sequenceOf t.schema.name) + 1
  | _ => 0

/-- The row as it is stored: a `NULL` number is replaced. -/
def Database.numberRow (db : Database) (t : Table) (row : Row) : Row :=
  match t.schema.key with
  | .none => row
  | .plain _ => row
  | .integer c | .autoincrement c =>
    match t.schema.index c with
    | none => row
    | some i => if row.getD i .null = .null then row.set i (.int (db.nextNumber t)) else row

/-- Every `NOT NULL` column has a value. -/
def TableDef.notNullOk (d : TableDef) (row : Row) : Bool :=
  d.columns.all fun c => !c.notNull || d.get row c.name != .null

/-- No row has this row's primary key. -/
def Table.keyFree (t : Table) (row : Row) : Bool :=
  match t.schema.key.column with
  | none => true
  | some c => t.schema.get row c == .null || !(t.values c).contains (t.schema.get row c)

/-- A number is stored in an `INTEGER PRIMARY KEY`.  (SQLite: datatype mismatch.) -/
def TableDef.keyTyped (d : TableDef) (row : Row) : Bool :=
  match d.key with
  | .none => true
  | .plain _ => true
  | .integer c | .autoincrement c =>
    match d.get row c with
    | .int _ => true
    | _ => false

/-- `sqlite_sequence` after a row of an `AUTOINCREMENT` table was stored. -/
def Database.noteNumber (db : Database) (d : TableDef) (row : Row) : Option (Dict String Int) :=
  match d.key with
  | .autoincrement c =>
    match d.get row c with
    | .int n => some ((db.sequence.getD []).set d.name (max n (db.sequenceOf d.name)))
    | _ => db.sequence
  | _ => db.sequence

/-- A foreign key of a row points to a row. -/
def Database.foreignKeyOk (db : Database) (d : TableDef) (row : Row) (f : Foreign) : Bool :=
  d.get row f.column == .null ||
    match db.find f.parent with
    | none => false
    | some p => (p.values f.parentColumn).contains (d.get row f.column)

/-- All foreign keys of all rows point to rows: what is checked on commit. -/
def Database.foreignOk (db : Database) : Bool :=
  db.tables.all fun t => t.rows.all fun row => t.schema.foreign.all (db.foreignKeyOk t.schema row)

/-- Insert a row with a value for every column.  `deferred` says whether foreign keys are only
checked on commit. -/
def Database.insertRow (db : Database) (deferred : Bool) (name : String) (row : Row) :
    Except PyErr Database :=
  match db.find name with
  | none => .error .operationalError
  | some t =>
    if row.length ≠ t.schema.columns.length then .error .operationalError
    else if !(t.schema.foreign.all fun f => (db.find f.parent).isSome) then .error .operationalError
    else
      let row := db.numberRow t row
      if !(t.schema.notNullOk row && t.schema.keyTyped row) then .error .integrityError
      else if !(t.keyFree row) then .error .integrityError
      else
        let db' := { db.modify name (fun t => { t with rows := t.rows ++ [row] }) with
          sequence := db.noteNumber t.schema row }
        if deferred || t.schema.foreign.all (db'.foreignKeyOk t.schema row) then .ok db'
        else .error .integrityError

/-- Some row of another table refers to a row of this table.  (`DROP TABLE` first deletes all rows.) -/
def Database.referred (db : Database) (t : Table) : Bool :=
  db.tables.any fun child => child.schema.name != t.schema.name &&
    child.rows.any fun row => child.schema.foreign.any fun f =>
      f.parent == t.schema.name && child.schema.get row f.column != .null &&
        (t.values f.parentColumn).contains (child.schema.get row f.column)

/-- Insert rows one after the other. -/
def Database.insertRows (db : Database) (deferred : Bool) (name : String) :
    List Row → Except PyErr Database
  | [] => .ok db
  | row :: rows =>
    match db.insertRow deferred name row with
    | .error e => .error e
    | .ok db => db.insertRows deferred name rows

/-- Names that SQLite does not let statements create or drop. -/
def reservedName (name : String) : Bool := "sqlite_".toList.isPrefixOf name.toList

/-- The row of an `INSERT` that names its columns: the others get their default. -/
def TableDef.rowOf (d : TableDef) (named : Dict String Value) : Row :=
  d.columns.map fun c => (named.lookup c.name).getD c.default

/-- `datetime(value, "utc") || "+00:00"`, where `utc` is SQLite's `datetime(·, "utc")`: `none` if the
text is not a time, which makes the result `NULL`. -/
def toUtc (utc : String → Option String) : Value → Value
  | .text s =>
    match utc s with
    | some u => .text (u ++ "+00:00")
    | none => .null
  | _ => .null

/-- Statements. -/
inductive Sql where
  /-- `CREATE TABLE [name] (…)`. -/
  | createTable (d : TableDef)
  /-- `CREATE TABLE IF NOT EXISTS [version] AS SELECT 0 AS [version]`. -/
  | createVersion
  /-- `ALTER TABLE [table] ADD COLUMN …`. -/
  | addColumn (table : String) (c : Column)
  /-- `DROP TABLE [table]`. -/
  | dropTable (table : String)
  /-- `INSERT INTO [table] VALUES (…)`. -/
  | insert (table : String) (row : Row)
  /-- `INSERT INTO [table] (…) VALUES (…)`. -/
  | insertNamed (table : String) (named : Dict String Value)
  /-- `INSERT OR IGNORE INTO [table] (…) VALUES (…)`. -/
  | insertOrIgnore (table : String) (named : Dict String Value)
  /-- `UPDATE [table] SET [column] = ?, … WHERE [column] = ? AND …`. -/
  | update (table : String) (sets wheres : Dict String Value)
  /-- `DELETE FROM [table] WHERE [column] = ? AND …`. -/
  | delete (table : String) (wheres : Dict String Value)
  /-- `UPDATE [version] SET [version] = [version] + 1`. -/
  | incrementVersion
  /-- `INSERT INTO [redemption-groups] ([voucher], [public-key], [spendable]) SELECT
  DISTINCT([number]), [public-key], 1 FROM [vouchers] WHERE [state] = "redeemed"`. -/
  | groupsOfRedeemed
  /-- `UPDATE [table] SET [column] = datetime([column], "utc") || "+00:00"`.  (A `WHERE [column] IS
  NOT NULL` changes nothing: a `NULL` stays `NULL`.) -/
  | toUtc (table column : String)
  /-- `DELETE FROM "sqlite_sequence"`. -/
  | clearSequence
  /-- `INSERT INTO "sqlite_sequence" VALUES (name, number)`. -/
  | insertSequence (name : String) (number : Int)
  /-- `BEGIN TRANSACTION;` in a dump. -/
  | beginTransaction
  /-- `COMMIT;` in a dump. -/
  | commit
  /-- Any text that is not a statement. -/
  | invalid
  deriving DecidableEq, Repr

/-- Increase an integer. -/
def Value.succ : Value → Value
  | .int n => .int (n + 1)
  | v => v

/-- All columns of a `SET` or `WHERE` exist. -/
def TableDef.hasAll (d : TableDef) (cs : Dict String Value) : Bool := cs.all fun c => (d.index c.1).isSome

/-- The row satisfies a `WHERE`.  (`NULL` is not equal to anything.) -/
def TableDef.selects (d : TableDef) (wheres : Dict String Value) (row : Row) : Bool :=
  wheres.all fun c => c.2 != .null && d.get row c.1 == c.2

/-- The row with some columns changed. -/
def TableDef.assign (d : TableDef) (sets : Dict String Value) (row : Row) : Row :=
  sets.foldl (fun row c =>
    match d.index c.1 with
    | none => row
    | some i => row.set i c.2) row

/-- A column that is a key or refers to one. -/
def TableDef.isKey (d : TableDef) (column : String) : Bool :=
  d.key.column == some column || d.foreign.any fun f => f.column == column

/-- The effect of a statement inside a transaction.  `BEGIN` raises there; so does `COMMIT` for
the purposes of this model, since nothing executes it. -/
def Sql.exec (utc : String → Option String) (deferred : Bool) (db : Database) :
    Sql → Except PyErr Database
  | .createTable d =>
    if reservedName d.name || (db.find d.name).isSome then .error .operationalError
    else .ok { db with
      tables := db.tables ++ [{ schema := d }]
      sequence := match d.key with
        | .autoincrement _ => some (db.sequence.getD [])
        | _ => db.sequence }
  | .createVersion =>
    match db.find "version" with
    | some _ => .ok db
    | none => .ok { db with tables := db.tables ++
        [{ schema := { name := "version", columns := [{ name := "version" }] }, rows := [[.int 0]] }] }
  | .addColumn table c =>
    match db.find table with
    | none => .error .operationalError
    | some t =>
      if (t.schema.index c.name).isSome || (c.notNull && c.default == .null) then
        .error .operationalError
      else .ok (db.modify table fun t => { t with
        schema := { t.schema with columns := t.schema.columns ++ [c] }
        rows := t.rows.map (· ++ [c.default]) })
  | .dropTable table =>
    match db.find table with
    | none => .error .operationalError
    | some t =>
      if db.referred t then .error .integrityError
      else .ok {
        tables := db.tables.filter fun t => t.schema.name != table
        sequence := db.sequence.map fun s => s.filter fun e => e.1 != table }
  | .insert table row => db.insertRow deferred table row
  | .insertNamed table named =>
    match db.find table with
    | none => .error .operationalError
    | some t =>
      if !(t.schema.hasAll named) then .error .operationalError
      else db.insertRow deferred table (t.schema.rowOf named)
  | .insertOrIgnore table named =>
    match db.find table with
    | none => .error .operationalError
    | some t =>
      if !(t.schema.hasAll named) then .error .operationalError
      else if !(t.keyFree (t.schema.rowOf named)) then .ok db
      else db.insertRow deferred table (t.schema.rowOf named)
  | .update table sets wheres =>
    -- Updates of key columns do not occur in the code and are not modelled.
    match db.find table with
    | none => .error .operationalError
    | some t =>
      if !(t.schema.hasAll sets && t.schema.hasAll wheres) || sets.any (fun c => t.schema.isKey c.1) then
        .error .operationalError
      else
        let rows := t.rows.map fun row =>
          if t.schema.selects wheres row then t.schema.assign sets row else row
        if rows.all t.schema.notNullOk then .ok (db.modify table fun t => { t with rows := rows })
        else .error .integrityError
  | .delete table wheres =>
    match db.find table with
    | none => .error .operationalError
    | some t =>
      if !(t.schema.hasAll wheres) then .error .operationalError
      else
        let db' := db.modify table fun t => { t with
          rows := t.rows.filter fun row => !(t.schema.selects wheres row) }
        if deferred || db'.foreignOk then .ok db' else .error .integrityError
  | .incrementVersion =>
    match db.find "version" with
    | none => .error .operationalError
    | some t =>
      match t.schema.index "version" with
      | none => .error .operationalError
      | some i => .ok (db.modify "version" fun t => { t with
          rows := t.rows.map fun row => row.modify i Value.succ })
  | .groupsOfRedeemed =>
    match db.find "vouchers", db.find "redemption-groups" with
    | some vouchers, some groups =>
      let redeemed := vouchers.rows.filter fun row =>
        vouchers.schema.get row "state" == .text "redeemed"
      let selected := (redeemed.map fun row =>
        (vouchers.schema.get row "number", vouchers.schema.get row "public-key")).eraseDups
      db.insertRows deferred "redemption-groups" (selected.map fun (number, publicKey) =>
        groups.schema.rowOf [("voucher", number), ("public-key", publicKey), ("spendable", .int 1)])
    | _, _ => .error .operationalError
  | .toUtc table column =>
    match db.find table with
    | none => .error .operationalError
    | some t =>
      match t.schema.index column with
      | none => .error .operationalError
      | some i => .ok (db.modify table fun t => { t with
          rows := t.rows.map fun row => row.modify i (ZKAP.toUtc utc) })
  | .clearSequence =>
    match db.sequence with
    | none => .error .operationalError
    | some _ => .ok { db with sequence := some [] }
  | .insertSequence name number =>
    match db.sequence with
    | none => .error .operationalError
    | some s => .ok { db with sequence := some (s ++ [(name, number)]) }
  | .beginTransaction => .error .operationalError
  | .commit => .error .operationalError
  | .invalid => .error .operationalError

/-- Statements one after the other, up to the first that raises. -/
def Sql.execAll (utc : String → Option String) (deferred : Bool) (db : Database) :
    List Sql → Except PyErr Database
  | [] => .ok db
  | s :: ss =>
    match s.exec utc deferred db with
    | .error e => .error e
    | .ok db => Sql.execAll utc deferred db ss

/-- Statements for which the `sqlite3` module opens a transaction if there is none (`INSERT`,
`UPDATE`, `DELETE`); without a transaction the others take effect at once. -/
def Sql.opensTransaction : Sql → Bool
  | .insert .. | .insertNamed .. | .insertOrIgnore .. | .update .. | .delete ..
  | .incrementVersion | .groupsOfRedeemed | .toUtc .. | .clearSequence | .insertSequence .. => true
  | _ => false

/-- The text starts with `CREATE TABLE`. -/
def Sql.startsWithCreateTable : Sql → Bool
  | .createTable _ | .createVersion => true
  | _ => false

end ZKAP
