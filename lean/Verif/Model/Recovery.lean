import Verif.Model.Schema

/-!
Snapshots (`replicate.py:556-580`) and recovery from a replica (`recover.py`, `model.py:216-263`,
`model.py:369-389`, `resource.py:347-433`) on a connection, with the open transaction that recovery
holds while it downloads.

Statements are `Sql` values instead of text: `iterdump` writes every value as a literal that SQLite
reads back as the same value (`Model/SqlText.lean`, C145).  CBOR is left out: a file that cannot be read is an exception.

The connection is the wrapper of `replicate.py:391-485` with replication switched off, as it is on a
node that is being recovered: then the second transaction in its `__exit__` does nothing.
-/
namespace ZKAP

/-! ### Snapshots -/

/-- What `iterdump` writes for one table: the statement that made it and an `INSERT` for each row. -/
def dump_table (t : Table) : List Sql :=
  .createTable t.schema :: t.rows.map fun row => .insert t.schema.name row

/-- What `iterdump` writes for `sqlite_sequence`. -/
def dump_sequence : Option (Dict String Int) → List Sql
  | none => []
  | some s => .clearSequence :: s.map fun e => .insertSequence e.1 e.2

/-- `sqlite3.Connection.iterdump`: some tables, `sqlite_sequence`, other tables.  Which tables come
where depends on the version of Python (by name; `sqlite_sequence` at its place or last) and is left
open. -/
def iterdump (before : List Table) (sequence : Option (Dict String Int)) (after : List Table) : List Sql :=
  .beginTransaction :: before.flatMap dump_table ++ dump_sequence sequence ++
    after.flatMap dump_table ++ [.commit]

/-! ### Importing a replica -/

/-- A replica as it was downloaded.  A snapshot or an event stream that cannot be decoded is the
exception it raises.  A statement of a snapshot that is not text is `none`. -/
structure ReplicaData where
  snapshot : Except PyErr (List (Option Sql))
  streams : List (Except PyErr (List (Int × Sql)))

/-- `cursor.execute`. -/
def Conn.sql (utc : String → Option String) (c : Conn Database) (s : Sql) :
    Conn Database × Except PyErr Unit :=
  c.execute s.opensTransaction fun deferred db => s.exec utc deferred db

/-- `recover.py:311-318`: the first pass over the statements of a snapshot, with
`recover.py:211-216` `_str_statements`.  Returns the statements for the second pass. -/
def Conn.create_tables (utc : String → Option String) (c : Conn Database) :
    List (Option Sql) → Conn Database × Except PyErr (List Sql)
  | [] => (c, .ok [])
  | none :: _ => (c, .error .valueError)
  | some s :: ss =>
    if s.startsWithCreateTable then
      match c.sql utc s with
      | (c, .error e) => (c, .error e)
      | (c, .ok ()) => c.create_tables utc ss
    else
      match c.create_tables utc ss with
      | (c, .error e) => (c, .error e)
      | (c, .ok dml) =>
        if s = .beginTransaction ∨ s = .commit then (c, .ok dml) else (c, .ok (s :: dml))

/-- `recover.py:266-322` `recover_snapshot`. -/
def Conn.recover_snapshot (utc : String → Option String) (c : Conn Database)
    (statements : List (Option Sql)) : Conn Database × Except PyErr Unit :=
  match c.executeAll utc (c.current.tables.map fun t => .dropTable t.schema.name) with
  | (c, .error e) => (c, .error e)
  | (c, .ok ()) =>
    match c.defer.create_tables utc statements with
    | (c, .error e) => (c, .error e)
    | (c, .ok dml) => c.executeAll utc dml

/-- `recover.py:246-254` `load_event_streams`, all of them. -/
def load_event_streams : List (Except PyErr (List (Int × Sql))) → Except PyErr (List (List (Int × Sql)))
  | [] => .ok []
  | .error e :: _ => .error e
  | .ok s :: ss =>
    match load_event_streams ss with
    | .error e => .error e
    | .ok ss => .ok (s :: ss)

/-- The largest sequence number of an event stream that is not empty. -/
def stream_key (changes : List (Int × Sql)) : Int :=
  match changes with
  | [] => 0
  | c :: cs => cs.foldl (fun n c => max n c.1) c.1

/-- Insertion into a sorted list, after equal keys. -/
def insert_by_key (s : List (Int × Sql)) : List (List (Int × Sql)) → List (List (Int × Sql))
  | [] => [s]
  | t :: ts => if stream_key s < stream_key t then s :: t :: ts else t :: insert_by_key s ts

/-- `recover.py:231-243` `sorted_event_streams`. -/
def sort_event_streams (streams : List (List (Int × Sql))) : List (List (Int × Sql)) :=
  (streams.filter fun s => !s.isEmpty).foldl (fun acc s => insert_by_key s acc) []

/-- The statements of `recover.py:257-263` `recover_event_stream`. -/
def event_statements (changes : List (Int × Sql)) : List Sql :=
  (changes.map Prod.snd).filter fun s => !(s == .beginTransaction || s == .commit)

/-- `recover.py:219-228` `recover`. -/
def Conn.recover (utc : String → Option String) (c : Conn Database) (r : ReplicaData) :
    Conn Database × Except PyErr Unit :=
  match r.snapshot with
  | .error e => (c, .error e)
  | .ok statements =>
    match c.recover_snapshot utc statements with
    | (c, .error e) => (c, .error e)
    | (c, .ok ()) =>
      match load_event_streams r.streams with
      | .error e => (c, .error e)
      | .ok streams =>
        c.executeAll utc ((sort_event_streams streams).flatMap event_statements)

/-! ### Transactions of store calls -/

/-- `model.py:240-263` `with_cursor`; the function is given by its effect on the connection. -/
def Conn.with_cursor {δ α} (valid : δ → Bool) (c : Conn δ) (f : Conn δ → Conn δ × Except PyErr α) :
    Conn δ × Except PyErr α :=
  match c.begin with
  | .error e => c.exit valid (.error e)
  | .ok c =>
    match f c with
    | (c, r) => c.exit valid r

/-- A method of the store that executes these statements, with the values they have in this call. -/
def Conn.call (utc : String → Option String) (c : Conn Database) (statements : List Sql) :
    Conn Database × Except PyErr Unit :=
  c.with_cursor Database.foreignOk fun c => c.executeAll utc statements

/-! ### The recovery process -/

/-- `recover.py:36-61` `RecoveryStages`. -/
inductive RecoveryStages where
  | inactive | started | inspect_replica | downloading | importing | succeeded | download_failed
  | import_failed
  deriving DecidableEq, Repr

/-- The first part of `model.py:217-237` `with_cursor_async` and `model.py:369-389` `call_if_empty`:
up to the call of the function, which happens inside the transaction.  A row that cannot be read
raises another exception than `NotEmpty`. -/
def Conn.begin_if_empty (c : Conn Database) : Conn Database × Except PyErr Unit :=
  match c.begin with
  | .error e => c.exit Database.foreignOk (.error e)
  | .ok c =>
    match c.current.find "vouchers" with
    | none => c.exit Database.foreignOk (.error .operationalError)
    | some t => if t.rows = [] then (c, .ok ()) else c.exit Database.foreignOk (.error .notEmpty)

/-- A node: the connection, the `StatefulRecoverer` and the part of `RecoverFactory` that runs it. -/
structure RecoveringNode where
  conn : Conn Database
  /-- `RecoverFactory.recovering_d is not None`. -/
  requested : Bool := false
  /-- `StatefulRecoverer._state`. -/
  stage : RecoveryStages := .inactive
  /-- The coroutine of `StatefulRecoverer.recover` waits for the download. -/
  waiting : Bool := false
  /-- Every state that was reported, `RecoverFactory.sent_updates`. -/
  reported : List RecoveryStages := []

/-- `recover.py:147-153` `_set_state` and `resource.py:347-354` `_on_state_change`. -/
def RecoveringNode.set_state (n : RecoveringNode) (s : RecoveryStages) : RecoveringNode :=
  { n with stage := s, reported := n.reported ++ [s] }

/-- `resource.py:370-396`, a client asks for recovery with the capability of the active recovery, if
there is one; with `resource.py:419-433` `_recover` and `recover.py:123-128`. -/
def RecoveringNode.request (n : RecoveringNode) : RecoveringNode :=
  if n.requested then n
  else
    match n.conn.begin_if_empty with
    | (c, .error _) => { n with conn := c, requested := true }.set_state .import_failed
    | (c, .ok ()) =>
      if n.stage ≠ .inactive then
        match c.exit Database.foreignOk (.ok ()) with
        | (c, .error _) => { n with conn := c, requested := true }.set_state .import_failed
        | (c, .ok ()) => { n with conn := c, requested := true }
      else { n with conn := c, requested := true, waiting := true }.set_state .started

/-- `recover.py:334` and `recover.py:337`: the downloader reports a stage. -/
def RecoveringNode.progress (n : RecoveringNode) (s : RecoveryStages) : RecoveringNode :=
  if n.waiting ∧ (s = .inspect_replica ∨ s = .downloading) then n.set_state s else n

/-- `recover.py:128-145`: the download has ended.  Then the end of `with_cursor_async` and the
callbacks of `resource.py:375-396`. -/
def RecoveringNode.downloaded (utc : String → Option String) (n : RecoveringNode)
    (r : Except PyErr ReplicaData) : RecoveringNode :=
  if n.waiting then
    let n :=
      match r with
      | .error _ => { n with waiting := false }.set_state .download_failed
      | .ok replica =>
        match n.conn.recover utc replica with
        | (c, .error _) => { n with conn := c, waiting := false }.set_state .import_failed
        | (c, .ok ()) => { n with conn := c, waiting := false }.set_state .succeeded
    match n.conn.exit Database.foreignOk (.ok ()) with
    | (c, .ok ()) => { n with conn := c }
    | (c, .error _) => { n with conn := c }.set_state .import_failed
  else n

/-- What can happen to a node. -/
inductive RecoveryStep where
  /-- A method of the store is called. -/
  | call (statements : List Sql)
  /-- A client asks for recovery. -/
  | request
  /-- The downloader reports a stage. -/
  | progress (s : RecoveryStages)
  /-- The download ends with a replica or an exception. -/
  | downloaded (r : Except PyErr ReplicaData)

/-- One step; the result is that of the method of the store. -/
def RecoveringNode.step (utc : String → Option String) (n : RecoveringNode) :
    RecoveryStep → RecoveringNode × Except PyErr Unit
  | .call statements =>
    match n.conn.call utc statements with
    | (c, r) => ({ n with conn := c }, r)
  | .request => (n.request, .ok ())
  | .progress s => (n.progress s, .ok ())
  | .downloaded r => (n.downloaded utc r, .ok ())

/-- Several steps. -/
def RecoveringNode.run (utc : String → Option String) (n : RecoveringNode) :
    List RecoveryStep → RecoveringNode
  | [] => n
  | s :: ss => RecoveringNode.run utc (n.step utc s).1 ss

end ZKAP
