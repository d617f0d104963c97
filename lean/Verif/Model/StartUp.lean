import Verif.Model.Recovery

/-!
The connection that records changes for replication, and the start of a node: `replicate.py:388-535`,
`replicate.py:688-709`, `replicate.py:842-861`, `replicate.py:1076-1105`, `model.py:145-209` and
`_plugin.py:199-238`.

`render` is the text of a statement.  Its arguments, which are recorded in a column of their own, and
the mark for important statements are left out.  The only observer of changes is the replication
service.
-/
namespace ZKAP

/-- `_ReplicationCapableConnection`. -/
structure ReplConn where
  conn : Conn Database
  /-- `_replicating`. -/
  replicating : Bool
  /-- Whether the replication service is an observer. -/
  observed : Bool := false
  /-- `_mutations`. -/
  mutations : List Sql := []

/-- `replicate.py:510-523` `execute`.  None of the statements of `Sql` is a `SELECT`, so
`statement_mutates` (`sql.py:289-296`) is true of all. -/
def ReplConn.execute (utc : String → Option String) (r : ReplConn) (s : Sql) :
    ReplConn × Except PyErr Unit :=
  match r.conn.sql utc s with
  | (c, .error e) => ({ r with conn := c }, .error e)
  | (c, .ok ()) =>
    ({ r with conn := c, mutations := if r.replicating then r.mutations ++ [s] else r.mutations }, .ok ())

/-- Execute statements one after the other until one raises. -/
def ReplConn.executeAll (utc : String → Option String) (r : ReplConn) :
    List Sql → ReplConn × Except PyErr Unit
  | [] => (r, .ok ())
  | s :: ss =>
    match r.execute utc s with
    | (r, .error e) => (r, .error e)
    | (r, .ok ()) => r.executeAll utc ss

/-- `replicate.py:688-709` `add_events`: the statement that records a statement. -/
def event_insert (render : Sql → String) (s : Sql) : Sql :=
  .insertNamed "event-stream" [("statement", .text (render s)), ("serialized_arguments", .blob [0x80]),
    ("important", .int 0)]

/-- `replicate.py:441-474` `__exit__` with `_maybe_signal_observers`, and the observer
`replicate.py:1076-1105`, as far as the database is concerned. -/
def ReplConn.exit (utc : String → Option String) (render : Sql → String) (r : ReplConn)
    (res : Except PyErr Unit) : ReplConn × Except PyErr Unit :=
  match r.conn.exit Database.foreignOk res with
  | (c, .error e) => ({ r with conn := c }, .error e)
  | (c, .ok ()) =>
    match c.call utc (if r.observed then r.mutations.map (event_insert render) else []) with
    | (c, res) => ({ r with conn := c, mutations := [] }, res)

/-- The body of the `with conn` in `model.py:154-167`, as in `upgrade_body`. -/
def ReplConn.upgrade_body (utc : String → Option String) (table : Dict Int (List Sql)) (r : ReplConn) :
    ReplConn × Except PyErr Unit :=
  match r.executeAll utc [.createVersion] with
  | (r, .error e) => (r, .error e)
  | (r, .ok ()) =>
    match read_schema_version r.conn.current with
    | .error e => (r, .error e)
    | .ok actual_version => r.executeAll utc (get_schema_upgrades table actual_version)

/-- `_plugin.py:199-218` `_get_store`: open the database; `setup`: replication is set up. -/
def get_store (utc : String → Option String) (render : Sql → String) (table : Dict Int (List Sql))
    (setup : Bool) (db : Database) : ReplConn × Except PyErr Unit :=
  match ReplConn.upgrade_body utc table { conn := { committed := db }, replicating := setup } with
  | (r, res) => r.exit utc render res

/-- `replicate.py:842-849`: the replication service is started, when the reactor runs. -/
def ReplConn.start_service (r : ReplConn) : ReplConn := { r with observed := true, replicating := true }

/-- A method of the store (`model.py:240-263` `with_cursor`) that executes these statements. -/
def ReplConn.call (utc : String → Option String) (render : Sql → String) (r : ReplConn)
    (statements : List Sql) : ReplConn × Except PyErr Unit :=
  match r.conn.begin with
  | .error e => r.exit utc render (.error e)
  | .ok c =>
    match ({ r with conn := c } : ReplConn).executeAll utc statements with
    | (r, res) => r.exit utc render res

end ZKAP
