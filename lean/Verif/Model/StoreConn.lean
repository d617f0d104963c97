import Verif.Model.Store
import Verif.Model.Connection

/-!
Methods of the store on the connection, statement by statement: `model.py:240-263` (`with_cursor`),
`replicate.py:391-474` (`__enter__`, `__exit__`, `_maybe_signal_observers`), `replicate.py:510-546`
(`execute`, `executemany`) and `replicate.py:1053-1085` with `replicate.py:688-709` (the observer).

Each statement can fail for a reason outside the program (the disk is full, another process holds the
lock): `faults` has an entry for each statement, including `BEGIN` and the commit; `none` lets it
succeed.  When the list is used up there are no more faults.
-/
namespace ZKAP

/-- What is in the database: the tables of the store and the statements in the event stream. -/
structure StoreDb where
  tables : Tables := {}
  events : List Mutation := []
  deriving DecidableEq, Repr

/-- What fails. -/
abbrev Faults := List (Option PyErr)

/-- The fault of the next statement. -/
def Faults.next (faults : Faults) : Option PyErr := faults.head?.join

/-- The faults of the statements after the next. -/
def Faults.rest (faults : Faults) : Faults := faults.tail

/-- `_ReplicationCapableConnection`; `observed`: the replication service observes it. -/
structure StoreConn where
  conn : Conn StoreDb
  replicating : Bool := false
  observed : Bool := false
  mutations : List Mutation := []

/-- The effect of a statement of the store. -/
def stmt_effect (s : Stmt) (db : StoreDb) : Except PyErr StoreDb :=
  match exec s db.tables with
  | .error e => .error e
  | .ok x => .ok { db with tables := x.tables }

/-- `replicate.py:510-523` `execute`, without the note about the statement. -/
def Conn.execute_stmt (fault : Option PyErr) (c : Conn StoreDb) (s : Stmt) : Conn StoreDb × Except PyErr Unit :=
  match fault with
  | some e => (c, .error e)
  | none => c.execute true fun _ db => stmt_effect s db

/-- `cursor.executemany`: a failure leaves the effects of the rows before it in the transaction. -/
def Conn.execute_rows (c : Conn StoreDb) : List Stmt → Faults → Faults × Conn StoreDb × Except PyErr Unit
  | [], faults => (faults, c, .ok ())
  | s :: ss, faults =>
    match c.execute_stmt faults.next s with
    | (c, .error e) => (faults.rest, c, .error e)
    | (c, .ok ()) => c.execute_rows ss faults.rest

/-- Note a statement that succeeded. -/
def StoreConn.note (c : StoreConn) (m : Mutation) : StoreConn :=
  { c with mutations := if c.replicating then c.mutations ++ [m] else c.mutations }

/-- The statements of a method, on an open connection. -/
def Prog.perform {α} : Prog α → Faults → StoreConn → Faults × StoreConn × Except PyErr α
  | .done a, faults, c => (faults, c, .ok a)
  | .raise e, faults, c => (faults, c, .error e)
  | .query k, faults, c =>
    match faults.next with
    | some e => (faults.rest, c, .error e)
    | none => (k c.conn.current.tables).perform faults.rest c
  | .execute imp s k, faults, c =>
    match c.conn.execute_stmt faults.next s, exec s c.conn.current.tables with
    | (d, .ok ()), .ok x =>
      (k x.rowcount x.lastrowid).perform faults.rest (StoreConn.note { c with conn := d } ⟨imp, [s]⟩)
    | (d, .error e), _ => (faults.rest, { c with conn := d }, .error e)
    | (d, .ok ()), .error e => (faults.rest, { c with conn := d }, .error e)
  | .executemany imp ss k, faults, c =>
    match c.conn.execute_rows ss faults with
    | (faults, d, .error e) => (faults, { c with conn := d }, .error e)
    | (faults, d, .ok ()) => k.perform faults (StoreConn.note { c with conn := d } ⟨imp, ss⟩)

/-- `Connection.__exit__` of the `sqlite3` module; the commit can fail. -/
def Conn.exit_faulty {α} (fault : Option PyErr) (c : Conn StoreDb) (r : Except PyErr α) :
    Conn StoreDb × Except PyErr α :=
  match r, fault with
  | .ok _, some e => (c.rollback, .error e)
  | r, _ => c.exit (fun _ => true) r

/-- The transaction in `replicate.py:455-459`: `BEGIN`, the statement of `add_events` if there is an
observer, and the commit. -/
def StoreConn.record (faults : Faults) (c : StoreConn) : StoreConn × Except PyErr Unit :=
  match faults.next with
  | some e => ({ c with conn := c.conn.rollback }, .error e)
  | none =>
    match c.conn.begin with
    | .error e => ({ c with conn := c.conn.rollback }, .error e)
    | .ok d =>
      let signalled := { c with mutations := [] }
      if c.observed ∧ c.mutations ≠ [] then
        match faults.rest.next with
        | some e => ({ signalled with conn := d.rollback }, .error e)
        | none =>
          match d.execute true fun _ db => .ok { db with events := db.events ++ c.mutations } with
          | (d, .error e) => ({ signalled with conn := d.rollback }, .error e)
          | (d, .ok ()) =>
            match d.exit_faulty faults.rest.rest.next (.ok ()) with
            | (d, r) => ({ signalled with conn := d }, r)
      else
        match d.exit_faulty faults.rest.next (.ok ()) with
        | (d, r) => ({ signalled with conn := d }, r)

/-- `replicate.py:441-461` `__exit__` after the body ended with this result. -/
def StoreConn.exit {α} (faults : Faults) (c : StoreConn) (r : Except PyErr α) :
    StoreConn × Except PyErr α :=
  match c.conn.exit_faulty faults.next r with
  | (d, .error e) => ({ c with conn := d }, .error e)
  | (d, .ok a) =>
    match StoreConn.record faults.rest { c with conn := d } with
    | (c, .error e) => (c, .error e)
    | (c, .ok ()) => (c, .ok a)

/-- The body of the `with` statement in `model.py:250-258`: `BEGIN` and the method. -/
def StoreConn.body {α} (faults : Faults) (c : StoreConn) (p : Prog α) :
    Faults × StoreConn × Except PyErr α :=
  match faults.next with
  | some e => (faults.rest, c, .error e)
  | none =>
    match c.conn.begin with
    | .error e => (faults.rest, c, .error e)
    | .ok d => p.perform faults.rest { c with conn := d }

/-- `model.py:240-263` `with_cursor`: call a method of the store. -/
def StoreConn.with_cursor {α} (faults : Faults) (c : StoreConn) (p : Prog α) :
    StoreConn × Except PyErr α :=
  match c.body faults p with
  | (faults, c, r) => c.exit faults r

end ZKAP
