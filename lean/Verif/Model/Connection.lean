import Verif.Model.Py

/-!
A `sqlite3.Connection` with `isolation_level="IMMEDIATE"` (`model.py:133-142`) and the two decorators
that give a function a transaction (`model.py:216-263`).

The contents of the database are a parameter `δ`: typed tables (`Model/Store.lean`) or relational
data (`Model/Database.lean`).  As in the `sqlite3` module of Python 3.10 and later:

* a data-changing statement opens a transaction if there is none; other statements do not, and
  outside a transaction they take effect at once;
* a statement that raises changes nothing and leaves the transaction open;
* `__enter__` does nothing; `__exit__` commits if there was no exception and rolls back otherwise; if
  the commit raises, it rolls back;
* `commit` and `rollback` without a transaction do nothing.
-/
namespace ZKAP

/-- A connection. -/
structure Conn (δ : Type) where
  /-- What other processes see, and what is left after a crash. -/
  committed : δ
  /-- What this connection sees, while a transaction is open. -/
  working : Option δ := none
  /-- `PRAGMA defer_foreign_keys` was set in this transaction. -/
  deferred : Bool := false
  deriving DecidableEq, Repr

/-- What the connection sees. -/
def Conn.current {δ} (c : Conn δ) : δ := c.working.getD c.committed

/-- `BEGIN IMMEDIATE TRANSACTION`. -/
def Conn.begin {δ} (c : Conn δ) : Except PyErr (Conn δ) :=
  match c.working with
  | some _ => .error .operationalError
  | none => .ok { c with working := some c.committed, deferred := false }

/-- `cursor.execute` of a statement with the given effect: the new state of the connection and
whether the statement raised.  `dml`: it is an `INSERT`, `UPDATE` or `DELETE`. -/
def Conn.execute {δ} (c : Conn δ) (dml : Bool) (effect : Bool → δ → Except PyErr δ) :
    Conn δ × Except PyErr Unit :=
  match c.working with
  | some d =>
    match effect c.deferred d with
    | .error e => (c, .error e)
    | .ok d' => ({ c with working := some d' }, .ok ())
  | none =>
    if dml then
      match effect false c.committed with
      | .error e => ({ c with working := some c.committed, deferred := false }, .error e)
      | .ok d' => ({ c with working := some d', deferred := false }, .ok ())
    else
      match effect false c.committed with
      | .error e => (c, .error e)
      | .ok d' => ({ c with committed := d' }, .ok ())

/-- `PRAGMA defer_foreign_keys = ON`. -/
def Conn.defer {δ} (c : Conn δ) : Conn δ :=
  match c.working with
  | some _ => { c with deferred := true }
  | none => c

/-- Roll back. -/
def Conn.rollback {δ} (c : Conn δ) : Conn δ := { c with working := none, deferred := false }

/-- Commit; `valid` is the check of deferred foreign keys.  (Others were checked by each
statement.) -/
def Conn.commit {δ} (valid : δ → Bool) (c : Conn δ) : Except PyErr (Conn δ) :=
  match c.working with
  | none => .ok c
  | some d => if !c.deferred || valid d then .ok ⟨d, none, false⟩ else .error .integrityError

/-- `Connection.__exit__` of the `sqlite3` module after the body of the `with` statement ended with
the given result. -/
def Conn.exit {δ α} (valid : δ → Bool) (c : Conn δ) (r : Except PyErr α) :
    Conn δ × Except PyErr α :=
  match r with
  | .error e => (c.rollback, .error e)
  | .ok a =>
    match c.commit valid with
    | .error e => (c.rollback, .error e)
    | .ok c' => (c', .ok a)

/-- The process dies. -/
def Conn.crash {δ} (c : Conn δ) : δ := c.committed

end ZKAP
