import Verif.Model.Cbor
import Verif.Spec.Timestamp

/-! What SQLite lets the store execute, and what a history of recorded statements is. -/
namespace ZKAP.Spec

/-- A value that SQLite accepts for a parameter: integers have 64 bits, texts and blobs at most
10^9 bytes (`SQLITE_MAX_LENGTH`), times are those of Python's `datetime`.  Floats are finite:
exponent bits all ones mean an infinity or `NaN`, which SQLite turns into `NULL` or does not store
exactly. -/
def Bindable : SqlType → Prop
  | .none => True
  | .int n => -(2 ^ 63) ≤ n ∧ n < 2 ^ 63
  | .bool _ => True
  | .float bits => bits < 2 ^ 64 ∧ bits / 2 ^ 52 % 2048 ≠ 2047
  | .str s => s.toList.length ≤ 1000000000
  | .bytes b => b.length ≤ 1000000000
  | .datetime t => Valid t

/-- A statement SQLite executes with its arguments: the text is at most 10^9 bytes long
(`SQLITE_MAX_SQL_LENGTH`), so it has no more characters than that, and there are at most 32766
parameters (`SQLITE_MAX_VARIABLE_NUMBER`). -/
structure Executable (sql : String) (args : List SqlType) : Prop where
  short : sql.toList.length ≤ 1000000000
  few : args.length ≤ 32766
  bindable : ∀ a ∈ args, Bindable a

/-- The transactions of a node in order: whether each was important, and its statements. -/
abbrev Transactions := List (Bool × List (String × List SqlType))

/-- The table `event-stream` after those transactions were recorded one after another. -/
def recorded_rows (first : Nat) : Transactions → List EventRow
  | [] => []
  | (important, statements) :: rest =>
    add_event_rows first important statements ++ recorded_rows (first + statements.length) rest

/-- All statements in order. -/
def statements (ts : Transactions) : List (Bool × String × List SqlType) :=
  ts.flatMap fun t => t.2.map fun s => (t.1, s)

end ZKAP.Spec
