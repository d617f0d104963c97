import Verif.Model.Database
import Verif.Model.Schema
import Verif.Model.Store
import Verif.Model.Voucher

/-!
The methods of `model.py` once more, as the SQL they execute.

`Model/Store.lean` describes each statement by its effect on typed tables.  Here a statement is the
SQL text with its parameters, executed on tables as data (`Model/Database.lean`): columns are found by
name, values can have any type, defaults, `NULL` and constraints are those of the schema.

A connection sees two databases: the file, and the temporary tables of the connection; a name means
the temporary table if there is one of that name.
-/
namespace ZKAP

/-- What statements on a connection can see. -/
structure Session where
  main : Database
  temp : Database
  deriving DecidableEq

/-- The table that a name stands for. -/
def Session.find (s : Session) (name : String) : Option Table :=
  match s.temp.find name with
  | some t => some t
  | none => s.main.find name

/-- The temporary tables, `model.py:176-206`. -/
def temporary_tables : List TableDef := [
  { name := "in-use", columns := [{ name := "unblinded-token" }], key := .plain "unblinded-token" },
  { name := "to-discard", columns := [{ name := "unblinded-token" }] },
  { name := "to-reset", columns := [{ name := "unblinded-token" }] }]

/-- A connection after `initialize_database` (`model.py:145-209`): the temporary tables are empty. -/
def Session.opened (db : Database) : Session :=
  { main := db, temp := { tables := temporary_tables.map fun d => { schema := d } } }

/-! ### Statements -/

/-- The right side of an assignment in a `SET`. -/
inductive SetTo where
  /-- A value. -/
  | value (v : Value)
  /-- `[column] + n`, for the column that is assigned. -/
  | plus (n : Int)
  /-- `COALESCE([column], 0) + n`. -/
  | coalescePlus (n : Int)
  deriving DecidableEq, Repr

/-- The new value.  Adding to something that is not a number does not occur: SQLite would take it
for 0. -/
def SetTo.eval (old : Value) : SetTo → Value
  | .value v => v
  | .plus n =>
    match old with
    | .null => .null
    | .int m => .int (m + n)
    | _ => .int n
  | .coalescePlus n =>
    match old with
    | .int m => .int (m + n)
    | _ => .int n

/-- What follows `IN`. -/
inductive Source where
  /-- `[table]`, which must have one column. -/
  | table (table : String)
  /-- `(SELECT [column] FROM [table])`. -/
  | select (column table : String)
  deriving DecidableEq, Repr

/-- The values of a source. -/
def Session.valuesOf (s : Session) : Source → Except PyErr (List Value)
  | .table name =>
    match s.find name with
    | none => .error .operationalError
    | some t =>
      match t.schema.columns with
      | [c] => .ok (t.values c.name)
      | _ => .error .operationalError
  | .select column name =>
    match s.find name with
    | none => .error .operationalError
    | some t =>
      match t.schema.index column with
      | none => .error .operationalError
      | some _ => .ok (t.values column)

/-- `v IN (vs)`: `NULL` is in nothing. -/
def Value.isIn (v : Value) (vs : List Value) : Bool := v != .null && vs.contains v

/-- `v NOT IN (vs)`: true of everything if there are no values, otherwise not true if `v` or one of
the values is `NULL`. -/
def Value.isNotIn (v : Value) (vs : List Value) : Bool :=
  vs.isEmpty || (v != .null && !vs.contains v && !vs.contains .null)

/-- The statements of `model.py` that change tables. -/
inductive StoreSql where
  /-- `INSERT INTO [table] (…) VALUES (…)`. -/
  | insertNamed (table : String) (named : Dict String Value)
  /-- `INSERT OR IGNORE INTO [table] (…) VALUES (…)`. -/
  | insertOrIgnore (table : String) (named : Dict String Value)
  /-- `INSERT INTO [table] VALUES (…)`. -/
  | insert (table : String) (row : Row)
  /-- `UPDATE [table] SET [column] = …, … WHERE [column] = … AND …`. -/
  | set (table : String) (sets : Dict String SetTo) (wheres : Dict String Value)
  /-- `DELETE FROM [table] WHERE [column] = … AND …`. -/
  | delete (table : String) (wheres : Dict String Value)
  /-- `DELETE FROM [table] WHERE [column] IN …`. -/
  | deleteIn (table column : String) (source : Source)
  /-- `DELETE FROM [table]`. -/
  | clear (table : String)
  deriving DecidableEq, Repr

/-- The table that a statement changes. -/
def StoreSql.target : StoreSql → String
  | .insertNamed t _ | .insertOrIgnore t _ | .insert t _ | .set t _ _ | .delete t _ | .deleteIn t _ _
  | .clear t => t

/-- The row with some columns changed; all new values are computed from the old row. -/
def TableDef.assignTo (d : TableDef) (sets : Dict String SetTo) (row : Row) : Row :=
  d.assign (sets.map fun c => (c.1, c.2.eval (d.get row c.1))) row

/-- The effect of a statement on the database that has its table. -/
def StoreSql.effect (s : Session) (deferred : Bool) (db : Database) : StoreSql → Except PyErr Database
  | .insertNamed table named => (Sql.insertNamed table named).exec (fun _ => none) deferred db
  | .insertOrIgnore table named => (Sql.insertOrIgnore table named).exec (fun _ => none) deferred db
  | .insert table row => (Sql.insert table row).exec (fun _ => none) deferred db
  | .set table sets wheres =>
    match db.find table with
    | none => .error .operationalError
    | some t =>
      if !(sets.all (fun c => (t.schema.index c.1).isSome) && t.schema.hasAll wheres) ||
          sets.any (fun c => t.schema.isKey c.1) then .error .operationalError
      else
        let rows := t.rows.map fun row =>
          if t.schema.selects wheres row then t.schema.assignTo sets row else row
        if rows.all t.schema.notNullOk then .ok (db.modify table fun t => { t with rows := rows })
        else .error .integrityError
  | .delete table wheres => (Sql.delete table wheres).exec (fun _ => none) deferred db
  | .deleteIn table column source =>
    match db.find table with
    | none => .error .operationalError
    | some t =>
      match t.schema.index column, s.valuesOf source with
      | some _, .ok vs =>
        let db' := db.modify table fun t => { t with
          rows := t.rows.filter fun row => !((t.schema.get row column).isIn vs) }
        if deferred || db'.foreignOk then .ok db' else .error .integrityError
      | _, _ => .error .operationalError
  | .clear table => (Sql.delete table []).exec (fun _ => none) deferred db

/-- The effect of a statement.  `deferred` says whether foreign keys are only checked on commit. -/
def Session.exec (s : Session) (deferred : Bool) (q : StoreSql) : Except PyErr Session :=
  match s.temp.find q.target with
  | some _ =>
    match q.effect s deferred s.temp with
    | .error e => .error e
    | .ok db => .ok { s with temp := db }
  | none =>
    match q.effect s deferred s.main with
    | .error e => .error e
    | .ok db => .ok { s with main := db }

/-- The number of rows of the table. -/
def Session.length (s : Session) (name : String) : Nat :=
  match s.find name with
  | none => 0
  | some t => t.rows.length

/-- `cursor.rowcount`: how many rows a statement inserted, changed or deleted; `after` is the session
after it. -/
def Session.rowcount (s after : Session) : StoreSql → Nat
  | .set table _ wheres =>
    match s.find table with
    | none => 0
    | some t => t.rows.countP (t.schema.selects wheres)
  | .insertNamed t _ | .insertOrIgnore t _ | .insert t _ => after.length t - s.length t
  | .delete t _ | .deleteIn t _ _ | .clear t => s.length t - after.length t

/-- `cursor.lastrowid` after an `INSERT` into a table with an `INTEGER PRIMARY KEY`: the number of the
new row.  (0 for other tables, where the code does not look at it.) -/
def Session.lastrowid (s : Session) (table : String) : Int :=
  match s.find table with
  | none => 0
  | some t =>
    match t.schema.key, t.rows.getLast? with
    | .integer c, some row =>
      match t.schema.get row c with
      | .int n => n
      | _ => 0
    | _, _ => 0

/-! ### Queries -/

/-- `[a] < [b]`, as `ORDER BY` sorts: numbers before texts.  (Texts are sorted by their code points,
which is the order of their UTF-8 encodings.  Blobs do not occur.) -/
def Value.before : Value → Value → Bool
  | .null, .null => false
  | .null, _ => true
  | .int a, .int b => a < b
  | .int _, .text _ => true
  | .int _, .blob _ => true
  | .text a, .text b => decide (a < b)
  | .text _, .blob _ => true
  | _, _ => false

/-- `ORDER BY [column] DESC LIMIT 1`: the first row with the largest value. -/
def lastBy (d : TableDef) (column : String) : List Row → Option Row
  | [] => none
  | row :: rows =>
    match lastBy d column rows with
    | none => some row
    | some other => if (d.get row column).before (d.get other column) then some other else some row

/-- The queries of `model.py`. -/
inductive Select where
  /-- `SELECT [column], … FROM [table] WHERE [column] = ? AND …`. -/
  | columns (columns : List String) (table : String) (wheres : Dict String Value)
  /-- `SELECT T.[column] FROM [table] AS T, [other] AS G WHERE T.[link] = G.[key] AND G.[flag] = value
  AND T.[column] NOT IN [excluded]`. -/
  | joined (column table link other key flag : String) (value : Value) (excluded : String)
  /-- `SELECT count(1)` instead of the columns of another query. -/
  | count (q : Select)
  /-- Another query with `LIMIT n`. -/
  | limit (q : Select) (n : Int)
  /-- `SELECT [column], … FROM [table] WHERE [by] IS NOT NULL ORDER BY [by] DESC LIMIT 1`. -/
  | last (columns : List String) (table by_ : String)

/-- The rows that a query gives, in the order of the tables. -/
def Select.rows (s : Session) : Select → Except PyErr (List Row)
  | .columns cols table wheres =>
    match s.find table with
    | none => .error .operationalError
    | some t =>
      if !(cols.all (fun c => (t.schema.index c).isSome) && t.schema.hasAll wheres) then
        .error .operationalError
      else .ok ((t.rows.filter (t.schema.selects wheres)).map fun row => cols.map (t.schema.get row))
  | .joined column table link other key flag value excluded =>
    match s.find table, s.find other, s.valuesOf (.table excluded) with
    | some t, some g, .ok vs =>
      if !([column, link].all (fun c => (t.schema.index c).isSome) &&
          [key, flag].all fun c => (g.schema.index c).isSome) then .error .operationalError
      else .ok ((t.rows.flatMap fun row =>
        (g.rows.filter fun group =>
          t.schema.get row link != .null && t.schema.get row link == g.schema.get group key &&
          g.schema.get group flag != .null && g.schema.get group flag == value).map fun _ =>
            [t.schema.get row column]).filter fun row => (row.headD .null).isNotIn vs)
    | _, _, _ => .error .operationalError
  | .count q =>
    match q.rows s with
    | .error e => .error e
    | .ok rows => .ok [[.int rows.length]]
  | .limit q n =>
    match q.rows s with
    | .error e => .error e
    | .ok rows => .ok (sql_limit n rows)
  | .last cols table by_ =>
    match s.find table with
    | none => .error .operationalError
    | some t =>
      if !((by_ :: cols).all fun c => (t.schema.index c).isSome) then .error .operationalError
      else .ok (((lastBy t.schema by_ (t.rows.filter fun row => t.schema.get row by_ != .null)).map
        fun row => cols.map (t.schema.get row)).toList)

/-! ### Methods -/

/-- What a method does with its cursor; see `Prog`. -/
inductive SqlProg (α : Type) : Type where
  | done (a : α)
  | raise (e : PyErr)
  | query (q : Select) (k : List Row → SqlProg α)
  | execute (important : Bool) (q : StoreSql) (k : Nat → Int → SqlProg α)
  | executemany (important : Bool) (qs : List StoreSql) (k : SqlProg α)

/-- Converting a method's result. -/
def SqlProg.map {α β} (f : α → β) : SqlProg α → SqlProg β
  | .done a => .done (f a)
  | .raise e => .raise e
  | .query q k => .query q fun rows => SqlProg.map f (k rows)
  | .execute i q k => .execute i q fun r l => SqlProg.map f (k r l)
  | .executemany i qs k => .executemany i qs (SqlProg.map f k)

/-- A recorded mutation, `replicate.py:386`. -/
structure SqlMutation where
  important : Bool
  stmts : List StoreSql
  deriving DecidableEq

/-- `cursor.executemany`. -/
def Session.execMany (deferred : Bool) : List StoreSql → Session → Except PyErr Session
  | [], s => .ok s
  | q :: qs, s =>
    match s.exec deferred q with
    | .error e => .error e
    | .ok s => Session.execMany deferred qs s

/-- The statements of a method inside the open transaction, with what is recorded of them; see
`Prog.run`. -/
def SqlProg.run {α} : SqlProg α → Session → List SqlMutation × Except PyErr (α × Session)
  | .done a, s => ([], .ok (a, s))
  | .raise e, _ => ([], .error e)
  | .query q k, s =>
    match q.rows s with
    | .error e => ([], .error e)
    | .ok rows => (k rows).run s
  | .execute imp q k, s =>
    match s.exec false q with
    | .error e => ([], .error e)
    | .ok s' =>
      let r := (k (s.rowcount s' q) (s'.lastrowid q.target)).run s'
      (⟨imp, [q]⟩ :: r.1, r.2)
  | .executemany imp qs k, s =>
    match Session.execMany false qs s with
    | .error e => ([], .error e)
    | .ok s' =>
      let r := k.run s'
      (⟨imp, qs⟩ :: r.1, r.2)

/-- `with_cursor`, `model.py:240-263`, on an idle connection. -/
def SqlProg.transact {α} (p : SqlProg α) (s : Session) : Except PyErr α × Session :=
  match (p.run s).2 with
  | .ok (a, s') => (.ok a, s')
  | .error e => (.error e, s)

/-- The text in a row of one column; the code asserts that it is a text. -/
def one_text : Row → Except PyErr String
  | [.text s] => .ok s
  | _ => .error .assertionError

/-- The texts of some rows. -/
def all_texts : List Row → Except PyErr (List String)
  | [] => .ok []
  | row :: rows =>
    match one_text row with
    | .error e => .error e
    | .ok s =>
      match all_texts rows with
      | .error e => .error e
      | .ok ss => .ok (s :: ss)

/-- `model.py:1258-1277` `state_from_row`; `row` is `[finished, token-count, public-key, counter]`. -/
def state_from_columns {τ} (parse : String → Except PyErr τ) (state : String) :
    Row → Except PyErr (VoucherState τ)
  | [finished, token_count, _, counter] =>
    if state == "pending" then
      match counter with
      | .int n => .ok (.pending n.toNat)
      | _ => .error .assertionError
    else if state == "double-spend" then
      match finished with
      | .text f =>
        match parse f with
        | .error e => .error e
        | .ok d => .ok (.doubleSpend d)
      | _ => .error .assertionError
    else if state == "redeemed" then
      match token_count with
      | .int n =>
        match finished with
        | .text f =>
          match parse f with
          | .error e => .error e
          | .ok d => .ok (.redeemed d n.toNat)
        | _ => .error .typeError
      | _ => .error .assertionError
    else .error .valueError
  | _ => .error .assertionError

/-- `model.py:1256-1293` `Voucher.from_row`, on the row that the query gives. -/
def Voucher.from_columns {τ} (parse : String → Except PyErr τ) : Row → Except PyErr (Voucher τ)
  | .text number :: .text created :: .int expected_tokens :: .text state :: rest =>
    match parse created with
    | .error e => .error e
    | .ok created =>
      match state_from_columns parse state rest with
      | .error e => .error e
      | .ok state =>
        .ok { number := number, expected_tokens := expected_tokens.toNat, created := some created,
              state := state }
  | _ => .error .assertionError

/-- The columns that `model.py:398-407` and `model.py:506-515` select. -/
def voucher_columns : List String :=
  ["number", "created", "expected-tokens", "state", "finished", "token-count", "public-key", "counter"]

/-- `model.py:391-413` `VoucherStore.get`. -/
def sql_get {τ} (parse : String → Except PyErr τ) (voucher : String) : SqlProg (Voucher τ) :=
  .query (.columns voucher_columns "vouchers" [("number", .text voucher)]) fun refs =>
    match refs with
    | [] => .raise .keyError
    | row :: _ =>
      match Voucher.from_columns parse row with
      | .error e => .raise e
      | .ok v => .done v

/-- The list comprehension in `model.py:516`. -/
def all_from_columns {τ} (parse : String → Except PyErr τ) : List Row → Except PyErr (List (Voucher τ))
  | [] => .ok []
  | row :: rows =>
    match Voucher.from_columns parse row with
    | .error e => .error e
    | .ok v =>
      match all_from_columns parse rows with
      | .error e => .error e
      | .ok vs => .ok (v :: vs)

/-- `model.py:499-516` `VoucherStore.list`. -/
def sql_list {τ} (parse : String → Except PyErr τ) : SqlProg (List (Voucher τ)) :=
  .query (.columns voucher_columns "vouchers" []) fun refs =>
    match all_from_columns parse refs with
    | .error e => .raise e
    | .ok vs => .done vs

/-- `model.py:415-497` `VoucherStore.add`; `o` is the order in which the database returns rows. -/
def sql_add (o : Order) (now voucher : String) (expected_tokens counter : Nat)
    (get_tokens : Except PyErr (List String)) : SqlProg (List String) :=
  .query (.columns ["text"] "tokens" [("voucher", .text voucher), ("counter", .int counter)]) fun rows =>
    if rows.length > 0 then
      match all_texts rows with
      | .error e => .raise e
      | .ok texts => .done (o.f texts)
    else
      match get_tokens with
      | .error e => .raise e
      | .ok tokens =>
        .execute true (.insertOrIgnore "vouchers" [("number", .text voucher),
          ("expected-tokens", .int expected_tokens), ("created", .text now)]) fun _ _ =>
        .executemany true (tokens.map fun x => .insertNamed "tokens"
          [("voucher", .text voucher), ("counter", .int counter), ("text", .text x)]) <|
        .done tokens

/-- The value that the `sqlite3` module binds for a `bool`. -/
def boolValue (b : Bool) : Value := .int (if b then 1 else 0)

/-- `model.py:518-633` `VoucherStore.insert_unblinded_tokens_for_voucher`. -/
def sql_insert_unblinded (now voucher public_key : String) (unblinded_tokens : List String)
    (completed spendable : Bool) : SqlProg Unit :=
  let voucher_state := if completed then "redeemed" else "pending"
  let token_count_increase := if spendable then unblinded_tokens.length else 0
  let sequestered_count_increase := if spendable then 0 else unblinded_tokens.length
  .execute false (.insertNamed "redemption-groups" [("voucher", .text voucher),
    ("public-key", .text public_key), ("spendable", boolValue spendable)]) fun _ group_id =>
  .execute false (.set "vouchers" [("state", .value (.text voucher_state)),
    ("token-count", .coalescePlus token_count_increase),
    ("sequestered-count", .coalescePlus sequestered_count_increase),
    ("finished", .value (.text now)), ("counter", .plus 1)] [("number", .text voucher)]) fun rowcount _ =>
  if rowcount = 0 then .raise .valueError
  else .query (.columns ["counter"] "vouchers" [("number", .text voucher)]) fun rows =>
    match rows with
    | [] => .raise .typeError
    | [.int new_counter] :: _ =>
      .executemany false (unblinded_tokens.map fun x => .insertNamed "unblinded-tokens"
        [("token", .text x), ("redemption-group", .int group_id)]) <|
      .execute false (.delete "tokens" [("voucher", .text voucher), ("counter", .int (new_counter - 1))])
        fun _ _ => .done ()
    | _ => .raise .assertionError

/-- `model.py:635-669` `VoucherStore.mark_voucher_double_spent`.  In SQLite `"pending"` is the text
if there is no column of that name. -/
def sql_mark_double_spent (now voucher : String) : SqlProg Unit :=
  .execute false (.set "vouchers" [("state", .value (.text "double-spend")),
    ("finished", .value (.text now))] [("number", .text voucher), ("state", .text "pending")])
    fun rowcount _ =>
  if rowcount = 0 then
    .query (.columns ["state"] "vouchers" [("number", .text voucher)]) fun _ => .raise .valueError
  else .done ()

/-- The query shared by `model.py:697-704` and `model.py:746-753`. -/
def available_query : Select :=
  .joined "token" "unblinded-tokens" "redemption-group" "redemption-groups" "rowid" "spendable" (.int 1)
    "in-use"

/-- `model.py:671-724` `VoucherStore.get_unblinded_tokens`.  `LIMIT` keeps the first rows in the order
`o`. -/
def sql_get_unblinded_tokens (o : Order) (count : Int) : SqlProg (List String) :=
  if count > SQLITE3_INTEGER_MAX then .raise .notEnoughTokens
  else .query available_query fun rows =>
    match all_texts rows with
    | .error e => .raise e
    | .ok all =>
      let texts := sql_limit count (o.f all)
      if (texts.length : Int) < count then .raise .notEnoughTokens
      else .executemany false (texts.map fun x => .insert "in-use" [.text x]) (.done texts)

/-- `(count,) = cursor.fetchone()` and the check of its type. -/
def fetch_count : List Row → SqlProg Nat
  | [.int n] :: _ => .done n.toNat
  | _ => .raise .assertionError

/-- `model.py:726-736` `VoucherStore.count_random_tokens`. -/
def sql_count_random_tokens : SqlProg Nat :=
  .query (.count (.columns [] "tokens" [])) fetch_count

/-- `model.py:738-757` `VoucherStore.count_unblinded_tokens`. -/
def sql_count_unblinded_tokens : SqlProg Nat :=
  .query (.count available_query) fetch_count

/-- `model.py:759-802` `VoucherStore.discard_unblinded_tokens`. -/
def sql_discard (unblinded_tokens : List String) : SqlProg Unit :=
  .executemany false (unblinded_tokens.map fun x => .insert "to-discard" [.text x]) <|
  .execute false (.deleteIn "in-use" "unblinded-token" (.table "to-discard")) fun _ _ =>
  .execute false (.deleteIn "unblinded-tokens" "token" (.table "to-discard")) fun _ _ =>
  .execute false (.clear "to-discard") fun _ _ =>
  .done ()

/-- `model.py:804-845` `VoucherStore.invalidate_unblinded_tokens`. -/
def sql_invalidate (reason : String) (unblinded_tokens : List String) : SqlProg Unit :=
  .executemany false (unblinded_tokens.map fun x =>
    .insert "invalid-unblinded-tokens" [.text x, .text reason]) <|
  .execute false (.deleteIn "in-use" "unblinded-token" (.select "token" "invalid-unblinded-tokens"))
    fun _ _ =>
  .execute false (.deleteIn "unblinded-tokens" "token" (.select "token" "invalid-unblinded-tokens"))
    fun _ _ =>
  .done ()

/-- `model.py:847-879` `VoucherStore.reset_unblinded_tokens`. -/
def sql_reset (unblinded_tokens : List String) : SqlProg Unit :=
  .executemany false (unblinded_tokens.map fun x => .insert "to-reset" [.text x]) <|
  .execute false (.deleteIn "in-use" "unblinded-token" (.table "to-reset")) fun _ _ =>
  .execute false (.clear "to-reset") fun _ _ =>
  .done ()

/-- The value bound for `self._rowid`. -/
def rowidValue (m : LeaseMaintenance) : Value :=
  match m.rowid with
  | none => .null
  | some n => .int n

/-- `model.py:951-963` `LeaseMaintenance.start`. -/
def sql_maint_start (now : String) (m : LeaseMaintenance) : SqlProg LeaseMaintenance :=
  match m.rowid with
  | some _ => .raise (.other 0)
  | none => .execute false (.insertNamed "lease-maintenance-spending"
      [("started", .text now), ("finished", .null), ("count", .int 0)]) fun _ lastrowid =>
    .done ⟨some lastrowid.toNat⟩

/-- `model.py:965-978` `LeaseMaintenance.observe`. -/
def sql_maint_observe (pass_value : Int) (sizes : List Int) (m : LeaseMaintenance) : SqlProg Unit :=
  match required_passesE pass_value sizes with
  | .error e => .raise e
  | .ok count => .execute false (.set "lease-maintenance-spending" [("count", .plus count)]
      [("id", rowidValue m)]) fun _ _ => .done ()

/-- `model.py:980-993` `LeaseMaintenance.finish`. -/
def sql_maint_finish (now : String) (m : LeaseMaintenance) : SqlProg LeaseMaintenance :=
  .execute false (.set "lease-maintenance-spending" [("finished", .value (.text now))]
    [("id", rowidValue m)]) fun _ _ => .done {}

/-- `model.py:895-922` `VoucherStore.get_latest_lease_maintenance_activity`, up to parsing the two
timestamps. -/
def sql_latest_activity : SqlProg (Option (String × Int × String)) :=
  .query (.last ["started", "count", "finished"] "lease-maintenance-spending" "finished") fun activity =>
    match activity with
    | [] => .done none
    | [[.text started, .int count, .text finished]] => .done (some (started, count, finished))
    | _ => .raise .typeError

/-! ### Histories -/

/-- The program run by a call, see `StoreOp.prog`. -/
def StoreOp.sqlProg : StoreOp → SqlProg Answer
  | .add o now v e c ts => (sql_add o now v e c ts).map .tokens
  | .insert now v pk ts c s => (sql_insert_unblinded now v pk ts c s).map fun _ => .unit
  | .doubleSpent now v => (sql_mark_double_spent now v).map fun _ => .unit
  | .getTokens o n => (sql_get_unblinded_tokens o n).map .tokens
  | .discard ts => (sql_discard ts).map fun _ => .unit
  | .invalidate r ts => (sql_invalidate r ts).map fun _ => .unit
  | .reset ts => (sql_reset ts).map fun _ => .unit
  | .maintStart now m => (sql_maint_start now m).map .maint
  | .maintObserve pv sizes m => (sql_maint_observe pv sizes m).map fun _ => .unit
  | .maintFinish now m => (sql_maint_finish now m).map .maint
  | .restart => .done .unit

/-- One call, or a restart: the file is opened again. -/
def StoreOp.sqlStep (op : StoreOp) (s : Session) : Except PyErr Answer × Session :=
  match op with
  | .restart => (.ok .unit, Session.opened s.main)
  | op => op.sqlProg.transact s

/-- The answers to the calls of a history and the session after it. -/
def runSql : List StoreOp → Session → List (Except PyErr Answer) × Session
  | [], s => ([], s)
  | op :: ops, s =>
    match op.sqlStep s with
    | (a, s) => (a :: (runSql ops s).1, (runSql ops s).2)

/-- The statements recorded for replication by the calls of a history, `replicate.py:519-546`. -/
def recordedSql : List StoreOp → Session → List StoreSql
  | [], _ => []
  | op :: ops, s => (op.sqlProg.run s).1.flatMap (·.stmts) ++ recordedSql ops (op.sqlStep s).2

end ZKAP
