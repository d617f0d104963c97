import Verif.Model.Pricing

/-!
The voucher store: `model.py` (`VoucherStore`, `LeaseMaintenance`) over the tables of
`schema.py`.

SQL is modelled statement by statement.  `Stmt` has one constructor for every
mutating SQL statement of `model.py`, carrying the bound arguments; `exec` is its effect
on the tables, with the constraint violations SQLite reports.  A store method is a `Prog`:
a sequence of queries and statements issued on the cursor.  `transact` is the `with_cursor`
decorator on an otherwise idle connection: commit if the method returns, roll back
everything if it raises.  (The connection object itself, open transactions and the
replication log are in `Model/Connection.lean`.)

Simplifications: text columns are `String`s (the `base64`/`ascii` coding of tokens and
vouchers is dropped); integer columns are `Nat` or `Int` without a 64 bit limit; date/time
columns hold the text the `sqlite3` adapter writes.
-/
namespace ZKAP

/-! ### Tables, `schema.py:75-280` at the newest version -/

/-- A row of `[vouchers]`, `schema.py:78-91,138,155,200`.  The column `[public-key]`, which
no code of this version writes or uses, is left out. -/
structure VoucherRow where
  number : String
  created : String
  state : String := "pending"
  finished : Option String := none
  token_count : Option Nat := none
  counter : Nat := 0
  expected_tokens : Nat
  sequestered_count : Nat := 0
  deriving DecidableEq, Repr

/-- A row of `[tokens]`, `schema.py:94-100,144`: a random token. -/
structure TokenRow where
  text : String
  voucher : String
  counter : Nat
  deriving DecidableEq, Repr

/-- A row of `[unblinded-tokens]`, `schema.py:103-107,214`. -/
structure UnblindedRow where
  token : String
  group : Nat
  deriving DecidableEq, Repr

/-- A row of `[redemption-groups]`, `schema.py:173-186`. -/
structure GroupRow where
  rowid : Nat
  voucher : String
  spendable : Bool
  public_key : Option String
  deriving DecidableEq, Repr

/-- A row of `[invalid-unblinded-tokens]`, `schema.py:160-165`. -/
structure InvalidRow where
  token : String
  reason : String
  deriving DecidableEq, Repr

/-- A row of `[lease-maintenance-spending]`, `schema.py:110-125`. -/
structure MaintRow where
  id : Nat
  started : String
  finished : Option String
  count : Int
  deriving DecidableEq, Repr

/-- The persistent tables of the application (all tables but `[version]` and
`[event-stream]`). -/
structure App where
  vouchers : List VoucherRow := []
  tokens : List TokenRow := []
  unblinded : List UnblindedRow := []
  groups : List GroupRow := []
  invalid : List InvalidRow := []
  maint : List MaintRow := []
  deriving DecidableEq, Repr

/-- The temporary tables of a connection, `model.py:172-206`. -/
structure Temp where
  in_use : List String := []
  to_discard : List String := []
  to_reset : List String := []
  deriving DecidableEq, Repr

/-- Everything a statement on the connection can see. -/
structure Tables where
  app : App := {}
  temp : Temp := {}
  deriving DecidableEq, Repr

/-! ### Statements -/

/-- The mutating statements of `model.py` with their bound arguments. -/
inductive Stmt where
  /-- `model.py:476-481` -/
  | insertVoucher (number : String) (expected : Nat) (created : String)
  /-- `model.py:484-487` -/
  | insertToken (voucher : String) (counter : Nat) (text : String)
  /-- `model.py:562-567` -/
  | insertGroup (voucher public_key : String) (spendable : Bool)
  /-- `model.py:577-595` -/
  | updateRedeemed (state : String) (tokens sequestered : Nat) (finished number : String)
  /-- `model.py:610-613` -/
  | insertUnblinded (token : String) (group : Nat)
  /-- `model.py:628-632` -/
  | deleteTokens (voucher : String) (counter : Nat)
  /-- `model.py:642-650` -/
  | updateDoubleSpent (finished number : String)
  /-- `model.py:714-717` -/
  | insertInUse (token : String)
  /-- `model.py:775-778` -/
  | insertToDiscard (token : String)
  /-- `model.py:783-787` -/
  | deleteInUseToDiscard
  /-- `model.py:790-794` -/
  | deleteUnblindedToDiscard
  /-- `model.py:797-800` -/
  | clearToDiscard
  /-- `model.py:823-826` -/
  | insertInvalid (token reason : String)
  /-- `model.py:832-836` -/
  | deleteInUseInvalid
  /-- `model.py:839-843` -/
  | deleteUnblindedInvalid
  /-- `model.py:859-862` -/
  | insertToReset (token : String)
  /-- `model.py:867-871` -/
  | deleteInUseToReset
  /-- `model.py:874-877` -/
  | clearToReset
  /-- `model.py:956-961`; the values bound for `finished` and `count` are `NULL` and `0` -/
  | insertMaint (started : String)
  /-- `model.py:971-977`; the id is `NULL` for an object that is not started -/
  | updateMaintCount (count : Int) (id : Option Nat)
  /-- `model.py:985-991` -/
  | updateMaintFinished (finished : String) (id : Option Nat)
  deriving DecidableEq, Repr

/-- The rowid SQLite gives a new row of a table with an `INTEGER PRIMARY KEY`: one more
than the largest in use. -/
def nextRowid (ids : List Nat) : Nat := ids.foldl Nat.max 0 + 1

/-- The outcome of a statement: new tables, `cursor.rowcount`, `cursor.lastrowid` (only
meaningful after an insert with an integer key; `0` elsewhere). -/
structure Executed where
  tables : Tables
  rowcount : Nat := 0
  lastrowid : Nat := 0

/-- The effect of a statement.  Primary key and foreign key violations raise
`IntegrityError` (`PRAGMA foreign_keys = ON`, `model.py:159`). -/
def exec (s : Stmt) (t : Tables) : Except PyErr Executed :=
  let a := t.app
  let m := t.temp
  match s with
  | .insertVoucher number expected created =>
    if number ∈ a.vouchers.map (·.number) then .ok { tables := t, rowcount := 0 }
    else .ok { tables := { t with app := { a with vouchers := a.vouchers ++
                [{ number := number, created := created, expected_tokens := expected }] } },
               rowcount := 1 }
  | .insertToken voucher counter text =>
    if text ∈ a.tokens.map (·.text) then .error .integrityError
    else if voucher ∉ a.vouchers.map (·.number) then .error .integrityError
    else .ok { tables := { t with app := { a with tokens := a.tokens ++
                [{ text := text, voucher := voucher, counter := counter }] } },
               rowcount := 1 }
  | .insertGroup voucher public_key spendable =>
    let rowid := nextRowid (a.groups.map (·.rowid))
    .ok { tables := { t with app := { a with groups := a.groups ++
            [{ rowid := rowid, voucher := voucher, spendable := spendable,
               public_key := some public_key }] } },
          rowcount := 1, lastrowid := rowid }
  | .updateRedeemed state tokens sequestered finished number =>
    .ok { tables := { t with app := { a with vouchers := a.vouchers.map (fun v =>
            if v.number == number then
              { v with
                state := state
                token_count := some (v.token_count.getD 0 + tokens)
                sequestered_count := v.sequestered_count + sequestered
                finished := some finished
                counter := v.counter + 1 }
            else v) } },
          rowcount := a.vouchers.countP (·.number == number) }
  | .insertUnblinded token group =>
    if token ∈ a.unblinded.map (·.token) then .error .integrityError
    else .ok { tables := { t with app := { a with unblinded := a.unblinded ++
                [{ token := token, group := group }] } },
               rowcount := 1 }
  | .deleteTokens voucher counter =>
    let keep := fun (r : TokenRow) => !(r.voucher == voucher && r.counter == counter)
    .ok { tables := { t with app := { a with tokens := a.tokens.filter keep } } }
  | .updateDoubleSpent finished number =>
    .ok { tables := { t with app := { a with vouchers := a.vouchers.map (fun v =>
            if v.number == number && v.state == "pending" then
              { v with state := "double-spend", finished := some finished }
            else v) } },
          rowcount := a.vouchers.countP (fun v => v.number == number && v.state == "pending") }
  | .insertInUse token =>
    if token ∈ m.in_use then .error .integrityError
    else .ok { tables := { t with temp := { m with in_use := m.in_use ++ [token] } },
               rowcount := 1 }
  | .insertToDiscard token =>
    .ok { tables := { t with temp := { m with to_discard := m.to_discard ++ [token] } } }
  | .deleteInUseToDiscard =>
    .ok { tables := { t with temp := { m with in_use := m.in_use.filter (· ∉ m.to_discard) } } }
  | .deleteUnblindedToDiscard =>
    .ok { tables := { t with app := { a with unblinded := a.unblinded.filter (·.token ∉ m.to_discard) } } }
  | .clearToDiscard => .ok { tables := { t with temp := { m with to_discard := [] } } }
  | .insertInvalid token reason =>
    if token ∈ a.invalid.map (·.token) then .error .integrityError
    else .ok { tables := { t with app := { a with invalid := a.invalid ++
                [{ token := token, reason := reason }] } },
               rowcount := 1 }
  | .deleteInUseInvalid =>
    .ok { tables := { t with temp := { m with in_use := m.in_use.filter (· ∉ a.invalid.map (·.token)) } } }
  | .deleteUnblindedInvalid =>
    .ok { tables := { t with app := { a with unblinded := a.unblinded.filter (·.token ∉ a.invalid.map (·.token)) } } }
  | .insertToReset token =>
    .ok { tables := { t with temp := { m with to_reset := m.to_reset ++ [token] } } }
  | .deleteInUseToReset =>
    .ok { tables := { t with temp := { m with in_use := m.in_use.filter (· ∉ m.to_reset) } } }
  | .clearToReset => .ok { tables := { t with temp := { m with to_reset := [] } } }
  | .insertMaint started =>
    let rowid := nextRowid (a.maint.map (·.id))
    .ok { tables := { t with app := { a with maint := a.maint ++
            [{ id := rowid, started := started, finished := none, count := 0 }] } },
          rowcount := 1, lastrowid := rowid }
  | .updateMaintCount count id =>
    .ok { tables := { t with app := { a with maint := a.maint.map (fun r =>
            if some r.id = id then { r with count := r.count + count } else r) } } }
  | .updateMaintFinished finished id =>
    .ok { tables := { t with app := { a with maint := a.maint.map (fun r =>
            if some r.id = id then { r with finished := some finished } else r) } } }

/-! ### Methods as programs on a cursor -/

/-- What a method decorated with `with_cursor` does with its cursor.  `query` is any
`SELECT`; `execute` passes `rowcount` and `lastrowid` on; the flag says whether
the statement is issued inside `with cursor.important()` (`replicate.py:350-364`). -/
inductive Prog (α : Type) : Type where
  | done (a : α)
  | raise (e : PyErr)
  | query (k : Tables → Prog α)
  | execute (important : Bool) (s : Stmt) (k : Nat → Nat → Prog α)
  | executemany (important : Bool) (ss : List Stmt) (k : Prog α)

/-- Converting a method's result. -/
def Prog.map {α β} (f : α → β) : Prog α → Prog β
  | .done a => .done (f a)
  | .raise e => .raise e
  | .query k => .query fun t => Prog.map f (k t)
  | .execute i s k => .execute i s fun r l => Prog.map f (k r l)
  | .executemany i ss k => .executemany i ss (Prog.map f k)

/-- A recorded mutation `(important, statement, rows)`, `replicate.py:386`; the
statement with each of its argument rows. -/
structure Mutation where
  important : Bool
  stmts : List Stmt
  deriving DecidableEq, Repr

/-- `cursor.executemany`: rows in order, stopping at the first failure. -/
def execMany : List Stmt → Tables → Except PyErr Tables
  | [], t => .ok t
  | s :: ss, t =>
    match exec s t with
    | .error e => .error e
    | .ok x => execMany ss x.tables

/-- Running a method's statements inside the open transaction.  The list is what the
replication-capable cursor appends to `_mutations` (`replicate.py:519-546`): each statement
that succeeded, also when a later one fails. -/
def Prog.run {α} : Prog α → Tables → List Mutation × Except PyErr (α × Tables)
  | .done a, t => ([], .ok (a, t))
  | .raise e, _ => ([], .error e)
  | .query k, t => (k t).run t
  | .execute imp s k, t =>
    match exec s t with
    | .error e => ([], .error e)
    | .ok x =>
      let r := (k x.rowcount x.lastrowid).run x.tables
      (⟨imp, [s]⟩ :: r.1, r.2)
  | .executemany imp ss k, t =>
    match execMany ss t with
    | .error e => ([], .error e)
    | .ok t' =>
      let r := k.run t'
      (⟨imp, ss⟩ :: r.1, r.2)

/-- `with_cursor`, `model.py:240-263`, on an idle connection: the transaction is committed
if the method returns and rolled back if it raises. -/
def transact {α} (p : Prog α) (t : Tables) : Except PyErr α × Tables :=
  match (p.run t).2 with
  | .ok (a, t') => (.ok a, t')
  | .error e => (.error e, t)

/-- The order in which a `SELECT` without `ORDER BY` returns its rows is up to the
database. -/
structure Order where
  f : List String → List String
  perm : ∀ l, (f l).Perm l

/-- Rows in storage order. -/
def Order.natural : Order := ⟨id, fun _ => List.Perm.refl _⟩

/-- Rows in reverse storage order. -/
def Order.reversed : Order := ⟨List.reverse, fun l => List.reverse_perm l⟩

/-! ### The methods -/

/-- `model.py:391-413` `VoucherStore.get`, up to the conversion of the row
(`Voucher.from_row`, see `Model/Voucher.lean`). -/
def store_get (voucher : String) : Prog VoucherRow :=
  .query fun t =>
    match t.app.vouchers.filter (·.number == voucher) with
    | [] => .raise .keyError
    | r :: _ => .done r

/-- `model.py:499-516` `VoucherStore.list`, up to the conversion of the rows. -/
def store_list : Prog (List VoucherRow) :=
  .query fun t => .done t.app.vouchers

/-- The `SELECT` of `model.py:448-455`. -/
def select_random_tokens (voucher : String) (counter : Nat) (t : Tables) : List String :=
  (t.app.tokens.filter (fun r => r.voucher == voucher && r.counter == counter)).map (·.text)

/-- `model.py:415-497` `VoucherStore.add`.  `get_tokens` may raise; `now` is the text of
`self.now()`. -/
def store_add (o : Order) (now voucher : String) (expected_tokens counter : Nat)
    (get_tokens : Except PyErr (List String)) : Prog (List String) :=
  .query fun t =>
    let rows := o.f (select_random_tokens voucher counter t)
    if rows.length > 0 then .done rows
    else
      match get_tokens with
      | .error e => .raise e
      | .ok tokens =>
        .execute true (.insertVoucher voucher expected_tokens now) fun _ _ =>
        .executemany true (tokens.map (fun x => .insertToken voucher counter x)) <|
        .done tokens

/-- `model.py:518-633` `VoucherStore.insert_unblinded_tokens_for_voucher`. -/
def store_insert_unblinded (now voucher public_key : String) (unblinded_tokens : List String)
    (completed spendable : Bool) : Prog Unit :=
  let voucher_state := if completed then "redeemed" else "pending"
  let token_count_increase := if spendable then unblinded_tokens.length else 0
  let sequestered_count_increase := if spendable then 0 else unblinded_tokens.length
  .execute false (.insertGroup voucher public_key spendable) fun _ group_id =>
  .execute false (.updateRedeemed voucher_state token_count_increase
      sequestered_count_increase now voucher) fun rowcount _ =>
  if rowcount = 0 then .raise .valueError
  else .query fun t =>
    match (t.app.vouchers.filter (·.number == voucher)).map (·.counter) with
    | [] => .raise .typeError
    | new_counter :: _ =>
      .executemany false (unblinded_tokens.map (fun x => .insertUnblinded x group_id)) <|
      .execute false (.deleteTokens voucher (new_counter - 1)) fun _ _ =>
      .done ()

/-- `model.py:635-669` `VoucherStore.mark_voucher_double_spent`; both errors are
`ValueError`s. -/
def store_mark_double_spent (now voucher : String) : Prog Unit :=
  .execute false (.updateDoubleSpent now voucher) fun rowcount _ =>
  if rowcount = 0 then .raise .valueError else .done ()

/-- `model.py:272` `_SQLITE3_INTEGER_MAX`. -/
def SQLITE3_INTEGER_MAX : Int := 2 ^ 63 - 1

/-- The `SELECT` shared by `model.py:697-704` and `model.py:746-753`: stored tokens joined
with their spendable redemption group and not in use. -/
def select_available (t : Tables) : List String :=
  (t.app.unblinded.flatMap fun r =>
    (t.app.groups.filter (fun g => r.group == g.rowid && g.spendable)).map fun _ => r.token).filter
      (· ∉ t.temp.in_use)

/-- `LIMIT ?`: a negative limit is no limit. -/
def sql_limit {α} (count : Int) (l : List α) : List α :=
  if count < 0 then l else l.take count.toNat

/-- `model.py:671-724` `VoucherStore.get_unblinded_tokens`.  (Counts below `-2^63`, which the
`sqlite3` module refuses to bind, are not told apart from other negative counts.) -/
def store_get_unblinded_tokens (o : Order) (count : Int) : Prog (List String) :=
  if count > SQLITE3_INTEGER_MAX then .raise .notEnoughTokens
  else .query fun t =>
    let texts := sql_limit count (o.f (select_available t))
    if (texts.length : Int) < count then .raise .notEnoughTokens
    else .executemany false (texts.map .insertInUse) (.done texts)

/-- `model.py:726-736` `VoucherStore.count_random_tokens`. -/
def store_count_random_tokens : Prog Nat :=
  .query fun t => .done t.app.tokens.length

/-- `model.py:738-757` `VoucherStore.count_unblinded_tokens`. -/
def store_count_unblinded_tokens : Prog Nat :=
  .query fun t => .done (select_available t).length

/-- `model.py:759-802` `VoucherStore.discard_unblinded_tokens`. -/
def store_discard (unblinded_tokens : List String) : Prog Unit :=
  .executemany false (unblinded_tokens.map .insertToDiscard) <|
  .execute false .deleteInUseToDiscard fun _ _ =>
  .execute false .deleteUnblindedToDiscard fun _ _ =>
  .execute false .clearToDiscard fun _ _ =>
  .done ()

/-- `model.py:804-845` `VoucherStore.invalidate_unblinded_tokens`. -/
def store_invalidate (reason : String) (unblinded_tokens : List String) : Prog Unit :=
  .executemany false (unblinded_tokens.map (fun x => .insertInvalid x reason)) <|
  .execute false .deleteInUseInvalid fun _ _ =>
  .execute false .deleteUnblindedInvalid fun _ _ =>
  .done ()

/-- `model.py:847-879` `VoucherStore.reset_unblinded_tokens`. -/
def store_reset (unblinded_tokens : List String) : Prog Unit :=
  .executemany false (unblinded_tokens.map .insertToReset) <|
  .execute false .deleteInUseToReset fun _ _ =>
  .execute false .clearToReset fun _ _ =>
  .done ()

/-! ### Lease maintenance -/

/-- `model.py:925-949` a `LeaseMaintenance` object: only `_rowid` matters. -/
structure LeaseMaintenance where
  rowid : Option Nat := none
  deriving DecidableEq, Repr

/-- `model.py:951-963` `LeaseMaintenance.start`: returns the object's new `_rowid`. -/
def maint_start (now : String) (m : LeaseMaintenance) : Prog LeaseMaintenance :=
  match m.rowid with
  | some _ => .raise (.other 0)
  | none => .execute false (.insertMaint now) fun _ lastrowid => .done ⟨some lastrowid⟩

/-- `model.py:965-978` `LeaseMaintenance.observe`. -/
def maint_observe (pass_value : Int) (sizes : List Int) (m : LeaseMaintenance) : Prog Unit :=
  match required_passesE pass_value sizes with
  | .error e => .raise e
  | .ok count => .execute false (.updateMaintCount count m.rowid) fun _ _ => .done ()

/-- `model.py:980-993` `LeaseMaintenance.finish`. -/
def maint_finish (now : String) (m : LeaseMaintenance) : Prog LeaseMaintenance :=
  .execute false (.updateMaintFinished now m.rowid) fun _ _ => .done {}

/-- `ORDER BY [finished] DESC LIMIT 1`: the first row with the largest text.  Rows that
compare equal come in an order of the database's choosing; the model takes the first. -/
def latest_by_finished : List (String × MaintRow) → Option MaintRow
  | [] => none
  | (f, r) :: rest =>
    match latest_by_finished rest with
    | none => some r
    | some r' => if decide (r'.finished.getD "" > f) then some r' else some r

/-- The rows `WHERE [finished] IS NOT NULL`, with that column's value. -/
def finished_rows (l : List MaintRow) : List (String × MaintRow) :=
  l.filterMap fun r => r.finished.map fun f => (f, r)

/-- `model.py:895-922` `VoucherStore.get_latest_lease_maintenance_activity`, up to parsing
the two timestamps: `(started, count, finished)`. -/
def store_latest_activity : Prog (Option (String × Int × String)) :=
  .query fun t =>
    .done ((latest_by_finished (finished_rows t.app.maint)).map fun r =>
      (r.started, r.count, r.finished.getD ""))

/-! ### Histories -/

/-- One call on the store, or a restart of the process (the connection and its temporary
tables are gone; a transaction cut short is rolled back by SQLite, so a crash
at any point is a restart between two calls). -/
inductive StoreOp where
  | add (o : Order) (now voucher : String) (expected counter : Nat)
      (tokens : Except PyErr (List String))
  | insert (now voucher public_key : String) (tokens : List String) (completed spendable : Bool)
  | doubleSpent (now voucher : String)
  | getTokens (o : Order) (count : Int)
  | discard (tokens : List String)
  | invalidate (reason : String) (tokens : List String)
  | reset (tokens : List String)
  | maintStart (now : String) (m : LeaseMaintenance)
  | maintObserve (pass_value : Int) (sizes : List Int) (m : LeaseMaintenance)
  | maintFinish (now : String) (m : LeaseMaintenance)
  | restart

/-- What a call returned. -/
inductive Answer where
  | tokens (ts : List String)
  | maint (m : LeaseMaintenance)
  | unit
  deriving DecidableEq, Repr

/-- The program run by a call. -/
def StoreOp.prog : StoreOp → Prog Answer
  | .add o now v e c ts => Prog.map .tokens (store_add o now v e c ts)
  | .insert now v pk ts c s => Prog.map (fun _ => .unit) (store_insert_unblinded now v pk ts c s)
  | .doubleSpent now v => Prog.map (fun _ => .unit) (store_mark_double_spent now v)
  | .getTokens o n => Prog.map .tokens (store_get_unblinded_tokens o n)
  | .discard ts => Prog.map (fun _ => .unit) (store_discard ts)
  | .invalidate r ts => Prog.map (fun _ => .unit) (store_invalidate r ts)
  | .reset ts => Prog.map (fun _ => .unit) (store_reset ts)
  | .maintStart now m => Prog.map .maint (maint_start now m)
  | .maintObserve pv sizes m => Prog.map (fun _ => .unit) (maint_observe pv sizes m)
  | .maintFinish now m => Prog.map .maint (maint_finish now m)
  | .restart => .done .unit

/-- One call or restart. -/
def StoreOp.step (op : StoreOp) (t : Tables) : Except PyErr Answer × Tables :=
  match op with
  | .restart => (.ok .unit, { t with temp := {} })
  | op => transact op.prog t

/-- The tables after a history. -/
def runStore : List StoreOp → Tables → Tables
  | [], t => t
  | op :: ops, t => runStore ops (op.step t).2

end ZKAP
