import Verif.Model.Store
import Verif.Model.Decimal

/-!
Replication: `replicate.py` (recording of statements, the replication service) on top of
the store model, the replica directory on the grid, and the replay of a replica by `recover.py`.

The service is a coroutine.  `Activity` says at which `await` it is suspended; between two
awaits it runs without interruption, so a step of the model is one resumption of the coroutine,
one call on the store, or one event on the grid.
-/
namespace ZKAP

/-! ### Recorded changes -/

/-- `replicate.py:175-202` `Change`, a row of `[event-stream]` (`schema.py:217-232,270`): statement
and arguments are one `Stmt`. -/
structure Change where
  sequence : Nat
  stmt : Stmt
  important : Bool
  deriving DecidableEq, Repr

/-- `replicate.py:218-225` `EventStream.highest_sequence`. -/
def highest_sequence (changes : List Change) : Option Nat :=
  match changes with
  | [] => none
  | c :: cs => some (cs.foldl (fun m c => Nat.max m c.sequence) c.sequence)

/-- `replicate.py:800-805` `event_stream_name`. -/
def event_stream_name (high_seq : Nat) : String :=
  String.ofList ("event-stream-".toList ++ decimal high_seq)

/-- `re.match("event-stream-([0-9]*)", fname)` and `int(m.group(1))`, `replicate.py:974-976`: `none`
if there is no match; an error if no digit follows the prefix. -/
def stream_number (fname : String) : Option (Except PyErr Nat) :=
  let pre := "event-stream-".toList
  if pre.isPrefixOf fname.toList then
    let digits := (fname.toList.drop pre.length).takeWhile (fun c => (digit_value c).isSome)
    if digits.isEmpty then some (.error .valueError)
    else
      match read_digits 0 digits with
      | some n => some (.ok n)
      | none => some (.error .valueError)
  else none

/-- `replicate.py:968-979` `is_old_eventstream`. -/
def is_old_eventstream (seqnum : Nat) (fname : String) : Except PyErr Bool :=
  match stream_number fname with
  | none => .ok false
  | some (.error e) => .error e
  | some (.ok seq) => .ok (decide (seq ≤ seqnum))

/-- What `snapshot` (`replicate.py:556-580`) puts in the replica: the contents of the database.
Temporary tables are not part of `iterdump`.  See `Model/Database.lean` for the statements. -/
structure Snapshot where
  app : App
  events : List Change
  seq : Option Nat
  deriving DecidableEq, Repr

/-- The replica directory: the snapshot and the event streams by highest sequence number
(the name is `event_stream_name` of it). -/
structure Replica where
  snapshot : Option Snapshot := none
  streams : Dict Nat (List Change) := []
  deriving DecidableEq, Repr

/-! ### The service -/

/-- `replicate.py:150-172` `ReplicationJob`. -/
inductive Job where
  | startup | event_stream | snapshot | consider_snapshot
  deriving DecidableEq, Repr

/-- Where the replication coroutine is suspended.  `linked` says whether an upload has reached the
replica directory; the coroutine does not know yet. -/
inductive Activity where
  | off                      -- replication is not set up
  | idle                     -- `await self._jobs.get()`, `replicate.py:909`
  | startupListing           -- `should_upload_snapshot`, `replicate.py:930,1097`
  | snapshotUploading (snap : Snapshot) (seqnum : Nat) (linked : Bool)   -- `replicate.py:956`
  | pruneListing (seqnum : Nat)            -- `list_directory` of the pruner, `replicate.py:641`
  | pruning (seqnum : Nat) (names : List Nat)   -- `unlink` of the pruner, `replicate.py:644`
  | eventUploading (events : List Change) (high_seq : Nat) (linked : Bool)  -- `replicate.py:998`
  | considerListing (snap : Snapshot)      -- `_replica_size`, `replicate.py:1013`
  | dead                     -- an exception has ended `_replicate`, `replicate.py:863-877`
  deriving DecidableEq, Repr

/-- Sizes and the snapshot policy, which the model does not compute: the length of a
statement's text, the size of a serialized event stream, and whether the policy
(`_plugin.py:139-147`) asks for a snapshot given the current snapshot and the replica. -/
structure RepEnv where
  stmt_size : Stmt → Nat
  stream_size : List Change → Nat
  should_snapshot : Snapshot → Replica → Bool

/-- A node with its database, its replication service and its replica on the grid. -/
structure Node where
  tables : Tables := {}
  events : List Change := []           -- `[event-stream]`
  seq : Option Nat := none             -- the row of `sqlite_sequence`
  mutations : List Mutation := []      -- `_ReplicationCapableConnection._mutations`
  important : Bool := false            -- `_changes.important`
  size : Nat := 0                      -- `_changes.size`
  jobs : List Job := []                -- `_jobs.pending`
  activity : Activity := .off
  replica : Replica := {}
  deriving DecidableEq, Repr

/-- Numbers given by `AUTOINCREMENT` after `start`. -/
def numbered (start : Nat) (important : Bool) : List Stmt → List Change
  | [] => []
  | s :: ss => ⟨start + 1, s, important⟩ :: numbered (start + 1) important ss

/-- `replicate.py:683-703` `add_events`. -/
def Node.add_events (n : Node) (stmts : List Stmt) (important : Bool) : Node :=
  let start := n.seq.getD 0
  { n with
    events := n.events ++ numbered start important stmts
    seq := if stmts.isEmpty then n.seq else some (start + stmts.length) }

/-- `replicate.py:727-740` `prune_events_to`. -/
def Node.prune_events_to (n : Node) (sequence_number : Nat) : Node :=
  { n with events := n.events.filter (fun e => decide (sequence_number < e.sequence)) }

/-- The database as it would be dumped now. -/
def Node.snapshot (n : Node) : Snapshot := ⟨n.tables.app, n.events, n.seq⟩

/-- The part of a job before its first `await`: `none` if the job ends before that.
`_do_startup` (`replicate.py:921-930`), `_do_one_snapshot_upload` (`936-956`), `_do_one_event_upload`
(`984-998`), `_do_consider_snapshot` (`1007-1013`). -/
def Node.begin (n : Node) : Job → Option Activity
  | .startup => some .startupListing
  | .snapshot => some (.snapshotUploading n.snapshot (n.seq.getD 1) false)
  | .event_stream =>
    match highest_sequence n.events with
    | none => none
    | some high => some (.eventUploading n.events high false)
  | .consider_snapshot => some (.considerListing n.snapshot)

/-- `wait_for_uploads`, `replicate.py:903-919`: take jobs until one suspends. -/
def Node.run_jobs (n : Node) : List Job → Node
  | [] => { n with jobs := [], activity := .idle }
  | j :: js =>
    match n.begin j with
    | some a => { n with jobs := js, activity := a }
    | none => n.run_jobs js

/-- The end of a job: the loop goes on. -/
def Node.next (n : Node) : Node := n.run_jobs n.jobs

/-- `replicate.py:879-885` `queue_job`.  If the coroutine waits for a job it is resumed at once. -/
def Node.queue_job (n : Node) (job : Job) : Node :=
  if job ∈ n.jobs then n
  else if n.activity = .idle then n.run_jobs [job]
  else { n with jobs := n.jobs ++ [job] }

/-- `replicate.py:1100-1105` `should_upload_eventstream`. -/
def should_upload_eventstream (important : Bool) (size : Nat) : Bool := important || decide (570000 ≤ size)

/-- `replicate.py:1051-1091` `observed_event` and `_complete_upload`, called by `__exit__`
(`replicate.py:441-474`) with the recorded mutations, if there are any. -/
def Node.signal (env : RepEnv) (n : Node) (mutations : List Mutation) : Node :=
  if mutations.isEmpty then n
  else
    let stmts := mutations.flatMap (·.stmts)
    let any_important := mutations.any (·.important)
    let n := n.add_events stmts any_important
    let important := n.important || any_important
    let size := n.size + (stmts.map env.stmt_size).sum
    let n := { n with important := important, size := size }
    if should_upload_eventstream important size then
      { n.queue_job .event_stream with important := false, size := 0 }
    else n

/-- A call on the store, through `with_cursor` (`model.py:240-263`) and the connection wrapper.  When
replication is off nothing is recorded.  A call that raises is rolled back; what it recorded stays in
`_mutations`.  (`.restart` as a call is a call that does nothing, like `list`.) -/
def Node.call (env : RepEnv) (n : Node) (op : StoreOp) : Except PyErr Answer × Node :=
  let (recorded, result) := op.prog.run n.tables
  let mutations := if n.activity = .off then n.mutations else n.mutations ++ recorded
  match result with
  | .error e => (.error e, { n with mutations := mutations })
  | .ok (a, tables) => (.ok a, ({ n with tables := tables, mutations := [] }).signal env mutations)

/-- `startService`, `replicate.py:842-861`: `AccumulatedChanges.from_connection` and the startup job. -/
def Node.start_service (env : RepEnv) (n : Node) : Node :=
  { n with
    important := n.events.any (·.important)
    size := env.stream_size n.events
    jobs := []
    activity := .startupListing }

/-- The process ends, at any point, and the node is started again: temporary tables and all memory
are gone.  The database has the newest schema, so opening it changes nothing persistent. -/
def Node.restart (env : RepEnv) (n : Node) : Node :=
  let n := { n with tables := { n.tables with temp := {} }, mutations := [] }
  if n.activity = .off then n else n.start_service env

/-- The process ends after a call has committed its transaction and before the transaction that records
its statements is committed (`replicate.py:447-455` are two transactions); then it is started again. -/
def Node.crashed_call (env : RepEnv) (n : Node) (op : StoreOp) : Node :=
  match (op.prog.run n.tables).2 with
  | .error _ => n.restart env
  | .ok (_, tables) => ({ n with tables := tables }).restart env

/-- The grid answers a directory listing. -/
def Node.listed (env : RepEnv) (n : Node) : Node :=
  match n.activity with
  | .startupListing =>
    -- `_do_startup`, `replicate.py:930-933`
    let n :=
      if n.replica.snapshot = none then n.queue_job .snapshot
      else if should_upload_eventstream n.important n.size then n.queue_job .event_stream
      else n
    n.next
  | .pruneListing seqnum =>
    -- the pruner, `replicate.py:641-644`
    match (n.replica.streams.map (·.1)).filter (fun k => decide (k ≤ seqnum)) with
    | [] => n.next
    | names => { n with activity := .pruning seqnum names }
  | .considerListing snap =>
    -- `_do_consider_snapshot`, `replicate.py:1012-1015`
    let n := if env.should_snapshot snap n.replica then n.queue_job .snapshot else n
    n.next
  | _ => n

/-- An upload reaches the replica directory (`tahoe_lafs_uploader`, `replicate.py:583-598`). -/
def Node.linked (n : Node) : Node :=
  match n.activity with
  | .snapshotUploading snap seqnum false =>
    { n with
      replica := { n.replica with snapshot := some snap }
      activity := .snapshotUploading snap seqnum true }
  | .eventUploading events high false =>
    { n with
      replica := { n.replica with streams := n.replica.streams.set high events }
      activity := .eventUploading events high true }
  | _ => n

/-- The coroutine learns that its upload is complete. -/
def Node.uploaded (n : Node) : Node :=
  match n.activity with
  | .snapshotUploading _ seqnum true =>
    { n.prune_events_to seqnum with activity := .pruneListing seqnum }
  | .eventUploading _ high true =>
    ((n.prune_events_to high).queue_job .consider_snapshot).next
  | _ => n

/-- The next old event stream is unlinked. -/
def Node.unlinked (n : Node) : Node :=
  match n.activity with
  | .pruning seqnum (k :: ks) =>
    let n := { n with replica := { n.replica with
      streams := n.replica.streams.filter (fun kv => kv.1 != k) } }
    match ks with
    | [] => n.next
    | ks => { n with activity := .pruning seqnum ks }
  | _ => n

/-- The awaited operation raises: `_replicate` logs it and ends (`replicate.py:863-877`). -/
def Node.failed (n : Node) : Node :=
  match n.activity with
  | .off | .idle | .dead => n
  | _ => { n with activity := .dead }

/-- What can happen. -/
inductive RStep where
  | enable                 -- replication is set up
  | call (op : StoreOp)
  | restart                -- also a crash at any other point
  | crashedCall (op : StoreOp)
  | listed
  | linked
  | uploaded
  | unlinked
  | failed

def Node.step (env : RepEnv) (n : Node) : RStep → Node
  | .enable => if n.activity = .off then n.start_service env else n
  | .call op => (n.call env op).2
  | .restart => n.restart env
  | .crashedCall op => n.crashed_call env op
  | .listed => n.listed env
  | .linked => n.linked
  | .uploaded => n.uploaded
  | .unlinked => n.unlinked
  | .failed => n.failed

def Node.run (env : RepEnv) (n : Node) (steps : List RStep) : Node := steps.foldl (Node.step env) n

/-! ### Recovery -/

/-- A statement executed while foreign keys are checked at the end of the transaction
(`PRAGMA defer_foreign_keys = ON`, `recover.py:293`): only `insertToken` has one to check. -/
def exec_deferred (s : Stmt) (t : Tables) : Except PyErr Tables :=
  match s with
  | .insertToken voucher counter text =>
    if text ∈ t.app.tokens.map (·.text) then .error .integrityError
    else .ok { t with app := { t.app with tokens := t.app.tokens ++
                [{ text := text, voucher := voucher, counter := counter }] } }
  | s =>
    match exec s t with
    | .error e => .error e
    | .ok x => .ok x.tables

/-- `recover.py:257-263` `recover_event_stream`: until the first failure. -/
def recover_event_stream : List Change → Tables → Except PyErr Tables
  | [], t => .ok t
  | c :: cs, t =>
    match exec_deferred c.stmt t with
    | .error e => .error e
    | .ok t => recover_event_stream cs t

/-- Insertion into a list sorted by key, after equal keys. -/
def insert_stream (s : List Change) : List (List Change) → List (List Change)
  | [] => [s]
  | r :: rs =>
    if (highest_sequence s).getD 0 < (highest_sequence r).getD 0 then s :: r :: rs
    else r :: insert_stream s rs

/-- `recover.py:231-243` `sorted_event_streams`: streams with changes, by highest sequence number;
`sorted` is stable. -/
def sorted_event_streams (streams : List (List Change)) : List (List Change) :=
  (streams.filter (fun s => !s.isEmpty)).foldl (fun acc s => insert_stream s acc) []

/-- All event streams in turn, `recover.py:227-228`. -/
def recover_event_streams : List (List Change) → Tables → Except PyErr Tables
  | [], t => .ok t
  | s :: ss, t =>
    match recover_event_stream s t with
    | .error e => .error e
    | .ok t => recover_event_streams ss t

/-- The foreign key of `[tokens]`, checked when the transaction is committed. -/
def foreign_keys_ok (a : App) : Bool := a.tokens.all (fun r => r.voucher ∈ a.vouchers.map (·.number))

/-- `recover.py:219-228` `recover` in a fresh process with an empty store, followed by the
commit: the snapshot replaces the contents of the database, the event streams are replayed. -/
def recover (snapshot : Option Snapshot) (streams : List (List Change)) : Except PyErr Tables :=
  match snapshot with
  | none => .error .keyError      -- the downloader finds no snapshot, `recover.py:339`
  | some snap =>
    match recover_event_streams (sorted_event_streams streams) { app := snap.app } with
    | .error e => .error e
    | .ok t => if foreign_keys_ok t.app then .ok t else .error .integrityError

end ZKAP
