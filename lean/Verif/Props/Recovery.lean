import Verif.Lemmas.Recovery
import Verif.Lemmas.ReplayDatabase
import Verif.Props.Schema

/-!
C55–C58 and C60: snapshots and recovery from a replica.
-/
namespace ZKAP
open Spec

/-! ### C60: a snapshot restores the database it was taken from -/

/-- C60: executing a dump of a database, with the tables in any order, in a transaction on a database
whose rows do not refer to each other gives the same tables, rows and numbers, and can be committed. -/
theorem C60_restores (utc : String → Option String) (src target : Database) (statements : List Sql)
    (c : Conn Database) (hw : WellFormed src) (hd : Droppable target) (hdump : IsDump src statements)
    (hc : c.working = some target) :
    ∃ c' db', c.recover_snapshot utc (statements.map some) = (c', .ok ()) ∧
      c'.exit Database.foreignOk (.ok ()) = (⟨db', none, false⟩, .ok ()) ∧ SameContents src db' := by
  obtain ⟨before, after, hp, rfl⟩ := hdump
  obtain ⟨d0, w, b⟩ := c
  simp only at hc
  subst hc
  obtain ⟨db', h1, h2, h3⟩ := recover_dump utc src d0 target before after b hw hd hp
  have hsame : SameContents src db' := ⟨by rw [h2]; exact hp, fun n => by
    rw [h2]; exact perm_find hp hw.names n, h3⟩
  refine ⟨_, db', h1, ?_, hsame⟩
  simp only [Conn.exit, Conn.commit, wellFormed_foreignOk hw hsame, Bool.or_true, if_true]

/-- C60: a node whose store has no vouchers and that downloads a dump of a database has the contents
of that database afterwards, and reports success. -/
theorem C60_recovered (utc : String → Option String) (src db : Database) (statements : List Sql)
    (ds : List RecoveryStages) (hsrc : WellFormed src) (hv : OfVersion currentVersion db)
    (hw : WellFormed db) (he : NoVouchers db) (hdump : IsDump src statements)
    (hds : ∀ s ∈ ds, downloadStage s) :
    let n := (startedNode db).run utc (.request :: ds.map .progress ++
      [.downloaded (.ok (snapshotOnly statements))])
    SameContents src n.conn.committed ∧ n.conn.working = none ∧
      n.reported = .started :: ds ++ [.succeeded] := by
  intro n
  obtain ⟨c', db', h1, h2, h3⟩ := C60_restores utc src db statements ⟨db, some db, false⟩ hsrc
    (droppable_of_empty hv hw he) hdump rfl
  have hrun : n = (RecoveringNode.mk ⟨db, some db, false⟩ true
      ((.started :: ds).getLast (List.cons_ne_nil _ _)) true ([.started] ++ ds)).downloaded utc
        (.ok (snapshotOnly statements)) := by
    show (startedNode db).run utc _ = _
    rw [List.cons_append, RecoveringNode.run, recovering_append]
    simp only [RecoveringNode.step, request_started hv he]
    rw [run_progress utc ds _ rfl hds]
    rfl
  have hrec : Conn.recover utc ⟨db, some db, false⟩ (snapshotOnly statements) = (c', .ok ()) := by
    simp only [Conn.recover, snapshotOnly, h1, load_event_streams]
    rfl
  obtain ⟨k1, k2, k3, k4, k5⟩ := downloaded_ok utc
    (n := RecoveringNode.mk ⟨db, some db, false⟩ true
      ((.started :: ds).getLast (List.cons_ne_nil _ _)) true ([.started] ++ ds)) rfl _ hrec h2
  rw [hrun]
  refine ⟨?_, ?_, ?_⟩
  · rw [k1]; exact h3
  · rw [k1]
  · rw [k4]; rfl

/-- C51: event streams that do not overlap are replayed in the order of their numbers, in whatever order
they are downloaded.  `pieces` are the streams in the order in which they were recorded. -/
theorem C51_replayed_in_order (pieces files : List (List (Int × Sql))) (hf : files.Perm pieces)
    (hi : pieces.flatten.Pairwise fun a b => a.1 < b.1)
    (hs : ∀ c ∈ pieces.flatten, storeStatement c.2 = true) :
    (sort_event_streams files).flatMap event_statements = pieces.flatten.map Prod.snd := by
  rw [flatMap_event_statements, sort_event_streams_eq hf hi]
  intro c hc
  rw [sort_event_streams_eq hf hi] at hc
  exact hs c hc

/-- C60: a node that downloads a dump of a database and the event streams with the statements that were
executed later has the contents of the later database afterwards, whatever the order of the tables in
the dump and of the streams in the directory.  (Statements for temporary tables are left out, see C53.
Every database with an event stream has a `sqlite_sequence`.) -/
theorem C60_with_events (utc : String → Option String) (src later db : Database) (statements : List Sql)
    (pieces files : List (List (Int × Sql))) (ds : List RecoveryStages) (hsrc : WellFormed src)
    (hq : src.sequence.isSome) (hv : OfVersion currentVersion db)
    (hw : WellFormed db) (he : NoVouchers db) (hdump : IsDump src statements)
    (hf : files.Perm pieces) (hi : pieces.flatten.Pairwise fun a b => a.1 < b.1)
    (hs : ∀ c ∈ pieces.flatten, storeStatement c.2 = true)
    (hlater : Sql.execAll utc false src (pieces.flatten.map Prod.snd) = .ok later)
    (hds : ∀ s ∈ ds, downloadStage s) :
    let n := (startedNode db).run utc (.request :: ds.map .progress ++
      [.downloaded (.ok ⟨.ok (statements.map some), files.map .ok⟩)])
    SameContents later n.conn.committed ∧ n.conn.working = none ∧
      n.reported = .started :: ds ++ [.succeeded] := by
  intro n
  obtain ⟨before, after, hp, rfl⟩ := hdump
  obtain ⟨db', h1, h2, h3⟩ := recover_replica utc src db db later before after false pieces files hsrc hq
    (droppable_of_empty hv hw he) hp hf hi hs hlater
  have hsame : SameContents later db' := ⟨h2.tables, fun n => h2.find n, fun _ => h2.sequence⟩
  have hex : (⟨db, some db', true⟩ : Conn Database).exit Database.foreignOk (.ok () : Except PyErr Unit) =
      (⟨db', none, false⟩, .ok ()) := by
    simp only [Conn.exit, Conn.commit, wellFormed_foreignOk h3 hsame, Bool.or_true, if_true]
  have hrun : n = (RecoveringNode.mk ⟨db, some db, false⟩ true
      ((.started :: ds).getLast (List.cons_ne_nil _ _)) true ([.started] ++ ds)).downloaded utc
        (.ok ⟨.ok ((iterdump before src.sequence after).map some), files.map .ok⟩) := by
    show (startedNode db).run utc _ = _
    rw [List.cons_append, RecoveringNode.run, recovering_append]
    simp only [RecoveringNode.step, request_started hv he]
    rw [run_progress utc ds _ rfl hds]
    rfl
  obtain ⟨k1, k2, k3, k4, k5⟩ := downloaded_ok utc
    (n := RecoveringNode.mk ⟨db, some db, false⟩ true
      ((.started :: ds).getLast (List.cons_ne_nil _ _)) true ([.started] ++ ds)) rfl _ h1 hex
  rw [hrun]
  refine ⟨?_, ?_, ?_⟩
  · rw [k1]; exact hsame
  · rw [k1]
  · rw [k4]; rfl

theorem newDatabase_ok : OfVersion currentVersion newDatabase :=
  ⟨by decide +kernel, by decide +kernel, by decide +kernel⟩

theorem newDatabase_wellFormed : WellFormed newDatabase :=
  wellFormed_new newDatabase_ok (by decide +kernel) rfl

/-- C60: every database that was made from an empty file by methods of the store is as SQLite keeps
databases, so that the theorems above apply to it. -/
theorem C60_reachable (utc : String → Option String) (calls : List (List Sql))
    (hcalls : ∀ ss ∈ calls, ∀ s ∈ ss, storeStatement s = true) :
    WellFormed ((startedNode (initialize_database utc upgrades {}).1).run utc
      (calls.map .call)).conn.committed := by
  have h0 : initialize_database utc upgrades {} = (newDatabase, .ok ()) :=
    initialize_eq utc upgrades {} _ newDatabase 0 rfl rfl (rfl : Sql.execAll utc false
      { tables := [{ schema := { name := "version", columns := [{ name := "version" }] }, rows := [[.int 0]] }] }
      (get_schema_upgrades upgrades 0) = .ok newDatabase)
  rw [h0]
  exact WellFormed.calls calls hcalls newDatabase_wellFormed

/-- `add` of a voucher with two random tokens (`model.py:414-497`). -/
def exAddVoucher : List Sql := [
  .insertOrIgnore "vouchers" [("number", .text "v"), ("expected-tokens", .int 2),
    ("created", .text "2022-01-02 03:04:05+00:00")],
  .insertNamed "tokens" [("voucher", .text "v"), ("counter", .int 0), ("text", .text "r1")],
  .insertNamed "tokens" [("voucher", .text "v"), ("counter", .int 0), ("text", .text "r2")]]

/-- `insert_unblinded_tokens_for_voucher` that completes this voucher (`model.py:519-629`). -/
def exRedeem : List Sql := [
  .insertNamed "redemption-groups" [("voucher", .text "v"), ("public-key", .text "pk"), ("spendable", .int 1)],
  .update "vouchers" [("state", .text "redeemed"), ("token-count", .int 2), ("sequestered-count", .int 0),
    ("finished", .text "2022-01-02 03:04:06+00:00"), ("counter", .int 1)] [("number", .text "v")],
  .insertNamed "unblinded-tokens" [("token", .text "u1"), ("redemption-group", .int 1)],
  .insertNamed "unblinded-tokens" [("token", .text "u2"), ("redemption-group", .int 1)],
  .delete "tokens" [("voucher", .text "v"), ("counter", .int 0)]]

/-- An event that replication records (`replicate.py:688-716`). -/
def exEvent : List Sql := [
  .insertNamed "event-stream" [("statement", .text "SELECT 1"), ("serialized_arguments", .blob [0x80]),
    ("important", .int 0)]]

/-- A store with a voucher, its random tokens and two events. -/
def exSource : Database :=
  ((startedNode newDatabase).run exUtc [.call exAddVoucher, .call exEvent, .call exEvent]).conn.committed

theorem exSource_wellFormed : WellFormed exSource :=
  WellFormed.calls [exAddVoucher, exEvent, exEvent] (by decide +kernel) newDatabase_wellFormed

/-- A dump of this store with the tables in reverse order and `sqlite_sequence` in between. -/
def exDump : List Sql :=
  iterdump (exSource.tables.drop 4).reverse exSource.sequence (exSource.tables.take 4).reverse

theorem exDump_ok : IsDump exSource exDump := by
  refine ⟨_, _, ?_, rfl⟩
  rw [← List.reverse_append, List.take_append_drop]
  exact List.reverse_perm _

example : exSource.sequence = some [("event-stream", 2)] ∧
    columnValues exSource "tokens" "text" = some [.text "r1", .text "r2"] := by decide +kernel

example : let n := (startedNode newDatabase).run exUtc [.request, .progress .inspect_replica,
      .progress .downloading, .downloaded (.ok (snapshotOnly exDump))]
    SameContents exSource n.conn.committed ∧ n.reported = [.started, .inspect_replica, .downloading, .succeeded] :=
  let h := C60_recovered exUtc exSource newDatabase exDump [.inspect_replica, .downloading] exSource_wellFormed
    newDatabase_ok newDatabase_wellFormed (by unfold NoVouchers; decide +kernel) exDump_ok
    (by unfold downloadStage; decide)
  ⟨h.1, h.2.2⟩

/-- Two event streams recorded after `exSource`, listed in the wrong order. -/
def exFiles : List (List (Int × Sql)) := [
  [(5, .delete "tokens" [("voucher", .text "v")])],
  [],
  [(3, .update "vouchers" [("state", .text "redeemed")] [("number", .text "v")]),
    (4, .insertNamed "invalid-unblinded-tokens" [("token", .text "t"), ("reason", .text "x")])]]

example : let n := (startedNode newDatabase).run exUtc [.request,
      .downloaded (.ok ⟨.ok (exDump.map some), exFiles.map .ok⟩)]
    ∃ later, Sql.execAll exUtc false exSource ((exFiles.reverse.flatten).map Prod.snd) = .ok later ∧
      SameContents later n.conn.committed ∧ n.reported = [.started, .succeeded] := by
  have hx : (Sql.execAll exUtc false exSource ((exFiles.reverse.flatten).map Prod.snd)).isOk = true := by
    decide +kernel
  cases hl : Sql.execAll exUtc false exSource ((exFiles.reverse.flatten).map Prod.snd) with
  | error e => rw [hl] at hx; exact nomatch hx
  | ok later =>
    have h := C60_with_events exUtc exSource later newDatabase exDump exFiles.reverse exFiles []
      exSource_wellFormed (by decide +kernel) newDatabase_ok newDatabase_wellFormed
      (by unfold NoVouchers; decide +kernel) exDump_ok (List.reverse_perm _).symm (by decide +kernel)
      (by decide +kernel) hl (fun s h => nomatch h)
    exact ⟨later, rfl, h.1, h.2.2⟩

/-! ### C55: recovery only runs on an empty database -/

/-- C55: if the store of a node holds a voucher when recovery is requested for the first time, the
database stays as it is, whatever is downloaded, and the recovery is reported as failed. -/
theorem C55_refused (utc : String → Option String) (db : Database) (history : List RecoveryStep)
    (steps : List RecoveryStep) (v : Value)
    (hreq : ((startedNode db).run utc history).requested = false)
    (hv : v ∈ voucherNumbers ((startedNode db).run utc history).conn.committed)
    (hsteps : ∀ ss, .call ss ∉ steps) :
    let before := (startedNode db).run utc history
    let after := before.run utc (.request :: steps)
    after.conn.committed = before.conn.committed ∧ after.conn.working = none ∧
      after.reported = [.import_failed] := by
  intro before after
  have hn : NodeOk before := (NodeOk.started db).run utc history
  obtain ⟨t, ht, hne⟩ := numbers_rows hv
  have hrq := request_refused hn hreq ht hne
  obtain ⟨hw, _, hrep⟩ := hn.requested hreq
  have hafter : after = { before with conn := ⟨before.conn.committed, none, false⟩, requested := true }.set_state .import_failed := by
    show before.run utc (.request :: steps) = _
    rw [RecoveringNode.run]
    simp only [RecoveringNode.step]
    rw [show before.request = _ from hrq]
    exact run_ended utc steps _ hsteps rfl hw
  rw [hafter]
  refine ⟨rfl, rfl, ?_⟩
  show before.reported ++ [.import_failed] = _
  rw [show before.reported = [] from hrep]
  rfl

example : let before := (startedNode newDatabase).run exUtc [.call exAddVoucher]
    (before.run exUtc [.request, .downloaded (.ok (snapshotOnly []))]).conn.committed = before.conn.committed :=
  (C55_refused exUtc newDatabase [.call exAddVoucher] [.downloaded (.ok (snapshotOnly []))] (.text "v")
    (by decide +kernel) (by decide +kernel) (by intro ss h; cases h; contradiction)).1

/-- C55: only one recovery is ever started, whatever happens: at most one report says so. -/
theorem C55_once (utc : String → Option String) (db : Database) (steps : List RecoveryStep) :
    ((startedNode db).run utc steps).reported.count .started ≤ 1 := by
  have hds : ∀ ds : List RecoveryStages, (∀ s ∈ ds, downloadStage s) → ds.count .started = 0 := by
    intro ds h
    rw [List.count_eq_zero]
    intro hm
    rcases h _ hm with h | h <;> exact nomatch h
  rcases Reporting.run utc steps (Reporting.started db) (NodeOk.started db) with
    (h | h | ⟨ds, h1, h | ⟨f, hf, h⟩⟩) | ⟨ds, h1, f, hf, h⟩
  · rw [h]; decide
  · rw [h]; decide
  · rw [h, List.count_cons, hds ds h1]; decide
  · rw [h]
    simp only [List.cons_append, List.count_cons, List.count_append, hds ds h1]
    rcases hf with rfl | rfl | rfl <;> decide
  · rw [h]
    simp only [List.cons_append, List.count_cons, List.count_append, hds ds h1]
    rcases hf with rfl | rfl <;> decide

example : ((startedNode newDatabase).run exUtc [.request, .request, .downloaded (.error .valueError), .request]).reported =
    [.started, .download_failed] := by decide +kernel

/-! ### C56: recovery never discards vouchers -/

/-- C56: a voucher that is in the store after a method of the store returned stays there, whatever
happens with recovery, as long as no method of the store removes it. -/
def C56_statement : Prop :=
  ∀ (utc : String → Option String) (db : Database) (history steps : List RecoveryStep)
    (statements : List Sql) (v : Value), OfVersion currentVersion db → WellFormed db →
    CallsKeepVouchers (history ++ .call statements :: steps) →
    let n := (startedNode db).run utc history
    (n.step utc (.call statements)).2 = .ok () →
    v ∈ voucherNumbers (n.step utc (.call statements)).1.conn.committed →
    v ∈ voucherNumbers ((n.step utc (.call statements)).1.run utc steps).conn.committed

/-- The store is asked for the list of vouchers while a recovery downloads: this raises, but also ends
the transaction of the recovery. -/
def exInterrupted : List RecoveryStep := [.request, .progress .inspect_replica, .call []]

/-- C56 does not hold: a voucher that is added and redeemed after this is lost when the download
completes. -/
theorem C56_fails : ¬ C56_statement := by
  intro h
  have := h exUtc newDatabase (exInterrupted ++ [.call exAddVoucher])
    [.downloaded (.ok (snapshotOnly (iterdump newDatabase.tables newDatabase.sequence [])))] exRedeem
    (.text "v") newDatabase_ok newDatabase_wellFormed
    (by
      intro ss hss
      simp only [exInterrupted, List.cons_append, List.nil_append, List.mem_cons, List.not_mem_nil, or_false,
        reduceCtorEq, false_or, RecoveryStep.call.injEq] at hss
      rcases hss with rfl | rfl | rfl <;> decide +kernel)
    (by decide +kernel) (by decide +kernel)
  revert this
  decide +kernel

/-- A voucher whose random tokens are still there is not lost in this situation, but the table with
the version is, and the database cannot be opened again. -/
theorem C56_broken : let n := (startedNode newDatabase).run exUtc (exInterrupted ++ [.call exAddVoucher,
      .downloaded (.ok (snapshotOnly (iterdump newDatabase.tables newDatabase.sequence [])))])
    n.stage = .import_failed ∧ n.conn.committed.find "version" = none ∧
      (initialize_database exUtc upgrades n.conn.committed).2 = .error .operationalError := by
  decide +kernel

/-- C56: a method of the store that is called while a recovery holds its transaction raises and
changes nothing.  After this the transaction of the recovery is gone. -/
theorem C56_first_call (utc : String → Option String) (n : RecoveringNode) (statements : List Sql)
    (d : Database) (hd : n.conn.working = some d) :
    (n.step utc (.call statements)).2 = .error .operationalError ∧
      (n.step utc (.call statements)).1.conn.committed = n.conn.committed ∧
      (n.step utc (.call statements)).1.conn.working = none := by
  have h := call_open utc n.conn statements d hd
  simp only [RecoveringNode.step, h]
  exact ⟨trivial, rfl, rfl⟩

/-- C56, if no method of the store returns while a recovery waits for its download.  Missing: methods
that do return, which is possible once another one has been called, and where it is false. -/
theorem C56_partial (utc : String → Option String) (db : Database) (history steps : List RecoveryStep)
    (statements : List Sql) (v : Value)
    (hk : CallsKeepVouchers (history ++ .call statements :: steps))
    (hq : NoCallSucceedsWhileWaiting utc (startedNode db) (history ++ .call statements :: steps)) :
    let n := (startedNode db).run utc history
    v ∈ voucherNumbers (n.step utc (.call statements)).1.conn.committed →
    v ∈ voucherNumbers ((n.step utc (.call statements)).1.run utc steps).conn.committed := by
  intro n hv
  obtain ⟨hq1, hq2, hq3⟩ := quiet_append utc history _ hq
  have hn : NodeOk n := (NodeOk.started db).run utc history
  have he : WaitingEmpty n := waitingEmpty_run utc history (NodeOk.started db) (fun h => nomatch h) hq1
  exact numbers_run utc steps (hn.step utc _) (he.step hn _ hq2)
    (fun ss hss => hk ss (by simp [hss])) hq3 hv

example : Value.text "v" ∈ voucherNumbers ((startedNode newDatabase).run exUtc
    [.call exAddVoucher, .call exRedeem, .request, .progress .downloading, .downloaded (.ok (snapshotOnly []))]).conn.committed := by
  refine C56_partial exUtc newDatabase [] [.call exRedeem, .request, .progress .downloading,
    .downloaded (.ok (snapshotOnly []))] exAddVoucher (.text "v") ?_ ?_ (by decide +kernel)
  · intro ss hss
    simp only [List.nil_append, List.mem_cons, List.not_mem_nil, or_false, reduceCtorEq,
      RecoveryStep.call.injEq] at hss
    rcases hss with rfl | rfl <;> decide +kernel
  · refine ⟨fun h => (nomatch h), ?_, fun _ _ h => (nomatch h), fun _ _ h => (nomatch h), fun _ _ h => (nomatch h), trivial⟩
    intro h
    exact absurd h (by decide +kernel)

/-! ### C57: a failed recovery leaves the database unchanged -/

/-- C57: if recovery of a store without vouchers is reported as failed, the database is as before. -/
def C57_statement : Prop :=
  ∀ (utc : String → Option String) (db : Database) (ds : List RecoveryStages) (r : Except PyErr ReplicaData),
    OfVersion currentVersion db → WellFormed db → NoVouchers db → (∀ s ∈ ds, downloadStage s) →
    let n := (startedNode db).run utc (.request :: ds.map .progress ++ [.downloaded r])
    (n.stage = .download_failed ∨ n.stage = .import_failed) → n.conn.committed = db

/-- The node that waits for a download. -/
theorem run_waiting (utc) {db : Database} (hv : OfVersion currentVersion db) (he : NoVouchers db)
    {ds : List RecoveryStages} (hds : ∀ s ∈ ds, downloadStage s) (r) :
    (startedNode db).run utc (.request :: ds.map .progress ++ [.downloaded r]) =
      (RecoveringNode.mk ⟨db, some db, false⟩ true
        ((.started :: ds).getLast (List.cons_ne_nil _ _)) true ([.started] ++ ds)).downloaded utc r := by
  rw [List.cons_append, RecoveringNode.run, recovering_append]
  simp only [RecoveringNode.step, request_started hv he]
  rw [run_progress utc ds _ rfl hds]
  rfl

/-- C57 does not hold: if a snapshot holds something that is not a statement, all tables are dropped
and this is committed.  This is so for every store. -/
theorem C57_emptied (utc : String → Option String) (db : Database) (ds : List RecoveryStages)
    (ss : List (Option Sql)) (streams) (hv : OfVersion currentVersion db) (hw : WellFormed db)
    (he : NoVouchers db) (hds : ∀ s ∈ ds, downloadStage s) :
    let n := (startedNode db).run utc (.request :: ds.map .progress ++
      [.downloaded (.ok ⟨.ok (none :: ss), streams⟩)])
    n.stage = .import_failed ∧ n.conn.committed.tables = [] := by
  intro n
  have hrun : n = _ := run_waiting utc hv he hds _
  obtain ⟨sq, h0⟩ := drop_all utc false db.tables db.sequence hw.names (droppable_of_empty hv hw he).rows
  have hrec : Conn.recover utc ⟨db, some db, false⟩ ⟨.ok (none :: ss), streams⟩ =
      (⟨db, some ⟨[], sq⟩, true⟩, .error .valueError) := by
    have e0 := executeAll_working utc _ db db _ false h0
    simp only [Conn.recover, Conn.recover_snapshot, Conn.current, Option.getD_some, e0, Conn.defer,
      Conn.create_tables]
  obtain ⟨k1, _, _, _, k5⟩ := downloaded_ok utc
    (n := RecoveringNode.mk ⟨db, some db, false⟩ true
      ((.started :: ds).getLast (List.cons_ne_nil _ _)) true ([.started] ++ ds)) rfl _ hrec
      (show _ = (⟨⟨[], sq⟩, none, false⟩, .ok ()) from rfl)
  rw [hrun, k1, k5]
  exact ⟨rfl, rfl⟩

/-- C57 does not hold. -/
theorem C57_fails : ¬ C57_statement := by
  intro h
  have hno : NoVouchers newDatabase := by unfold NoVouchers; decide +kernel
  have h1 := C57_emptied exUtc newDatabase [] [] [] newDatabase_ok newDatabase_wellFormed hno
    (fun _ h => nomatch h)
  have h2 := h exUtc newDatabase [] (.ok ⟨.ok [none], []⟩) newDatabase_ok newDatabase_wellFormed hno
    (fun _ h => nomatch h) (Or.inr h1.1)
  have h3 := h1.2
  rw [h2] at h3
  exact nomatch h3

/-- After this the store is unusable until the node is restarted: even adding a voucher raises. -/
example : ((startedNode newDatabase).run exUtc [.request, .downloaded (.ok ⟨.ok [none], []⟩)]
    |>.step exUtc (.call exAddVoucher)).2 = .error .operationalError := by decide +kernel

/-- C57, for downloads that fail, snapshots that cannot be decoded, and imports that violate foreign
keys on commit.  Missing: imports that fail in between, where it is false. -/
theorem C57_partial (utc : String → Option String) (db : Database) (ds : List RecoveryStages)
    (r : Except PyErr ReplicaData) (hv : OfVersion currentVersion db) (he : NoVouchers db)
    (hds : ∀ s ∈ ds, downloadStage s)
    (hr : r.isOk = false ∨ (∃ replica, r = .ok replica ∧ replica.snapshot.isOk = false) ∨
      (∃ replica c, r = .ok replica ∧
        Conn.recover utc ⟨db, some db, false⟩ replica = (c, .ok ()) ∧ c.commit Database.foreignOk = .error .integrityError)) :
    let n := (startedNode db).run utc (.request :: ds.map .progress ++ [.downloaded r])
    n.conn.committed = db ∧ n.conn.working = none ∧ (n.stage = .download_failed ∨ n.stage = .import_failed) := by
  intro n
  have hrun : n = _ := run_waiting utc hv he hds r
  have hok : NodeOk (RecoveringNode.mk ⟨db, some db, false⟩ true
        ((.started :: ds).getLast (List.cons_ne_nil _ _)) true ([.started] ++ ds)) :=
    ⟨Or.inr ⟨rfl, rfl, rfl⟩, fun h => (nomatch h), fun _ => ⟨ds, hds, rfl⟩⟩
  rw [hrun]
  rcases hr with hr | ⟨replica, rfl, hr⟩ | ⟨replica, c, rfl, hr, hc⟩
  · cases r with
    | ok _ => exact nomatch hr
    | error e =>
      obtain ⟨h1, h2, _, _, _, h6⟩ := downloaded_error utc hok rfl e
      exact ⟨h2, h1, Or.inl h6⟩
  · have hrec : ∃ e, Conn.recover utc ⟨db, some db, false⟩ replica = (⟨db, some db, false⟩, .error e) := by
      cases hs : replica.snapshot with
      | ok _ => rw [hs] at hr; exact nomatch hr
      | error e => exact ⟨e, by simp only [Conn.recover, hs]⟩
    obtain ⟨e, hrec⟩ := hrec
    obtain ⟨k1, _, _, _, k5⟩ := downloaded_ok utc (n := RecoveringNode.mk ⟨db, some db, false⟩ true
        ((.started :: ds).getLast (List.cons_ne_nil _ _)) true ([.started] ++ ds)) rfl _ hrec
        (show _ = (⟨db, none, false⟩, .ok ()) from rfl)
    rw [k1, k5]
    exact ⟨rfl, rfl, Or.inr rfl⟩
  · obtain ⟨k1, _, _, _, k5⟩ := downloaded_ok utc (n := RecoveringNode.mk ⟨db, some db, false⟩ true
        ((.started :: ds).getLast (List.cons_ne_nil _ _)) true ([.started] ++ ds)) rfl _ hr
        (show c.exit Database.foreignOk (.ok ()) = (c.rollback, .error .integrityError) by
          simp only [Conn.exit, hc])
    rw [k1, k5]
    exact ⟨(recover_committed utc hr : c.committed = db), rfl, Or.inr (by simp)⟩

example : ((startedNode newDatabase).run exUtc [.request, .progress .downloading,
    .downloaded (.error .valueError)]).conn.committed = newDatabase :=
  (C57_partial exUtc newDatabase [.downloading] (.error .valueError) newDatabase_ok
    (by unfold NoVouchers; decide +kernel) (by unfold downloadStage; decide) (Or.inl rfl)).1

/-- A snapshot with a row that refers to a missing voucher: its import fails on commit. -/
def exDangling : List Sql :=
  [.createTable { name := "p", columns := [{ name := "x" }], key := .plain "x" },
   .createTable { name := "c", columns := [{ name := "y" }], foreign := [⟨"y", "p", "x"⟩] },
   .insert "c" [.int 1]]

/-! ### C58: reports about a recovery -/

/-- C58: what is reported is always a documented sequence. -/
def C58_statement : Prop :=
  ∀ (utc : String → Option String) (db : Database) (steps : List RecoveryStep),
    OfVersion currentVersion db → WellFormed db →
    DocumentedReports ((startedNode db).run utc steps).reported

/-- C58 does not hold: success is reported before the transaction is committed. -/
theorem C58_fails : ¬ C58_statement := by
  intro h
  have h1 := h exUtc newDatabase [.request, .downloaded (.ok (snapshotOnly exDangling))]
    newDatabase_ok newDatabase_wellFormed
  rw [show ((startedNode newDatabase).run exUtc [.request, .downloaded (.ok (snapshotOnly exDangling))]).reported =
    [.started, .succeeded, .import_failed] by decide +kernel] at h1
  rcases h1 with h | h | ⟨ds, hd, h | ⟨f, _, h⟩⟩
  · exact nomatch h
  · exact nomatch h
  · obtain ⟨_, rfl⟩ := List.cons.inj h
    rcases hd _ List.mem_cons_self with h | h <;> exact nomatch h
  · cases ds with
    | nil => exact nomatch h
    | cons d ds =>
      have hd0 := hd d List.mem_cons_self
      simp only [List.cons_append, List.cons.injEq] at h
      rw [← h.2.1] at hd0
      rcases hd0 with h | h <;> exact nomatch h

/-- C58, up to a report of failure after the end of an import.  Missing: that there is only one
report of the end, which is false if the transaction of the import cannot be committed. -/
theorem C58_partial (utc : String → Option String) (db : Database) (steps : List RecoveryStep) :
    let reported := ((startedNode db).run utc steps).reported
    DocumentedReports reported ∨
      ∃ ds, (∀ s ∈ ds, downloadStage s) ∧ ∃ f, (f = .succeeded ∨ f = .import_failed) ∧
        reported = .started :: ds ++ [f, .import_failed] :=
  Reporting.run utc steps (Reporting.started db) (NodeOk.started db)

/-- C58: the last report tells the truth.  When the download of a recovery ends, the last report says
that it succeeded if and only if a replica was downloaded, all its statements were executed and the
result was committed.  Otherwise the last report says that the download or the import failed. -/
theorem C58_truthful (utc : String → Option String) (db : Database) (steps : List RecoveryStep)
    (r : Except PyErr ReplicaData) :
    let n := (startedNode db).run utc steps
    n.waiting = true →
    let after := (n.step utc (.downloaded r)).1
    (after.reported.getLast? = some .succeeded ↔ ∃ replica c, r = .ok replica ∧
      n.conn.recover utc replica = (c, .ok ()) ∧ c.commit Database.foreignOk = .ok after.conn) ∧
    (after.reported.getLast? = some .download_failed ↔ r.isOk = false) ∧
    (∃ s, finalStage s ∧ after.reported.getLast? = some s ∧ after.stage = s) := by
  intro n hw after
  have hn : NodeOk n := (NodeOk.started db).run utc steps
  cases r with
  | error e =>
    obtain ⟨_, _, _, _, h5, h6⟩ := downloaded_error utc hn hw e
    have h5' : after.reported.getLast? = some .download_failed := by
      show (n.downloaded utc (.error e)).reported.getLast? = _
      rw [h5]; simp
    rw [h5']
    refine ⟨⟨fun h => (nomatch h), fun ⟨_, _, h, _⟩ => nomatch h⟩, ⟨fun _ => rfl, fun _ => rfl⟩,
      _, Or.inr (Or.inl rfl), rfl, h6⟩
  | ok replica =>
    cases hr : n.conn.recover utc replica with
    | mk c res =>
      cases he : c.exit Database.foreignOk (.ok ()) with
      | mk c' res' =>
        obtain ⟨h1, _, _, h4, h5⟩ := downloaded_ok utc hw replica hr he
        have hlast : after.reported.getLast? = some (if res = .ok () ∧ res' = .ok () then .succeeded else .import_failed) := by
          show (n.downloaded utc (.ok replica)).reported.getLast? = _
          rw [h4]
          by_cases a : res = .ok () <;> by_cases b : res' = .ok () <;> simp [a, b]
        have hcommit : res' = .ok () ↔ c.commit Database.foreignOk = .ok c' := by
          simp only [Conn.exit] at he
          cases hc : c.commit Database.foreignOk with
          | error e =>
            rw [hc] at he
            simp only [Prod.mk.injEq] at he
            rw [← he.2]
            exact ⟨fun h => (nomatch h), fun h => nomatch h⟩
          | ok c2 =>
            rw [hc] at he
            simp only [Prod.mk.injEq] at he
            rw [← he.1, ← he.2]
            exact ⟨fun _ => rfl, fun _ => rfl⟩
        have hconn : after.conn = c' := h1
        rw [hlast, hconn]
        refine ⟨⟨?_, ?_⟩, ⟨?_, fun h => nomatch h⟩, _, ?_, rfl, h5⟩
        · intro h
          by_cases a : res = .ok () ∧ res' = .ok ()
          · exact ⟨replica, c, rfl, by rw [← a.1]; exact hr, hcommit.1 a.2⟩
          · rw [if_neg a] at h; exact nomatch h
        · rintro ⟨replica', c2, h1, h2, h3⟩
          cases h1
          rw [hr] at h2
          cases h2
          rw [if_pos ⟨rfl, hcommit.2 h3⟩]
        · intro h
          split at h <;> exact nomatch h
        · split
          · exact Or.inl rfl
          · exact Or.inr (Or.inr rfl)

/-- C58: after a recovery has ended or was refused, nothing that has to do with recovery happens any
more, whatever clients ask for. -/
theorem C58_ended (utc : String → Option String) (n : RecoveringNode) (steps : List RecoveryStep)
    (hr : n.requested = true) (hw : n.waiting = false) (hs : ∀ ss, .call ss ∉ steps) :
    n.run utc steps = n :=
  run_ended utc steps n hs hr hw

example : let n := (startedNode newDatabase).run exUtc [.request, .progress .downloading, .downloaded (.ok (snapshotOnly exDump))]
    n.requested = true ∧ n.waiting = false ∧ n.reported.getLast? = some .succeeded := by decide +kernel

end ZKAP
