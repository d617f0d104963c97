import Verif.Lemmas.StoreSqlWf
import Verif.Props.Recovery

/-! The SQL of the store: C121, C122. -/
namespace ZKAP
open Spec

/-! ### Examples -/

/-- A history: a voucher is added and redeemed, tokens are taken, one is spent and one found invalid;
the process restarts; lease maintenance runs. -/
def exSqlOps : List StoreOp :=
  [.add .natural "now" "v" 4 0 (.ok ["a", "b"]),
   .insert "later" "v" "key" ["A", "B", "C"] false true,
   .getTokens .natural 2,
   .discard ["A"],
   .invalidate "spent" ["B"],
   .restart,
   .maintStart "m1" {},
   .maintObserve 10 [5, 25] ⟨some 1⟩,
   .maintFinish "m2" ⟨some 1⟩,
   .getTokens .natural 5]

/-- What is in the file after it. -/
example : (runSql exSqlOps (Session.opened newDatabase)).1 =
    [.ok (.tokens ["a", "b"]), .ok .unit, .ok (.tokens ["A", "B"]), .ok .unit, .ok .unit, .ok .unit,
     .ok (.maint ⟨some 1⟩), .ok .unit, .ok (.maint {}), .error .notEnoughTokens] ∧
    ((runSql exSqlOps (Session.opened newDatabase)).2.main.find "unblinded-tokens").map (·.rows) =
      some [[.text "C", .int 1]] ∧
    ((runSql exSqlOps (Session.opened newDatabase)).2.main.find "lease-maintenance-spending").map (·.rows) =
      some [[.int 1, .text "m1", .text "m2", .int 4]] := by decide +kernel

/-! ### C121 -/

theorem opened_new : Tracks (Session.opened newDatabase) {} := by
  have hf : Finds newDatabase {} := by
    refine ⟨?_, ⟨fun _ => .null, ?_⟩, ?_, ?_, ?_, ?_, ?_⟩
    · have : newDatabase.tables.map (·.schema) = schemaAt currentVersion := by decide +kernel
      rw [this]
    all_goals decide +kernel
  exact tracks_opened hf (fun r hr => nomatch hr)

theorem tracks_iff {s : Session} {t : Tables} : Tracks s t ↔ SessionHolds s t ∧ ForeignKeys t.app :=
  ⟨fun h => ⟨session_finds.2 ⟨h.main, h.temp⟩, h.foreign⟩,
   fun h => ⟨(session_finds.1 h.1).1, (session_finds.1 h.1).2, h.2⟩⟩

theorem init_new (utc : String → Option String) :
    initialize_database utc upgrades {} = (newDatabase, .ok ()) :=
  initialize_eq utc upgrades {} _ newDatabase 0 rfl rfl (rfl : Sql.execAll utc false
    { tables := [{ schema := { name := "version", columns := [{ name := "version" }] }, rows := [[.int 0]] }] }
    (get_schema_upgrades upgrades 0) = .ok newDatabase)

/-- **C121**: whatever is called on a store, with restarts in between, the statements it executes, run
as SQL on a connection that sees its records, give the answers that are specified, and leave the
specified records in the file. -/
theorem C121_history (s : Session) (t : Tables) (h : SessionHolds s t) (hk : ForeignKeys t.app)
    (ops : List StoreOp) :
    (runSql ops s).1 = answers ops t ∧ SessionHolds (runSql ops s).2 (runStore ops t) ∧
      ForeignKeys (runStore ops t).app := by
  have := tracks_run (tracks_iff.2 ⟨h, hk⟩) ops
  exact ⟨this.1, tracks_iff.1 this.2⟩

/-- **C121**: this is so for a store that starts with an empty file. -/
theorem C121_new_store (utc : String → Option String) (ops : List StoreOp) :
    let s := runSql ops (Session.opened (initialize_database utc upgrades {}).1)
    s.1 = answers ops {} ∧ SessionHolds s.2 (runStore ops {}) := by
  intro s
  have := tracks_run opened_new ops
  simp only [s, init_new]
  exact ⟨this.1, (tracks_iff.1 this.2).1⟩

example : SessionHolds (Session.opened newDatabase) {} ∧ ForeignKeys ({} : Tables).app := tracks_iff.1 opened_new

/-- **C121**: the methods that read give what is specified, in every such state. -/
theorem C121_reading {τ} (parse : String → Except PyErr τ) (s : Session) (t : Tables) (h : SessionHolds s t)
    (hk : ForeignKeys t.app) :
    (∀ number, ((sql_get parse number).transact s).1 =
      match (transact (store_get number) t).1 with
      | .error e => .error e
      | .ok row => Voucher.from_row parse row) ∧
    ((sql_list parse).transact s).1 = allFromRow parse t.app.vouchers ∧
    (sql_count_random_tokens.transact s).1 = (transact store_count_random_tokens t).1 ∧
    (sql_count_unblinded_tokens.transact s).1 = (transact store_count_unblinded_tokens t).1 ∧
    (sql_latest_activity.transact s).1 = (transact store_latest_activity t).1 := by
  have ht := tracks_iff.2 ⟨h, hk⟩
  exact ⟨sql_get_eq parse ht, sql_list_eq parse ht, sql_count_random_eq ht, sql_count_unblinded_eq ht,
    sql_latest_eq ht⟩

example : ((sql_get (τ := String) .ok "v").transact (runSql exSqlOps (Session.opened newDatabase)).2).1 =
    .ok { number := "v", expected_tokens := 4, created := some "now", state := .pending 1 } ∧
    (sql_latest_activity.transact (runSql exSqlOps (Session.opened newDatabase)).2).1 =
      .ok (some ("m1", 4, "m2")) ∧
    (sql_count_unblinded_tokens.transact (runSql exSqlOps (Session.opened newDatabase)).2).1 = .ok 1 := by
  decide +kernel

/-- **C121**: no call fails because a table or a column is missing, or a statement has the wrong number of
values. -/
theorem C121_statements_fit (utc : String → Option String) (ops : List StoreOp) (op : StoreOp)
    (ho : makesTokensOutside op) :
    (op.sqlStep (runSql ops (Session.opened (initialize_database utc upgrades {}).1)).2).1 ≠
      .error .operationalError := by
  rw [init_new]
  rw [(tracks_step (tracks_run opened_new ops).2 op).1]
  have key : (transact op.prog (runStore ops {})).1 ≠ .error .operationalError := by
    unfold transact
    cases h : (op.prog.run (runStore ops {})).2 with
    | ok z => exact fun h => nomatch h
    | error e =>
      intro he
      injection he with he
      subst he
      rcases run_error h with h | h
      · exact nomatch h
      · exact raises_op ho h
  cases op with
  | restart => exact fun h => nomatch h
  | _ => exact key

/-- **C121**: the file stays a database as SQLite keeps it. -/
theorem C121_well_formed (utc : String → Option String) (ops : List StoreOp) :
    WellFormed (runSql ops (Session.opened (initialize_database utc upgrades {}).1)).2.main := by
  rw [init_new]
  exact wellFormed_of_rest newDatabase_wellFormed (tracks_run opened_new ops).2.main
    (run_wf_store ops wf_empty) (run_rest opened_new ops)

/-- **C121**: what a call records for replication are the statements specified. -/
theorem C121_recorded (s : Session) (t : Tables) (h : SessionHolds s t) (hk : ForeignKeys t.app)
    (op : StoreOp) :
    (op.sqlProg.run s).1 = (op.prog.run t).1.map fun m => ⟨m.important, m.stmts.map sqlOf⟩ :=
  (agree_op (tracks_iff.2 ⟨h, hk⟩) op).1

/-- **C121**: a number of tokens is given to the database only if it is one of 64 bits, which the database requires; for
larger ones there are not enough tokens. -/
theorem C121_count_fits (o : Order) (count : Int) :
    (2 ^ 63 ≤ count → sql_get_unblinded_tokens o count = .raise .notEnoughTokens) ∧
    (count < 2 ^ 63 → ∃ k, sql_get_unblinded_tokens o count = .query available_query k) := by
  have hmax : SQLITE3_INTEGER_MAX = 2 ^ 63 - 1 := rfl
  unfold sql_get_unblinded_tokens
  constructor
  · intro h
    rw [if_pos (by omega)]
  · intro h
    rw [if_neg (by omega)]
    exact ⟨_, rfl⟩

example : sql_get_unblinded_tokens .natural 9223372036854775808 = .raise .notEnoughTokens :=
  (C121_count_fits .natural _).1 (by decide)

/-! ### C122 -/

theorem recorded_run {s : Session} {t : Tables} (h : Tracks s t) (ops : List StoreOp)
    (hr : AllReturnSql ops s) : ∃ sts, recordedSql ops s = sts.map sqlOf ∧ execMany sts t = .ok (runStore ops t) := by
  induction ops generalizing s t with
  | nil => exact ⟨[], rfl, rfl⟩
  | cons op ops ih =>
    obtain ⟨⟨z, hz⟩, hn, hrest⟩ := hr
    have ha := agree_op h op
    have hstep := (tracks_step h op).2
    obtain ⟨sts, h1, h2⟩ := ih hstep hrest
    have h3 := ha.2
    rw [hz] at h3
    cases hx : (op.prog.run t).2 with
    | error e => rw [hx] at h3; exact h3.elim
    | ok y =>
      obtain ⟨a, t'⟩ := y
      have hex := run_execMany _ _ _ _ hx
      have ht : (op.step t).2 = t' := by
        have : (transact op.prog t).2 = t' := by simp only [transact, hx]
        cases op with
        | restart => exact absurd rfl hn
        | _ => exact this
      refine ⟨(op.prog.run t).1.flatMap (·.stmts) ++ sts, ?_, ?_⟩
      · simp only [recordedSql]
        rw [h1, ha.1, sqlMutations_stmts, List.map_append]
      · simp only [runStore]
        rw [ht] at h2 ⊢
        have happ : ∀ (x : List Stmt) (u u' : Tables), execMany x u = .ok u' →
            execMany (x ++ sts) u = execMany sts u' := by
          intro x
          induction x with
          | nil => intro u u' h; injection h with h; subst h; rfl
          | cons st x ih =>
            intro u u' h
            simp only [List.cons_append, execMany] at h ⊢
            cases he : exec st u with
            | error e => rw [he] at h; exact nomatch h
            | ok y => rw [he] at h; exact ih _ _ h
        rw [happ _ _ _ hex, h2]

theorem finds_same {src db : Database} {a : App} (h : Finds src a) (hs : SameContents src db) : Finds db a := by
  have hf : ∀ n, db.find n = src.find n := hs.find
  obtain ⟨pk, hpk⟩ := h.vouchers
  exact ⟨(hs.tables.map _).trans h.schema, ⟨pk, by rw [hf, hpk]⟩, by rw [hf, h.tokens], by rw [hf, h.unblinded],
    by rw [hf, h.maint], by rw [hf, h.invalid], by rw [hf, h.groups]⟩

/-- **C122**: a snapshot of the file, taken at any time in the life of a store, is restored in another
process; then the statements recorded since, executed as SQL while foreign keys are not checked, all
succeed, foreign keys hold at the end, the file has the records that the store had in the end, and the
same vouchers are listed. -/
theorem C122_recovery {τ} (parse : String → Except PyErr τ) (utc : String → Option String) (before ops : List StoreOp)
    (statements : List Sql) (target : Database) (c : Conn Database) (hd : Droppable target)
    (hc : c.working = some target) :
    let s := (runSql before (Session.opened (initialize_database utc upgrades {}).1)).2
    let later := (runSql ops s).2
    IsDump s.main statements → AllReturnSql ops s →
    ∃ c' db', c.recover_snapshot utc (statements.map some) = (c', .ok ()) ∧ c'.working = some db' ∧
      ∃ restored, Session.execMany true (recordedSql ops s) (Session.opened db') = .ok restored ∧
        restored.main.foreignOk = true ∧
        Holds later.main (runStore (before ++ ops) {}).app ∧ Holds restored.main (runStore (before ++ ops) {}).app ∧
        ((sql_list parse).transact restored).1 = ((sql_list parse).transact later).1 := by
  intro s later hdump hret
  have hw : WellFormed s.main := C121_well_formed utc before
  have htr : Tracks s (runStore before {}) := by
    simp only [s, init_new]; exact (tracks_run opened_new before).2
  have hwf : StoreWF (runStore before {}) := run_wf_store before wf_empty
  have hrun : runStore (before ++ ops) {} = runStore ops (runStore before {}) := by
    clear hret hdump hw htr hwf
    generalize ({} : Tables) = t
    induction before generalizing t with
    | nil => rfl
    | cons op before ih => exact ih _
  have hlater := tracks_run htr ops
  obtain ⟨pre, post, hp, rfl⟩ := hdump
  obtain ⟨d0, w, b⟩ := c
  simp only at hc
  subst hc
  obtain ⟨db', h1, h2, h3⟩ := recover_dump utc s.main d0 target pre post b hw hd hp
  have hsame : SameContents s.main db' := ⟨by rw [h2]; exact hp, fun n => by
    rw [h2]; exact perm_find hp hw.names n, h3⟩
  obtain ⟨sts, e1, e2⟩ := recorded_run htr ops hret
  have hopen := tracks_opened (finds_same htr.main hsame) htr.foreign
  obtain ⟨s', r', k1, k2, k3, k4⟩ := replay_session hopen.main hopen.temp (sim_fresh hwf) sts e2
  have hfk : ForeignKeys r'.app := by rw [k4.app]; exact hlater.2.foreign
  refine ⟨_, db', h1, rfl, s', by rw [e1]; exact k1, finds_foreignOk k2 hfk, ?_, ?_, ?_⟩
  · rw [hrun]; exact holds_finds.2 hlater.2.main
  · rw [hrun, ← k4.app]; exact holds_finds.2 k2
  · rw [sql_list_eq parse ⟨k2, k3, hfk⟩, sql_list_eq parse hlater.2, k4.app]

/-- Calls after the snapshot. -/
def exSqlLater : List StoreOp :=
  [.add .natural "t1" "w" 2 0 (.ok ["c"]), .insert "t2" "w" "key" ["D", "E"] true true,
   .getTokens .natural 2, .discard ["C"], .reset ["D"], .doubleSpent "t3" "v"]

example : AllReturnSql exSqlLater (runSql (exSqlOps.take 9) (Session.opened newDatabase)).2 :=
  ⟨⟨_, rfl⟩, (fun h => nomatch h), ⟨_, rfl⟩, (fun h => nomatch h), ⟨_, rfl⟩, (fun h => nomatch h), ⟨_, rfl⟩,
   (fun h => nomatch h), ⟨_, rfl⟩, (fun h => nomatch h), ⟨_, rfl⟩, (fun h => nomatch h), trivial⟩

example : Droppable newDatabase :=
  droppable_of_empty newDatabase_ok newDatabase_wellFormed (by intro t ht hn; revert t; decide +kernel)

/-- What a table has after a list of statements on a file. -/
def exRowsAfter (stmts : List StoreSql) (db : Database) (table : String) : Option (List (List Value)) :=
  match Session.execMany true stmts (Session.opened db) with
  | .ok r => (r.main.find table).map (·.rows.map fun row => row.take 4)
  | .error _ => none

/-- The example's file at the snapshot, and what was recorded after. -/
def exSqlFile : Session := (runSql (exSqlOps.take 9) (Session.opened newDatabase)).2

/-- Restoring the example. -/
example : exRowsAfter (recordedSql exSqlLater exSqlFile) exSqlFile.main "unblinded-tokens" =
      some [[.text "D", .int 2], [.text "E", .int 2]] ∧
    exRowsAfter (recordedSql exSqlLater exSqlFile) exSqlFile.main "vouchers" =
      some [[.text "v", .text "now", .text "double-spend", .text "t3"],
        [.text "w", .text "t1", .text "redeemed", .text "t2"]] := by decide +kernel

end ZKAP
