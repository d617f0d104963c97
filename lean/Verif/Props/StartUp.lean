import Verif.Lemmas.StartUp
import Verif.Props.Recovery

/-!
C54 and C83: schema upgrades and replication.
-/
namespace ZKAP
open Spec

/-! ### C54: upgrades and the event stream -/

/-- C54: when a node with replication is started, the statements that upgrade the schema of its
database are recorded.  There is replication since version 7. -/
def C54_statement : Prop :=
  ∀ (utc : String → Option String) (render : Sql → String) (v : Nat) (db : Database) (r : ReplConn),
    7 ≤ v → v ≤ currentVersion → OfVersion v db →
    get_store utc render upgrades true db = (r, .ok ()) →
    ∀ s ∈ get_schema_upgrades upgrades v, .text (render s) ∈ recorded r.conn.committed

/-- A database of version 8 with a recorded change. -/
def exV8 : Database where
  tables := (schemaAt 8).map fun d => { schema := d, rows :=
    if d.name = "version" then [[.int 8]]
    else if d.name = "event-stream" then [[.int 1, .text "DELETE FROM [invalid-unblinded-tokens]", .int 0]]
    else [] }
  sequence := some [("event-stream", 1)]

theorem exV8_ok : OfVersion 8 exV8 := ⟨by decide +kernel, by decide +kernel, by decide +kernel⟩

/-- The texts of some statements. -/
def exRender : Sql → String
  | .insertNamed t _ => "INSERT INTO [" ++ t ++ "]"
  | .insertOrIgnore t _ => "INSERT OR IGNORE INTO [" ++ t ++ "]"
  | .update t _ _ => "UPDATE [" ++ t ++ "]"
  | .delete t _ => "DELETE FROM [" ++ t ++ "]"
  | _ => "ALTER TABLE"

/-- C54 does not hold: nobody observes the connection when the schema is upgraded. -/
theorem C54_fails : ¬ C54_statement := by
  intro h
  obtain ⟨s, hs⟩ : ∃ s, s ∈ get_schema_upgrades upgrades (8 : Nat) := ⟨_, List.mem_cons_self⟩
  have := h exUtc (fun _ => "ALTER TABLE") 8 exV8
    (get_store exUtc (fun _ => "ALTER TABLE") upgrades true exV8).1 (by decide) (by decide) exV8_ok
    (by
      obtain ⟨db', _, _, e⟩ := get_store_eq exUtc (fun _ => "ALTER TABLE") true (by decide) exV8_ok
      rw [e]) s hs
  revert this
  decide +kernel

/-- None of the statements is recorded, for any database: the database is upgraded, its event stream
stays as it is, and the statements are forgotten. -/
theorem C54_nothing_recorded (utc : String → Option String) (render : Sql → String) (setup : Bool)
    (v : Nat) (h7 : 7 ≤ v) (hv : v ≤ currentVersion) (db : Database) (h : OfVersion v db) :
    ∃ db', initialize_database utc upgrades db = (db', .ok ()) ∧
      get_store utc render upgrades setup db = ({ conn := { committed := db' }, replicating := setup }, .ok ()) ∧
      recorded db' = recorded db := by
  have hv10 : v < 10 := Nat.lt_succ_of_le hv
  obtain ⟨db', h1, _, h3⟩ := get_store_eq utc render setup hv10 h
  refine ⟨db', h1, h3, ?_⟩
  obtain ⟨values, hvalues⟩ : ∃ values, columnValues db "event-stream" "statement" = some values := by
    have hd : ∃ d ∈ schemaAt v, d.name = "event-stream" ∧ d.index "statement" = some 1 := by
      have : v = 7 ∨ v = 8 ∨ v = 9 := by have : currentVersion = 9 := rfl; omega
      rcases this with rfl | rfl | rfl <;> decide +kernel
    obtain ⟨d, hd, hname, hindex⟩ := hd
    rw [← h.tables] at hd
    obtain ⟨t, ht, rfl⟩ := List.mem_map.1 hd
    have hsome : (db.find "event-stream").isSome := by
      simp only [Database.find, List.find?_isSome]
      exact ⟨t, ht, by rw [hname]; rfl⟩
    obtain ⟨t', ht'⟩ := Option.isSome_iff_exists.1 hsome
    have hmem : t'.schema ∈ schemaAt v := by
      rw [← h.tables]
      exact List.mem_map.2 ⟨t', List.mem_of_find?_eq_some ht', rfl⟩
    have hn' : t'.schema.name = "event-stream" := by
      have := List.find?_some ht'
      simpa using this
    have hall : ∀ d ∈ schemaAt v, d.name = "event-stream" → d.index "statement" = some 1 := by
      have : v = 7 ∨ v = 8 ∨ v = 9 := by have : currentVersion = 9 := rfl; omega
      rcases this with rfl | rfl | rfl <;> decide +kernel
    rw [columnValues_eq, ht']
    simp only [Option.bind_some, hall _ hmem hn', Option.map_some]
    exact ⟨_, rfl⟩
  have := C62_preserves utc v hv db db' h h1 "event-stream" "statement" values (by decide) hvalues
  rw [if_neg (by
    have : ("event-stream", "statement") ∉ convertedTimes := by decide +kernel
    exact fun c => this c.2)] at this
  simp only [recorded, this, hvalues]

example : let db' := (initialize_database exUtc upgrades exV8).1
    recorded exV8 = [.text "DELETE FROM [invalid-unblinded-tokens]"] ∧
    recorded db' = [.text "DELETE FROM [invalid-unblinded-tokens]"] ∧
    columnValues db' "event-stream" "serialized_arguments" = some [.blob [0x80]] := by decide +kernel

/-- What methods of the store change before the replication service is started is not recorded
either. -/
theorem C54_early_lost (utc : String → Option String) (render : Sql → String) (setup : Bool)
    (v : Nat) (hv : v ≤ currentVersion) (db : Database) (h : OfVersion v db) (r' : ReplConn) (ss : List Sql)
    (hs : ∀ s ∈ ss, storeChange s = true)
    (hcall : (get_store utc render upgrades setup db).1.call utc render ss = (r', .ok ())) :
    recorded r'.conn.committed = recorded (initialize_database utc upgrades db).1 ∧
      r'.start_service.mutations = [] := by
  obtain ⟨db', h1, _, h3⟩ := get_store_eq utc render setup (Nat.lt_succ_of_le hv) h
  rw [h3] at hcall
  obtain ⟨d, d', e1, e2, rfl⟩ := repl_call_ok rfl hcall
  simp only [Bool.false_eq_true, if_false, Sql.execAll, Except.ok.injEq] at e2
  subst e2
  rw [h1]
  exact ⟨recorded_find (storeChanges_find hs e1), rfl⟩

example : let r := (get_store exUtc exRender upgrades true exV8).1
    let a := r.call exUtc exRender exAddVoucher
    let b := r.start_service.call exUtc exRender exAddVoucher
    a.2 = .ok () ∧ voucherNumbers a.1.conn.committed = [.text "v"] ∧
    recorded a.1.conn.committed = [.text "DELETE FROM [invalid-unblinded-tokens]"] ∧
    b.2 = .ok () ∧ voucherNumbers b.1.conn.committed = [.text "v"] ∧
    recorded b.1.conn.committed = [.text "DELETE FROM [invalid-unblinded-tokens]",
      .text "INSERT OR IGNORE INTO [vouchers]", .text "INSERT INTO [tokens]", .text "INSERT INTO [tokens]"] := by
  decide +kernel

/-- C54, for what methods of the store change once the service is started: when the method returns,
its statements are recorded in order, after those of calls that failed before it (C48).
Missing: upgrades. -/
theorem C54_partial (utc : String → Option String) (render : Sql → String) (r r' : ReplConn)
    (ss : List Sql) (hw : r.conn.working = none) (ht : HasEventStream r.conn.committed)
    (hs : ∀ s ∈ ss, storeChange s = true)
    (hcall : r.start_service.call utc render ss = (r', .ok ())) :
    recorded r'.conn.committed =
        recorded r.conn.committed ++ (r.mutations ++ ss).map (fun s => .text (render s)) ∧
      HasEventStream r'.conn.committed ∧ r'.conn.working = none ∧ r'.mutations = [] := by
  obtain ⟨d, d', e1, e2, rfl⟩ := repl_call_ok (r := r.start_service) hw hcall
  simp only [ReplConn.start_service, if_true] at e1 e2 ⊢
  obtain ⟨rows, hrows⟩ := (hasEventStream_iff _).1 ht
  have hf := storeChanges_find hs e1
  obtain ⟨rows', h1, h2⟩ := events_recorded (r.mutations ++ ss) (hf.trans hrows) e2
  refine ⟨?_, (hasEventStream_iff _).2 ⟨rows', h1⟩, trivial, trivial⟩
  rw [h2, recorded_find hf]

/-- Every database that is opened by `get_store` meets the hypotheses of `C54_partial`. -/
theorem C54_opened (utc : String → Option String) (render : Sql → String) (setup : Bool)
    (v : Nat) (hv : v ≤ currentVersion) (db : Database) (h : OfVersion v db) :
    let r := (get_store utc render upgrades setup db).1
    r.conn.working = none ∧ HasEventStream r.conn.committed ∧ r.mutations = [] := by
  obtain ⟨db', _, h2, h3⟩ := get_store_eq utc render setup (Nat.lt_succ_of_le hv) h
  rw [h3]
  refine ⟨rfl, ?_, rfl⟩
  have hmem : ∃ d ∈ schemaAt currentVersion, d.name = "event-stream" := by decide +kernel
  obtain ⟨d, hd, hname⟩ := hmem
  have hd' : d ∈ db'.tables.map (·.schema) := by rw [h2.tables]; exact hd
  obtain ⟨t, htm, rfl⟩ := List.mem_map.1 hd'
  have hsome : (db'.find "event-stream").isSome := by
    simp only [Database.find, List.find?_isSome]
    exact ⟨t, htm, by rw [hname]; rfl⟩
  obtain ⟨t', ht'⟩ := Option.isSome_iff_exists.1 hsome
  refine ⟨t', ht', ?_⟩
  have : t'.schema ∈ db'.tables.map (·.schema) :=
    List.mem_map.2 ⟨t', List.mem_of_find?_eq_some ht', rfl⟩
  rw [h2.tables] at this
  exact this

/-! ### C51: numbers of events -/

/-- C51: the number of an event is more than that of any event recorded before, whatever was changed or
removed since, in the table of events too. -/
theorem C51_never_reused (utc : String → Option String) (render : Sql → String) (db db1 db2 : Database)
    (ss : List Sql) (s : Sql) (hw : WellFormed db) (h1 : HasEventStream db) (h2 : HasEventStream db1)
    (hs : ∀ s ∈ ss, storeStatement s = true) (hss : Sql.execAll utc false db ss = .ok db1)
    (he : (event_insert render s).exec utc false db1 = .ok db2) :
    ∃ n, eventNumbers db2 = eventNumbers db1 ++ [.int n] ∧
      (∀ m, .int m ∈ eventNumbers db → m < n) ∧ ∀ m, .int m ∈ eventNumbers db1 → m < n := by
  obtain ⟨rows, hr⟩ := (hasEventStream_iff _).1 h1
  obtain ⟨rows1, hr1⟩ := (hasEventStream_iff _).1 h2
  obtain ⟨n, k1, k2⟩ := event_number hr1 he
  have hmono := sequenceOf_execAll hs "event-stream" hss
  refine ⟨n, k1, fun m hm => ?_, fun m hm => ?_⟩
  · have := wellFormed_number hw hr hm
    omega
  · have := wellFormed_number (Spec.WellFormed.execAll hs hw hss) hr1 hm
    omega

example : ∃ db1 db2, Sql.execAll exUtc false exSource [.delete "event-stream" [("sequence-number", .int 1)],
      .delete "event-stream" [("sequence-number", .int 2)]] = .ok db1 ∧
    (event_insert exRender (.delete "tokens" [])).exec exUtc false db1 = .ok db2 ∧
    eventNumbers exSource = [.int 1, .int 2] ∧ eventNumbers db1 = [] ∧ eventNumbers db2 = [.int 3] :=
  ⟨_, _, rfl, rfl, by decide +kernel, by decide +kernel, by decide +kernel⟩

/-! ### C83: using a recovered database -/

/-- C83: after a recovery from a replica of any version has succeeded, every voucher that software of
the version of the replica could read can be read, without starting the node again. -/
def C83_statement : Prop :=
  ∀ (utc : String → Option String) (v : Nat) (src db : Database) (statements : List Sql) (r : VoucherRow),
    7 ≤ v → v ≤ currentVersion → OfVersion v src → WellFormed src →
    OfVersion currentVersion db → WellFormed db → NoVouchers db → IsDump src statements →
    HasVoucherRow src r → ReadableAt v r →
    let n := (startedNode db).run utc [.request, .downloaded (.ok (snapshotOnly statements))]
    n.reported = [.started, .succeeded] ∧
      ∃ r', HasVoucherRow n.conn.committed r' ∧ r'.number = r.number ∧ Readable r'

theorem exV7_wellFormed : WellFormed exV7 := by
  refine ⟨by decide +kernel, by decide +kernel, ?_, by decide +kernel, by decide +kernel, ?_, ?_⟩
  · intro t ht
    refine ⟨?_, ?_, ?_, ?_⟩
    · revert t; decide +kernel
    · revert t; decide +kernel
    · intro c hc
      have : ∀ t ∈ exV7.tables, ∀ c ∈ t.schema.key.column, t.rows.Pairwise fun r s =>
          t.schema.get s c = .null ∨ t.schema.get r c ≠ t.schema.get s c := by decide +kernel
      exact this t ht c hc
    · intro c hc row hrow
      have : ∀ t ∈ exV7.tables, ∀ c ∈ t.schema.key.column,
          (t.schema.key = .integer c ∨ t.schema.key = .autoincrement c) → ∀ row ∈ t.rows,
          (match t.schema.get row c with | .int _ => true | _ => false) = true := by decide +kernel
      have := this t ht c (by rcases hc with e | e <;> rw [e] <;> rfl) hc row hrow
      split at this
      · exact ⟨_, by assumption⟩
      · exact nomatch this
  · intro s _
    refine ⟨exV7.tables[7]'(by decide), by decide +kernel, "sequence-number", by decide +kernel⟩
  · intro t ht c hc
    refine ⟨[], rfl, ?_⟩
    intro row hrow
    have : ∀ t ∈ exV7.tables, ∀ c ∈ t.schema.key.column, t.schema.key = .autoincrement c → t.rows = [] := by
      decide +kernel
    rw [this t ht c (by rw [hc]; rfl) hc] at hrow
    exact nomatch hrow

/-- C83 does not hold: the schema of the recovered database is not upgraded. -/
theorem C83_fails : ¬ C83_statement := by
  intro h
  obtain ⟨_, r', hr', hnum, v, hv⟩ := h exUtc 7 exV7 newDatabase (iterdump exV7.tables exV7.sequence []) exRow2
    (by decide) (by decide) exV7_ok exV7_wellFormed newDatabase_ok newDatabase_wellFormed
    (by unfold NoVouchers; decide +kernel) ⟨exV7.tables, [], by rw [List.append_nil], rfl⟩
    ⟨⟨(schemaAt 7)[1]'(by decide), _⟩, List.mem_cons_of_mem _ List.mem_cons_self, rfl, _,
      List.mem_cons_of_mem _ List.mem_cons_self, by decide +kernel⟩
    (by rw [ReadableAt, if_pos (by decide)]; exact ⟨local3, Or.inl rfl⟩)
  obtain ⟨t, ht, hn, row, hrow, hd⟩ := hr'
  have key : ∀ t ∈ ((startedNode newDatabase).run exUtc [.request, .downloaded
      (.ok (snapshotOnly (iterdump exV7.tables exV7.sequence [])))]).conn.committed.tables,
      t.schema.name = "vouchers" → ∀ row ∈ t.rows, ∀ r ∈ voucher_row t.schema row,
        (Voucher.from_row (parse_datetime ' ') r).isOk = false := by decide +kernel
  have := key t ht hn row hrow r' hd
  rw [hv] at this
  exact nomatch this

theorem sameContents_voucher {src db : Database} (h : SameContents src db) {r : VoucherRow}
    (hr : HasVoucherRow src r) : HasVoucherRow db r := by
  obtain ⟨t, ht, k⟩ := hr
  exact ⟨t, h.tables.mem_iff.2 ht, k⟩

/-- C83, for replicas of version 8 and later.  Missing: version 7, where it is false. -/
theorem C83_partial (utc : String → Option String) (v : Nat) (src db : Database) (statements : List Sql)
    (r : VoucherRow) (h8 : 8 ≤ v) (hsrc : WellFormed src) (hdb : OfVersion currentVersion db)
    (hwf : WellFormed db) (hno : NoVouchers db) (hdump : IsDump src statements)
    (hr : HasVoucherRow src r) (hread : ReadableAt v r) :
    let n := (startedNode db).run utc [.request, .downloaded (.ok (snapshotOnly statements))]
    n.reported = [.started, .succeeded] ∧
      ∃ r', HasVoucherRow n.conn.committed r' ∧ r'.number = r.number ∧ Readable r' := by
  obtain ⟨h1, _, h3⟩ := C60_recovered utc src db statements [] hsrc hdb hwf hno hdump (by intro s hs; exact nomatch hs)
  refine ⟨h3, r, sameContents_voucher h1 hr, rfl, ?_⟩
  rw [ReadableAt, if_neg (by omega)] at hread
  exact hread

/-- C83: if the node is started again after a recovery from a replica of any version, the database has
the contents that upgrading the source itself would give. -/
theorem C83_restart (utc : String → Option String) (render : Sql → String) (v : Nat) (src db : Database)
    (statements : List Sql) (h7 : 7 ≤ v) (hv : v ≤ currentVersion) (hver : OfVersion v src)
    (hsrc : WellFormed src) (hdb : OfVersion currentVersion db) (hwf : WellFormed db) (hno : NoVouchers db)
    (hdump : IsDump src statements) :
    let n := (startedNode db).run utc [.request, .downloaded (.ok (snapshotOnly statements))]
    ∃ r src', get_store utc render upgrades false n.conn.committed = (r, .ok ()) ∧
      initialize_database utc upgrades src = (src', .ok ()) ∧ OfVersion currentVersion src' ∧
      SameContents src' r.conn.committed := by
  obtain ⟨h1, _, h3⟩ := C60_recovered utc src db statements [] hsrc hdb hwf hno hdump (by intro s hs; exact nomatch hs)
  have hseq : src.sequence.isSome := by
    have hd : ∃ d ∈ schemaAt v, d.key = .autoincrement "sequence-number" := by
      have : v = 7 ∨ v = 8 ∨ v = 9 := by have : currentVersion = 9 := rfl; omega
      rcases this with rfl | rfl | rfl <;> decide +kernel
    obtain ⟨d, hd, hk⟩ := hd
    rw [← hver.tables] at hd
    obtain ⟨t, ht, rfl⟩ := List.mem_map.1 hd
    obtain ⟨s, hs, _⟩ := hsrc.numbers t ht _ hk
    rw [hs]; rfl
  have hp : Permuted ((startedNode db).run utc
      [.request, .downloaded (.ok (snapshotOnly statements))]).conn.committed src :=
    ⟨h1.tables, hsrc.names, h1.sequence hseq⟩
  obtain ⟨db', src', k1, k2, k3, k4⟩ := get_store_permuted utc render false (Nat.lt_succ_of_le hv) hp hver
  exact ⟨_, src', k4, k1, k2, ⟨k3.tables, fun n => k3.find n, fun _ => k3.sequence⟩⟩

example : let n := (startedNode newDatabase).run exUtc [.request, .downloaded
      (.ok (snapshotOnly (iterdump exV7.tables.reverse exV7.sequence [])))]
    (n.conn.committed.find "version").map (·.rows) = some [[.int 7]] ∧
    columnValues n.conn.committed "vouchers" "created" =
      some [.text "2020-01-02 03:04:05", .text "2020-02-02 03:04:05"] ∧
    columnValues (get_store exUtc exRender upgrades false n.conn.committed).1.conn.committed "vouchers" "created" =
      some [.text "2020-01-02 03:04:05+00:00", .text "2020-02-02 03:04:05+00:00"] := by decide +kernel

/-- A recovered database of version 8 cannot record changes: if replication is set up before the node
is started again, every method of the store that changes something raises after its change is
committed, and the change is not recorded. -/
theorem C83_unrecorded (utc : String → Option String) (render : Sql → String) (r : ReplConn)
    (s : Sql) (ss : List Sql) (d : Database) (hw : r.conn.working = none)
    (ht : ∃ t, r.conn.committed.find "event-stream" = some t ∧ t.schema.index "serialized_arguments" = none)
    (hs : ∀ x ∈ s :: ss, storeChange x = true)
    (hd : Sql.execAll utc false r.conn.committed (s :: ss) = .ok d) :
    (r.start_service.call utc render (s :: ss)).2 = .error .operationalError ∧
      (r.start_service.call utc render (s :: ss)).1.conn.committed = d ∧
      (r.start_service.call utc render (s :: ss)).1.mutations = [] ∧
      recorded d = recorded r.conn.committed := by
  obtain ⟨t, ht, hidx⟩ := ht
  have hf := storeChanges_find hs hd
  have herr : ∀ (l : List Sql), l ≠ [] → Sql.execAll utc false d (l.map (event_insert render)) =
      .error .operationalError := by
    intro l hl
    cases l with
    | nil => exact absurd rfl hl
    | cons x l =>
      have : t.schema.hasAll [("statement", .text (render x)), ("serialized_arguments", .blob [0x80]),
          ("important", .int 0)] = false := by
        simp only [TableDef.hasAll, List.all_cons, hidx, Option.isSome_none, Bool.false_and, Bool.and_false]
      simp only [List.map_cons, Sql.execAll, event_insert, Sql.exec, hf, ht, this, Bool.not_false, if_true]
  have := repl_call_of (r := r.start_service) (render := render) hw hd
  simp only [ReplConn.start_service, if_true] at this
  rw [herr (r.mutations ++ s :: ss) (by simp)] at this
  simp only [ReplConn.start_service, this]
  exact ⟨trivial, trivial, trivial, recorded_find hf⟩

example : let r := ReplConn.call exUtc exRender (ReplConn.start_service ⟨⟨exV8, none, false⟩, false, false, []⟩) exAddVoucher
    r.2 = .error .operationalError ∧ voucherNumbers r.1.conn.committed = [.text "v"] ∧
    recorded r.1.conn.committed = recorded exV8 := by decide +kernel

end ZKAP
