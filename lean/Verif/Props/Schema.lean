import Verif.Lemmas.SchemaNew

/-!
Schema upgrades: C62, C63, C64, C81.

`OfVersion v db` (`Spec/Schema.lean`) says that `db` is a database of schema version `v`, with any
contents.  `initialize_database` is what opening the store does to the database; `upgrades.take w` are
the upgrades known to software whose current version is `w`.  `utc` is SQLite's conversion of local
times, of which nothing is assumed unless said.
-/
namespace ZKAP
open Spec

/-- A database of version 5: one voucher redeemed in part (`pending`, at counter 1) and the tokens
that came with it. -/
def exV5 : Database where
  tables := [
    ⟨⟨"version", [{ name := "version" }], .none, []⟩, [[.int 5]]⟩,
    ⟨(schemaAt 5)[1]'(by decide), [[.text "v1", .text "2020-01-02 03:04:05", .text "pending", .null, .null,
      .null, .int 1, .int 64]]⟩,
    ⟨(schemaAt 5)[2]'(by decide), [[.text "r1", .text "v1", .int 1], [.text "r2", .text "v1", .int 1]]⟩,
    ⟨(schemaAt 5)[3]'(by decide), [[.text "t1"], [.text "t2"]]⟩,
    ⟨(schemaAt 5)[4]'(by decide), [[.int 1, .text "2020-02-02 03:04:05", .null, .int 7]]⟩,
    ⟨(schemaAt 5)[5]'(by decide), [[.text "t0", .text "not accepted"]]⟩]

/-- The same with the voucher redeemed completely. -/
def exV5Redeemed : Database := exV5.modify "vouchers" fun t => { t with
  rows := [[.text "v1", .text "2020-01-02 03:04:05", .text "redeemed", .text "2020-01-02 03:05:05", .int 64,
      .text "pk", .int 1, .int 64]] }

/-- SQLite in a place where local time is UTC. -/
def exUtc (s : String) : Option String := some s

theorem exV5_ok : OfVersion 5 exV5 := ⟨by decide +kernel, by decide +kernel, by decide +kernel⟩

theorem exV5Redeemed_ok : OfVersion 5 exV5Redeemed :=
  ⟨by decide +kernel, by decide +kernel, by decide +kernel⟩

/-! ### C62: upgrades reach the current version -/

/-- C62: opening a database of any older version upgrades it to the current version. -/
theorem C62_reaches_current (utc : String → Option String) (v : Nat) (hv : v ≤ currentVersion)
    (db : Database) (h : OfVersion v db) :
    ∃ db', initialize_database utc upgrades db = (db', .ok ()) ∧ OfVersion currentVersion db' := by
  obtain ⟨db', _, h2, h3⟩ := initialize_any utc v (Nat.lt_succ_of_le hv) db h
  exact ⟨db', h3, h2⟩

/-- A new database: all tables, no rows. -/
def newDatabase : Database where
  tables := (schemaAt 9).map fun d => { schema := d, rows := if d.name = "version" then [[.int 9]] else [] }
  sequence := some []

/-- C62: opening an empty file makes a database of the current version with no rows but the
version. -/
theorem C62_new_database (utc : String → Option String) :
    ∃ db', initialize_database utc upgrades {} = (db', .ok ()) ∧ OfVersion currentVersion db' ∧
      ∀ t ∈ db'.tables, t.schema.name ≠ "version" → t.rows = [] := by
  have h1 : Sql.execAll utc false
      { tables := [{ schema := { name := "version", columns := [{ name := "version" }] }, rows := [[.int 0]] }] }
      (get_schema_upgrades upgrades 0) = .ok newDatabase := rfl
  exact ⟨newDatabase, initialize_eq utc upgrades {} _ newDatabase 0 rfl rfl h1,
    ⟨by decide +kernel, by decide +kernel, by decide +kernel⟩, by decide +kernel⟩

/-- C62: opening a database of the current version changes nothing. -/
theorem C62_idempotent (utc : String → Option String) (db : Database) (h : OfVersion currentVersion db) :
    initialize_database utc upgrades db = (db, .ok ()) := by
  obtain ⟨_, hc, hr⟩ := version_of h
  exact initialize_eq utc upgrades db db db _ (hc utc) hr rfl

/-- C62: upgrading first with software of an earlier version `w` and then with this software is the
same as upgrading at once. -/
theorem C62_steps (utc : String → Option String) (v w : Nat) (hvw : v ≤ w) (hw : w ≤ currentVersion)
    (db : Database) (h : OfVersion v db) :
    ∃ db1, initialize_database utc (upgrades.take w) db = (db1, .ok ()) ∧ OfVersion w db1 ∧
      initialize_database utc upgrades db1 = initialize_database utc upgrades db := by
  have hw10 : w < 10 := Nat.lt_succ_of_le hw
  obtain ⟨db1, h1, h2⟩ := upgrade_run utc w hw10 (w - v) v (by omega) db h
  obtain ⟨_, hc, hr⟩ := version_of h
  refine ⟨db1, initialize_eq utc _ db db db1 v (hc utc) hr h1, h2, ?_⟩
  obtain ⟨db', k1, _, k3⟩ := initialize_any utc w hw10 db1 h2
  rw [k3]
  refine (initialize_eq utc upgrades db db db' v (hc utc) hr ?_).symm
  rw [upgrades_split w hw10 v (by omega), execAll_append, h1]
  exact k1

theorem no_groups_early : ∀ v, v < 6 → hasColumn (schemaAt v) "redemption-groups" = fun _ => false := by
  intro v hv
  funext c
  match v, hv with
  | 0, _ => rfl
  | 1, _ => rfl
  | 2, _ => rfl
  | 3, _ => rfl
  | 4, _ => rfl
  | 5, _ => rfl

theorem written_early : ∀ v, v < 10 → ∀ s ∈ get_schema_upgrades upgrades (v : Nat),
    s.written = none ∨ s.written = some "version" ∨ (v < 6 ∧ s.written = some "redemption-groups") := by
  decide +kernel

/-- C62: every value in every column of a table is kept; only the times in the columns
`convertedTimes` of a database older than version 8 are converted. -/
theorem C62_preserves (utc : String → Option String) (v : Nat) (hv : v ≤ currentVersion)
    (db db' : Database) (h : OfVersion v db)
    (hi : initialize_database utc upgrades db = (db', .ok ())) (table column : String)
    (values : List Value) (hn : table ≠ "version") (hvalues : columnValues db table column = some values) :
    columnValues db' table column =
      some (if v < 8 ∧ (table, column) ∈ convertedTimes then values.map (toUtc utc) else values) := by
  have hv10 : v < 10 := Nat.lt_succ_of_le hv
  obtain ⟨db1, h1, _, h3⟩ := initialize_any utc v hv10 db h
  obtain rfl : db' = db1 := by rw [h3] at hi; exact (Prod.mk.inj hi).1.symm
  have hw : ∀ s ∈ get_schema_upgrades upgrades (v : Nat), s.written ≠ some table := by
    intro s hs he
    rcases written_early v hv10 s hs with hq | hq | ⟨hv6, hq⟩
    · rw [hq] at he; exact nomatch he
    · rw [hq] at he; exact hn (Option.some.inj he).symm
    · rw [hq] at he
      obtain rfl := Option.some.inj he
      have hs := columnValues_isSome db "redemption-groups" column
      rw [hvalues, h.tables, no_groups_early v hv6] at hs
      exact nomatch hs
  rw [execAll_values _ hw (tidy_of hv10 h) h1 hvalues]
  congr 1
  rw [foldl_conversions, conversions_upgrades v hv10]
  by_cases h8 : v < 8
  · rw [if_pos h8, foldl_convertedTimes]
    simp only [h8, true_and]
  · rw [if_neg h8]
    simp only [h8, false_and, if_false]
    rfl

/-- Columns newer than version `v`. -/
def newColumns (v : Nat) : List (String × Column) :=
  history.flatMap fun h => (h.columns.filter fun c => v < c.1).map fun c => (h.name, c.2)

theorem keepsDefault_all : ∀ v, v < 10 → ∀ p ∈ newColumns v, p.1 ≠ "redemption-groups" →
    hasColumn (schemaAt v) p.1 p.2.name = false ∧ hasColumn (schemaAt 9) p.1 p.2.name = true ∧
    ∀ s ∈ get_schema_upgrades upgrades (v : Nat), s.keepsDefault p.1 p.2.name p.2.default = true := by
  decide +kernel

/-- C62: after the upgrade every column that is newer than the database holds its default value in
every row that was there before. -/
theorem C62_new_columns (utc : String → Option String) (v : Nat) (hv : v ≤ currentVersion)
    (db db' : Database) (h : OfVersion v db)
    (hi : initialize_database utc upgrades db = (db', .ok ())) (hist : TableHistory) (since : Nat)
    (c : Column) (hh : hist ∈ history) (hc : (since, c) ∈ hist.columns) (hnew : v < since)
    (hn : hist.name ≠ "redemption-groups") :
    ∃ values, columnValues db' hist.name c.name = some values ∧ ∀ x ∈ values, x = c.default := by
  have hv10 : v < 10 := Nat.lt_succ_of_le hv
  obtain ⟨db1, h1, h2, h3⟩ := initialize_any utc v hv10 db h
  obtain rfl : db' = db1 := by rw [h3] at hi; exact (Prod.mk.inj hi).1.symm
  have hmem : (hist.name, c) ∈ newColumns v :=
    List.mem_flatMap.2 ⟨hist, hh, List.mem_map.2 ⟨(since, c),
      List.mem_filter.2 ⟨hc, by simpa using hnew⟩, rfl⟩⟩
  obtain ⟨k1, k2, k3⟩ := keepsDefault_all v hv10 _ hmem hn
  have hs := columnValues_isSome db' hist.name c.name
  rw [h2.tables, k2] at hs
  obtain ⟨values, hvalues⟩ := Option.isSome_iff_exists.1 hs
  refine ⟨values, hvalues, ?_⟩
  refine execAll_keepsDefault _ k3 (tidy_of hv10 h) h1 ?_ values hvalues
  intro vs hvs
  have := columnValues_isSome db hist.name c.name
  rw [hvs, h.tables, k1] at this
  exact nomatch this

/-- The upgrade of a database with a redeemed voucher. -/
example : (initialize_database exUtc upgrades exV5Redeemed).2 = .ok () ∧
    columnValues (initialize_database exUtc upgrades exV5Redeemed).1 "vouchers" "created" =
      some [.text "2020-01-02 03:04:05+00:00"] ∧
    columnValues (initialize_database exUtc upgrades exV5Redeemed).1 "vouchers" "number" = some [.text "v1"] ∧
    columnValues (initialize_database exUtc upgrades exV5Redeemed).1 "vouchers" "sequestered-count" =
      some [.int 0] ∧
    columnValues (initialize_database exUtc upgrades exV5Redeemed).1 "unblinded-tokens" "redemption-group" =
      some [.int 1, .int 1] ∧
    columnValues (initialize_database exUtc upgrades exV5Redeemed).1 "version" "version" = some [.int 9] := by
  decide +kernel

/-! ### C63: tokens stay spendable -/

/-- C63: every unblinded token in a database of version 5 can be spent after the upgrade. -/
def C63_statement : Prop :=
  ∀ (utc : String → Option String) (db db' : Database) (token : String),
    OfVersion 5 db → initialize_database utc upgrades db = (db', .ok ()) →
    HasToken db token → Spendable db' token

/-- C63 does not hold: if no voucher is marked as redeemed (the only voucher is redeemed in part), the
upgrade makes no redemption group, but puts all tokens into group 1. -/
theorem C63_fails : ¬ C63_statement := by
  intro h
  have := h exUtc exV5 (initialize_database exUtc upgrades exV5).1 "t1" exV5_ok (by decide +kernel)
    ⟨[.text "t1", .text "t2"], by decide +kernel, by decide +kernel⟩
  revert this
  unfold Spendable
  decide +kernel

/-- C63, for databases in which some voucher is marked as redeemed.  Missing: the others, where it is
false. -/
theorem C63_partial (utc : String → Option String) (db db' : Database) (token : String)
    (h : OfVersion 5 db) (hi : initialize_database utc upgrades db = (db', .ok ()))
    (hred : SomeRedeemed db) (ht : HasToken db token) : Spendable db' token := by
  obtain ⟨db1, h1, _, h3⟩ := initialize_any utc 5 (by omega) db h
  obtain rfl : db' = db1 := by rw [h3] at hi; exact (Prod.mk.inj hi).1.symm
  exact upgrade5_spendable utc db db' h h1 hred token ht

example : Spendable (initialize_database exUtc upgrades exV5Redeemed).1 "t1" :=
  C63_partial exUtc exV5Redeemed _ "t1" exV5Redeemed_ok
    (by decide +kernel : _ = ((initialize_database exUtc upgrades exV5Redeemed).1, Except.ok ()))
    ⟨[.text "redeemed"], by decide +kernel, by decide +kernel⟩
    ⟨[.text "t1", .text "t2"], by decide +kernel, by decide +kernel⟩

/-! ### C64: vouchers stay readable -/

/-- C64: every voucher that software of version 7 can read can be read after the upgrade. -/
def C64_statement : Prop :=
  ∀ (utc : String → Option String) (db db' : Database) (r : VoucherRow),
    ConvertsTimes utc → OfVersion 7 db → initialize_database utc upgrades db = (db', .ok ()) →
    HasVoucherRow db r → ReadableLocal r →
    ∃ r', HasVoucherRow db' r' ∧ r'.number = r.number ∧ Readable r'

/-- A database of version 7 with a redeemed voucher and a pending one. -/
def exV7 : Database where
  tables := [
    ⟨⟨"version", [{ name := "version" }], .none, []⟩, [[.int 7]]⟩,
    ⟨(schemaAt 7)[1]'(by decide), [
      [.text "v1", .text "2020-01-02 03:04:05", .text "redeemed", .text "2020-01-02 03:05:05", .int 64,
        .text "pk", .int 1, .int 64, .int 0],
      [.text "v2", .text "2020-02-02 03:04:05", .text "pending", .null, .null, .null, .int 0, .int 64, .int 0]]⟩,
    ⟨(schemaAt 7)[2]'(by decide), []⟩,
    ⟨(schemaAt 7)[3]'(by decide), [[.text "t1", .int 1]]⟩,
    ⟨(schemaAt 7)[4]'(by decide), []⟩,
    ⟨(schemaAt 7)[5]'(by decide), []⟩,
    ⟨(schemaAt 7)[6]'(by decide), [[.int 1, .text "v1", .int 1, .text "pk"]]⟩,
    ⟨(schemaAt 7)[7]'(by decide), []⟩]
  sequence := some []

theorem exV7_ok : OfVersion 7 exV7 := ⟨by decide +kernel, by decide +kernel, by decide +kernel⟩

theorem exUtc_ok : ConvertsTimes exUtc := fun s hs => ⟨s, rfl, hs⟩

theorem local1 : LocalTime "2020-01-02 03:04:05" :=
  ⟨⟨2020, 1, 2, 3, 4, 5, 0⟩, by constructor <;> decide, by decide +kernel⟩

theorem local2 : LocalTime "2020-01-02 03:05:05" :=
  ⟨⟨2020, 1, 2, 3, 5, 5, 0⟩, by constructor <;> decide, by decide +kernel⟩

theorem local3 : LocalTime "2020-02-02 03:04:05" :=
  ⟨⟨2020, 2, 2, 3, 4, 5, 0⟩, by constructor <;> decide, by decide +kernel⟩

/-- The redeemed voucher of `exV7`. -/
def exRow1 : VoucherRow :=
  ⟨"v1", "2020-01-02 03:04:05", "redeemed", some "2020-01-02 03:05:05", some 64, 1, 64, 0⟩

/-- The pending voucher of `exV7`. -/
def exRow2 : VoucherRow := ⟨"v2", "2020-02-02 03:04:05", "pending", none, none, 0, 64, 0⟩

/-- C64 does not hold: the upgrade adds a time zone to the time of creation but not to the time at
which a voucher was redeemed, and reading the voucher raises. -/
theorem C64_fails : ¬ C64_statement := by
  intro h
  obtain ⟨r', ⟨t, ht, hn, row, hrow, hd⟩, hnum, v, hv⟩ :=
    h exUtc exV7 (initialize_database exUtc upgrades exV7).1 exRow1 exUtc_ok exV7_ok (by decide +kernel)
      ⟨⟨(schemaAt 7)[1]'(by decide), _⟩, List.mem_cons_of_mem _ List.mem_cons_self, rfl, _,
        List.mem_cons_self, by decide +kernel⟩
      ⟨local1, Or.inr (Or.inr ⟨rfl, _, _, rfl, local2, rfl⟩)⟩
  have key : ∀ t ∈ (initialize_database exUtc upgrades exV7).1.tables, t.schema.name = "vouchers" →
      ∀ row ∈ t.rows, ∀ r ∈ voucher_row t.schema row, r.number = "v1" →
        (Voucher.from_row (parse_datetime ' ') r).isOk = false := by
    decide +kernel
  have := key t ht hn row hrow r' hd hnum
  rw [hv] at this
  exact nomatch this

/-- C64, for vouchers that are neither redeemed nor already spent.  Missing: the others, where it is
false. -/
theorem C64_partial (utc : String → Option String) (db db' : Database) (r : VoucherRow)
    (hutc : ConvertsTimes utc) (h : OfVersion 7 db)
    (hi : initialize_database utc upgrades db = (db', .ok ())) (hr : HasVoucherRow db r)
    (hread : ReadableLocal r) (hs : r.state = "pending") :
    ∃ r', HasVoucherRow db' r' ∧ r'.number = r.number ∧ Readable r' := by
  obtain ⟨db1, h1, _, h3⟩ := initialize_any utc 7 (by omega) db h
  obtain rfl : db' = db1 := by rw [h3] at hi; exact (Prod.mk.inj hi).1.symm
  obtain ⟨u, hu, hl⟩ := hutc r.created hread.1
  exact ⟨_, upgrade7_voucher utc db db' h h1 r hr u hu, rfl, readable_pending r hs u hl⟩

example : ∃ r', HasVoucherRow (initialize_database exUtc upgrades exV7).1 r' ∧ r'.number = "v2" ∧
    Readable r' :=
  C64_partial exUtc exV7 _ exRow2 exUtc_ok exV7_ok
    (by decide +kernel : _ = ((initialize_database exUtc upgrades exV7).1, Except.ok ()))
    ⟨⟨(schemaAt 7)[1]'(by decide), _⟩, List.mem_cons_of_mem _ List.mem_cons_self, rfl, _,
      List.mem_cons_of_mem _ List.mem_cons_self, by decide +kernel⟩
    ⟨local3, Or.inl rfl⟩ rfl

/-! ### C81: crashes during an upgrade -/

/-- C81: if the process dies while the database is being upgraded, opening the database again
completes the upgrade. -/
def C81_statement : Prop :=
  ∀ (utc : String → Option String) (v n : Nat) (db : Database), v ≤ currentVersion → OfVersion v db →
    ∃ db', initialize_database utc upgrades (crash_while_initializing utc upgrades n db) = (db', .ok ()) ∧
      OfVersion currentVersion db'

/-- C81 does not hold: the statements that change the schema are not executed in a transaction until
the first data-changing statement.  If the process dies after one statement, the column or table
is there but the version is the old one. -/
theorem C81_fails : ¬ C81_statement := by
  intro h
  obtain ⟨db', hi, _⟩ := h exUtc 5 1 exV5 (by decide) exV5_ok
  have : (initialize_database exUtc upgrades (crash_while_initializing exUtc upgrades 1 exV5)).2 =
      .error .operationalError := by decide +kernel
  rw [hi] at this
  exact nomatch this

/-- After such a crash the database can never be opened again: opening it raises and leaves it as
it is.  This is so for every database of each of these versions. -/
theorem C81_stuck (utc : String → Option String) (v : Nat) (hv : v < currentVersion) (hv7 : v ≠ 7)
    (db : Database) (h : OfVersion v db) :
    initialize_database utc upgrades (crash_while_initializing utc upgrades 1 db) =
      (crash_while_initializing utc upgrades 1 db, .error .operationalError) :=
  crash_stuck utc v hv hv7 db h

/-- C81, for databases of version 7 and of the current version.  Missing: the other versions, where
it is false. -/
theorem C81_partial (utc : String → Option String) (v n : Nat) (db : Database)
    (hv : v = 7 ∨ v = currentVersion) (h : OfVersion v db) :
    crash_while_initializing utc upgrades n db = db ∧
    ∃ db', initialize_database utc upgrades (crash_while_initializing utc upgrades n db) = (db', .ok ()) ∧
      OfVersion currentVersion db' := by
  have hc : crash_while_initializing utc upgrades n db = db := by
    obtain ⟨_, hc, hr⟩ := version_of h
    have e : (({ committed := db } : Conn Database).executeAll utc [.createVersion]) =
        (⟨db, none, false⟩, .ok ()) := by
      simp only [Conn.executeAll, Conn.execute, hc utc]
      rfl
    simp only [crash_while_initializing, e, Conn.current, Option.getD_none, hr, Conn.crash]
    rcases hv with rfl | rfl
    · obtain _ | n := n
      · rfl
      · rw [show get_schema_upgrades upgrades ((7 : Nat) : Int) =
          .toUtc "vouchers" "created" :: (get_schema_upgrades upgrades 7).tail from by decide +kernel,
          List.take_succ_cons]
        exact executeAll_dml utc _ _ rfl db
    · rw [show get_schema_upgrades upgrades ((currentVersion : Nat) : Int) = [] from by decide +kernel,
        List.take_nil]
      rfl
  rw [hc]
  exact ⟨rfl, C62_reaches_current utc v (by rcases hv with rfl | rfl <;> decide) db h⟩

example : crash_while_initializing exUtc upgrades 3 exV7 = exV7 :=
  (C81_partial exUtc 7 3 exV7 (Or.inl rfl) exV7_ok).1

end ZKAP
