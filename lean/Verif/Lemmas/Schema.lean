import Verif.Model.Schema
import Verif.Spec.Schema

/-! Lemmas about schema upgrades. -/
namespace ZKAP
open Spec

/-! ### Tables and rows -/

theorem columnValues_eq (db : Database) (n c : String) :
    columnValues db n c = (db.find n).bind fun t => (t.schema.index c).map fun i =>
      t.rows.map fun row => row.getD i .null := by
  simp only [columnValues, Database.find, TableDef.index]
  cases hf : List.find? (fun t => t.schema.name == n) db.tables with
  | none => rfl
  | some t =>
    simp only [Option.bind_some]
    cases List.findIdx? (fun x => x.name == c) t.schema.columns <;> rfl

theorem find_name {db : Database} {n t} (h : db.find n = some t) : t.schema.name = n := by
  have := List.find?_some h
  simpa using this

theorem find_mem {db : Database} {n t} (h : db.find n = some t) : t ∈ db.tables :=
  List.mem_of_find?_eq_some h

theorem find_modify (db : Database) (n m : String) (f : Table → Table)
    (hf : ∀ t, (f t).schema.name = t.schema.name) :
    (db.modify n f).find m = if m = n then (db.find m).map f else db.find m := by
  unfold Database.find Database.modify
  simp only
  induction db.tables with
  | nil => simp
  | cons t ts ih =>
    simp only [List.map_cons, List.find?_cons]
    by_cases h : t.schema.name = n
    · subst h
      by_cases hm : t.schema.name = m
      · subst hm
        simp [hf]
      · have hm' : ¬ m = t.schema.name := fun h => hm h.symm
        have hb : (t.schema.name == m) = false := by simpa using hm
        simp only [beq_self_eq_true, if_true, hf, hb, hm', if_false] at ih ⊢
        exact ih
    · rw [if_neg (by simpa using h)]
      by_cases hm : t.schema.name = m
      · subst hm
        simp [h]
      · have hb : (t.schema.name == m) = false := by simpa using hm
        simp only [hb]
        exact ih

theorem find_append (ts us : List Table) (sq) (n : String) :
    (Database.mk (ts ++ us) sq).find n =
      ((Database.mk ts sq).find n).or ((Database.mk us sq).find n) := by
  simp [Database.find, List.find?_append]

theorem find_sequence (ts : List Table) (sq sq') (n : String) :
    (Database.mk ts sq).find n = (Database.mk ts sq').find n := rfl

theorem maxInt_le {n : Int} {vs : List Value} (h : .int n ∈ vs) : n ≤ maxInt vs := by
  induction vs with
  | nil => exact nomatch h
  | cons v vs ih =>
    rcases List.mem_cons.1 h with h | h
    · subst h
      exact Int.le_max_left ..
    · have := ih h
      cases v <;> simp only [maxInt] <;> omega

theorem maxInt_nonneg (vs : List Value) : 0 ≤ maxInt vs := by
  induction vs with
  | nil => exact Int.le_refl _
  | cons v vs ih => cases v <;> simp only [maxInt] <;> omega

/-! ### Numbering rows of `[redemption-groups]` -/

/-- Rows with the numbers `k`, `k + 1`, … -/
def numberFrom (k : Int) : List Row → List Row
  | [] => []
  | row :: rows => row.set 0 (.int k) :: numberFrom (k + 1) rows

theorem maxInt_append (us vs : List Value) : maxInt (us ++ vs) = max (maxInt us) (maxInt vs) := by
  induction us with
  | nil =>
    have := maxInt_nonneg vs
    simp only [List.nil_append, maxInt]
    omega
  | cons u us ih => cases u <;> simp only [List.cons_append, maxInt, ih] <;> omega

theorem groups_insertRow (db : Database) (rows : List Row) (row : Row)
    (hf : db.find "redemption-groups" = some ⟨redemption_groups_v6, rows⟩)
    (hl : row.length = 4) (hn : row.getD 0 .null = .null) :
    db.insertRow false "redemption-groups" row =
      .ok (db.modify "redemption-groups" fun t => { t with
        rows := t.rows ++ [row.set 0 (.int (maxInt (Table.values ⟨redemption_groups_v6, rows⟩ "rowid") + 1))] }) := by
  have hidx : redemption_groups_v6.index "rowid" = some 0 := by decide
  have hnum : db.numberRow ⟨redemption_groups_v6, rows⟩ row =
      row.set 0 (.int (maxInt (Table.values ⟨redemption_groups_v6, rows⟩ "rowid") + 1)) := by
    simp only [Database.numberRow, show redemption_groups_v6.key = .integer "rowid" from rfl, hidx, hn,
      if_true, Database.nextNumber]
  have hget : redemption_groups_v6.get
      (row.set 0 (.int (maxInt (Table.values ⟨redemption_groups_v6, rows⟩ "rowid") + 1))) "rowid" =
      .int (maxInt (Table.values ⟨redemption_groups_v6, rows⟩ "rowid") + 1) := by
    simp only [TableDef.get, hidx]
    obtain _ | ⟨x, xs⟩ := row
    · exact nomatch hl
    · rfl
  have hkey : Table.keyFree ⟨redemption_groups_v6, rows⟩
      (row.set 0 (.int (maxInt (Table.values ⟨redemption_groups_v6, rows⟩ "rowid") + 1))) = true := by
    simp only [Table.keyFree, show redemption_groups_v6.key.column = some "rowid" from rfl, hget]
    simp only [Bool.or_eq_true, Bool.not_eq_true', List.contains_eq_mem, decide_eq_false_iff_not]
    right
    intro h
    have := maxInt_le h
    omega
  have hty : redemption_groups_v6.keyTyped
      (row.set 0 (.int (maxInt (Table.values ⟨redemption_groups_v6, rows⟩ "rowid") + 1))) = true := by
    simp only [TableDef.keyTyped, show redemption_groups_v6.key = .integer "rowid" from rfl, hget]
  unfold Database.insertRow
  simp only [hf, show redemption_groups_v6.columns.length = 4 from rfl, hl, ne_eq, not_true_eq_false,
    if_false, show redemption_groups_v6.foreign = [] from rfl, List.all_nil, Bool.not_true,
    Bool.false_eq_true, hnum, hkey, Bool.or_true, if_true]
  simp only [show ∀ r, TableDef.notNullOk redemption_groups_v6 r = true from fun r => by
    simp [TableDef.notNullOk, redemption_groups_v6]]
  simp only [hty, Bool.and_self, Bool.not_true, Bool.false_eq_true, if_false, Database.noteNumber,
    show redemption_groups_v6.key = .integer "rowid" from rfl]
  rfl

theorem groups_insertRows (new : List Row) (hnew : ∀ row ∈ new, row.length = 4 ∧ row.getD 0 .null = .null) :
    ∀ (db : Database) (rows : List Row),
      db.find "redemption-groups" = some ⟨redemption_groups_v6, rows⟩ →
      db.insertRows false "redemption-groups" new =
        .ok (db.modify "redemption-groups" fun t => { t with
          rows := t.rows ++ numberFrom (maxInt (Table.values ⟨redemption_groups_v6, rows⟩ "rowid") + 1) new }) := by
  induction new with
  | nil =>
    intro db rows hf
    simp only [Database.insertRows, numberFrom, List.append_nil]
    unfold Database.modify
    simp
  | cons row new ih =>
    intro db rows hf
    have h1 := hnew row List.mem_cons_self
    rw [Database.insertRows, groups_insertRow db rows row hf h1.1 h1.2]
    simp only
    have hidx : redemption_groups_v6.index "rowid" = some 0 := by decide
    rw [ih (fun r hr => hnew r (List.mem_cons_of_mem _ hr)) _
      (rows ++ [row.set 0 (.int (maxInt (Table.values ⟨redemption_groups_v6, rows⟩ "rowid") + 1))])
      (by rw [find_modify]
          · rw [hf]; simp
          · intro t; rfl)]
    have hval : Table.values ⟨redemption_groups_v6,
        rows ++ [row.set 0 (.int (maxInt (Table.values ⟨redemption_groups_v6, rows⟩ "rowid") + 1))]⟩ "rowid" =
        Table.values ⟨redemption_groups_v6, rows⟩ "rowid" ++
          [.int (maxInt (Table.values ⟨redemption_groups_v6, rows⟩ "rowid") + 1)] := by
      simp only [Table.values, List.map_append, List.map_cons, List.map_nil, TableDef.get, hidx]
      obtain _ | ⟨x, xs⟩ := row
      · exact nomatch h1.1
      · rfl
    rw [hval, maxInt_append]
    have hm : max (maxInt (Table.values ⟨redemption_groups_v6, rows⟩ "rowid"))
        (maxInt [.int (maxInt (Table.values ⟨redemption_groups_v6, rows⟩ "rowid") + 1)]) =
        maxInt (Table.values ⟨redemption_groups_v6, rows⟩ "rowid") + 1 := by
      have := maxInt_nonneg (Table.values ⟨redemption_groups_v6, rows⟩ "rowid")
      simp only [maxInt]
      omega
    rw [hm]
    simp only [Database.modify, List.map_map, numberFrom]
    congr 2
    apply List.map_congr_left
    intro t _
    simp only [Function.comp]
    by_cases h : t.schema.name = "redemption-groups"
    · simp [h]
    · simp [h]

/-! ### One upgrade at a time -/

theorem tables_cons {ts : List Table} {d : TableDef} {ds : List TableDef}
    (h : ts.map (·.schema) = d :: ds) :
    ∃ rows rest, ts = ⟨d, rows⟩ :: rest ∧ rest.map (·.schema) = ds := by
  obtain _ | ⟨⟨d', rows⟩, rest⟩ := ts
  · exact nomatch h
  · simp only [List.map_cons, List.cons.injEq] at h
    exact ⟨rows, rest, by rw [h.1], h.2⟩

theorem tables_nil {ts : List Table} (h : ts.map (·.schema) = []) : ts = [] := by simpa using h

section
attribute [local simp] Database.modify Value.succ vouchers_v1 tokens_v1 unblinded_tokens_v1
  lease_maintenance_spending_v1 invalid_unblinded_tokens_v5 redemption_groups_v6 event_stream_v7

theorem step0 (utc) (db : Database) (h : OfVersion 0 db) :
    ∃ db', Sql.execAll utc false db ((upgrades.lookup 0).getD [] ++ [.incrementVersion]) = .ok db' ∧
      OfVersion 1 db' := by
  obtain ⟨ts, sq⟩ := db
  obtain ⟨ht, hr, hv⟩ := h
  simp only at ht hr hv
  rw [show schemaAt 0 = [{ name := "version", columns := [{ name := "version" }] }] from rfl] at ht
  obtain ⟨r0, t0, rfl, h0⟩ := tables_cons ht
  obtain rfl := tables_nil h0
  have hv := hv _ List.mem_cons_self rfl
  simp only at hv
  subst hv
  refine ⟨_, rfl, ?_⟩
  constructor
  · rfl
  · simp at hr
    simp
    try grind
  · simp

theorem step1 (utc) (db : Database) (h : OfVersion 1 db) :
    ∃ db', Sql.execAll utc false db ((upgrades.lookup 1).getD [] ++ [.incrementVersion]) = .ok db' ∧
      OfVersion 2 db' := by
  obtain ⟨ts, sq⟩ := db
  obtain ⟨ht, hr, hv⟩ := h
  simp only at ht hr hv
  simp [schemaAt, history] at ht
  obtain ⟨r0, t0, rfl, h0⟩ := tables_cons ht
  obtain ⟨r1, t1, rfl, h1⟩ := tables_cons h0
  obtain ⟨r2, t2, rfl, h2⟩ := tables_cons h1
  obtain ⟨r3, t3, rfl, h3⟩ := tables_cons h2
  obtain ⟨r4, t4, rfl, h4⟩ := tables_cons h3
  obtain rfl := tables_nil h4
  have hv := hv _ List.mem_cons_self rfl
  simp only at hv
  subst hv
  refine ⟨_, rfl, ?_⟩
  constructor
  · rfl
  · simp at hr
    simp
    try grind
  · simp

theorem step2 (utc) (db : Database) (h : OfVersion 2 db) :
    ∃ db', Sql.execAll utc false db ((upgrades.lookup 2).getD [] ++ [.incrementVersion]) = .ok db' ∧
      OfVersion 3 db' := by
  obtain ⟨ts, sq⟩ := db
  obtain ⟨ht, hr, hv⟩ := h
  simp only at ht hr hv
  simp [schemaAt, history] at ht
  obtain ⟨r0, t0, rfl, h0⟩ := tables_cons ht
  obtain ⟨r1, t1, rfl, h1⟩ := tables_cons h0
  obtain ⟨r2, t2, rfl, h2⟩ := tables_cons h1
  obtain ⟨r3, t3, rfl, h3⟩ := tables_cons h2
  obtain ⟨r4, t4, rfl, h4⟩ := tables_cons h3
  obtain rfl := tables_nil h4
  have hv := hv _ List.mem_cons_self rfl
  simp only at hv
  subst hv
  refine ⟨_, rfl, ?_⟩
  constructor
  · rfl
  · simp at hr
    simp
    try grind
  · simp

theorem step3 (utc) (db : Database) (h : OfVersion 3 db) :
    ∃ db', Sql.execAll utc false db ((upgrades.lookup 3).getD [] ++ [.incrementVersion]) = .ok db' ∧
      OfVersion 4 db' := by
  obtain ⟨ts, sq⟩ := db
  obtain ⟨ht, hr, hv⟩ := h
  simp only at ht hr hv
  simp [schemaAt, history] at ht
  obtain ⟨r0, t0, rfl, h0⟩ := tables_cons ht
  obtain ⟨r1, t1, rfl, h1⟩ := tables_cons h0
  obtain ⟨r2, t2, rfl, h2⟩ := tables_cons h1
  obtain ⟨r3, t3, rfl, h3⟩ := tables_cons h2
  obtain ⟨r4, t4, rfl, h4⟩ := tables_cons h3
  obtain rfl := tables_nil h4
  have hv := hv _ List.mem_cons_self rfl
  simp only at hv
  subst hv
  refine ⟨_, rfl, ?_⟩
  constructor
  · rfl
  · simp at hr
    simp
    try grind
  · simp

theorem step4 (utc) (db : Database) (h : OfVersion 4 db) :
    ∃ db', Sql.execAll utc false db ((upgrades.lookup 4).getD [] ++ [.incrementVersion]) = .ok db' ∧
      OfVersion 5 db' := by
  obtain ⟨ts, sq⟩ := db
  obtain ⟨ht, hr, hv⟩ := h
  simp only at ht hr hv
  simp [schemaAt, history] at ht
  obtain ⟨r0, t0, rfl, h0⟩ := tables_cons ht
  obtain ⟨r1, t1, rfl, h1⟩ := tables_cons h0
  obtain ⟨r2, t2, rfl, h2⟩ := tables_cons h1
  obtain ⟨r3, t3, rfl, h3⟩ := tables_cons h2
  obtain ⟨r4, t4, rfl, h4⟩ := tables_cons h3
  obtain rfl := tables_nil h4
  have hv := hv _ List.mem_cons_self rfl
  simp only at hv
  subst hv
  refine ⟨_, rfl, ?_⟩
  constructor
  · rfl
  · simp at hr
    simp
    try grind
  · simp

/-- The rows that the upgrade to version 6 adds to `[redemption-groups]`, before they are numbered. -/
def groupRows (vouchers : Table) : List Row :=
  ((vouchers.rows.filter fun row => vouchers.schema.get row "state" == .text "redeemed").map fun row =>
    (vouchers.schema.get row "number", vouchers.schema.get row "public-key")).eraseDups.map
    fun (number, publicKey) => [.null, number, .int 1, publicKey]

theorem groupRows_ok (vouchers : Table) :
    ∀ row ∈ groupRows vouchers, row.length = 4 ∧ row.getD 0 .null = .null := by
  intro row h
  obtain ⟨⟨a, b⟩, _, rfl⟩ := List.mem_map.1 h
  exact ⟨rfl, rfl⟩

theorem exec_groups (utc) (db : Database) (vouchers : Table) (rows : List Row)
    (hv : db.find "vouchers" = some vouchers)
    (hg : db.find "redemption-groups" = some ⟨redemption_groups_v6, rows⟩) :
    Sql.exec utc false db .groupsOfRedeemed =
      .ok (db.modify "redemption-groups" fun t => { t with
        rows := t.rows ++ numberFrom (maxInt (Table.values ⟨redemption_groups_v6, rows⟩ "rowid") + 1)
          (groupRows vouchers) }) := by
  rw [← groups_insertRows _ (groupRows_ok vouchers) db rows hg]
  simp only [Sql.exec, hv, hg]
  rfl

theorem step5 (utc) (db : Database) (h : OfVersion 5 db) :
    ∃ db', Sql.execAll utc false db ((upgrades.lookup 5).getD [] ++ [.incrementVersion]) = .ok db' ∧
      OfVersion 6 db' := by
  obtain ⟨ts, sq⟩ := db
  obtain ⟨ht, hr, hv⟩ := h
  simp only at ht hr hv
  simp [schemaAt, history] at ht
  obtain ⟨r0, t0, rfl, h0⟩ := tables_cons ht
  obtain ⟨r1, t1, rfl, h1⟩ := tables_cons h0
  obtain ⟨r2, t2, rfl, h2⟩ := tables_cons h1
  obtain ⟨r3, t3, rfl, h3⟩ := tables_cons h2
  obtain ⟨r4, t4, rfl, h4⟩ := tables_cons h3
  obtain ⟨r5, t5, rfl, h5⟩ := tables_cons h4
  obtain rfl := tables_nil h5
  have hv := hv _ List.mem_cons_self rfl
  simp only at hv
  subst hv
  rw [show ((upgrades.lookup 5).getD [] ++ [.incrementVersion]) =
    .createTable redemption_groups_v6 :: .groupsOfRedeemed ::
    .addColumn "vouchers" { name := "sequestered-count", notNull := true, default := .int 0 } ::
    .addColumn "unblinded-tokens" { name := "redemption-group", default := .int 1 } ::
    [.incrementVersion] from rfl]
  rw [Sql.execAll]
  generalize hdb : Sql.exec _ _ _ _ = x
  change Except.ok _ = x at hdb
  subst hdb
  simp only
  rw [Sql.execAll, exec_groups utc _ _ [] rfl rfl]
  simp only
  refine ⟨_, rfl, ?_⟩
  constructor
  · rfl
  · simp at hr
    simp
    have key : ∀ (rows : List Row) (k : Int), (∀ row ∈ rows, row.length = 4) →
        ∀ row ∈ numberFrom k rows, row.length = 4 := by
      intro rows
      induction rows with
      | nil => intro k _ row h; exact nomatch h
      | cons r rs ih =>
        intro k hrs row h
        rcases List.mem_cons.1 h with h | h
        · rw [h, List.length_set]
          exact hrs r List.mem_cons_self
        · exact ih _ (fun r' h' => hrs r' (List.mem_cons_of_mem _ h')) row h
    refine ⟨?_, hr.2.1, ?_, hr.2.2.2.1, hr.2.2.2.2, ?_⟩
    · exact hr.1
    · exact hr.2.2.1
    · exact key _ _ (fun r h => (groupRows_ok _ r h).1)
  · simp

theorem step6 (utc) (db : Database) (h : OfVersion 6 db) :
    ∃ db', Sql.execAll utc false db ((upgrades.lookup 6).getD [] ++ [.incrementVersion]) = .ok db' ∧
      OfVersion 7 db' := by
  obtain ⟨ts, sq⟩ := db
  obtain ⟨ht, hr, hv⟩ := h
  simp only at ht hr hv
  simp [schemaAt, history] at ht
  obtain ⟨r0, t0, rfl, h0⟩ := tables_cons ht
  obtain ⟨r1, t1, rfl, h1⟩ := tables_cons h0
  obtain ⟨r2, t2, rfl, h2⟩ := tables_cons h1
  obtain ⟨r3, t3, rfl, h3⟩ := tables_cons h2
  obtain ⟨r4, t4, rfl, h4⟩ := tables_cons h3
  obtain ⟨r5, t5, rfl, h5⟩ := tables_cons h4
  obtain ⟨r6, t6, rfl, h6⟩ := tables_cons h5
  obtain rfl := tables_nil h6
  have hv := hv _ List.mem_cons_self rfl
  simp only at hv
  subst hv
  refine ⟨_, rfl, ?_⟩
  constructor
  · rfl
  · simp at hr
    simp
    try grind
  · simp

theorem step7 (utc) (db : Database) (h : OfVersion 7 db) :
    ∃ db', Sql.execAll utc false db ((upgrades.lookup 7).getD [] ++ [.incrementVersion]) = .ok db' ∧
      OfVersion 8 db' := by
  obtain ⟨ts, sq⟩ := db
  obtain ⟨ht, hr, hv⟩ := h
  simp only at ht hr hv
  simp [schemaAt, history] at ht
  obtain ⟨r0, t0, rfl, h0⟩ := tables_cons ht
  obtain ⟨r1, t1, rfl, h1⟩ := tables_cons h0
  obtain ⟨r2, t2, rfl, h2⟩ := tables_cons h1
  obtain ⟨r3, t3, rfl, h3⟩ := tables_cons h2
  obtain ⟨r4, t4, rfl, h4⟩ := tables_cons h3
  obtain ⟨r5, t5, rfl, h5⟩ := tables_cons h4
  obtain ⟨r6, t6, rfl, h6⟩ := tables_cons h5
  obtain ⟨r7, t7, rfl, h7⟩ := tables_cons h6
  obtain rfl := tables_nil h7
  have hv := hv _ List.mem_cons_self rfl
  simp only at hv
  subst hv
  refine ⟨_, rfl, ?_⟩
  constructor
  · rfl
  · simp at hr
    simp
    try grind
  · simp

theorem step8 (utc) (db : Database) (h : OfVersion 8 db) :
    ∃ db', Sql.execAll utc false db ((upgrades.lookup 8).getD [] ++ [.incrementVersion]) = .ok db' ∧
      OfVersion 9 db' := by
  obtain ⟨ts, sq⟩ := db
  obtain ⟨ht, hr, hv⟩ := h
  simp only at ht hr hv
  simp [schemaAt, history] at ht
  obtain ⟨r0, t0, rfl, h0⟩ := tables_cons ht
  obtain ⟨r1, t1, rfl, h1⟩ := tables_cons h0
  obtain ⟨r2, t2, rfl, h2⟩ := tables_cons h1
  obtain ⟨r3, t3, rfl, h3⟩ := tables_cons h2
  obtain ⟨r4, t4, rfl, h4⟩ := tables_cons h3
  obtain ⟨r5, t5, rfl, h5⟩ := tables_cons h4
  obtain ⟨r6, t6, rfl, h6⟩ := tables_cons h5
  obtain ⟨r7, t7, rfl, h7⟩ := tables_cons h6
  obtain rfl := tables_nil h7
  have hv := hv _ List.mem_cons_self rfl
  simp only at hv
  subst hv
  refine ⟨_, rfl, ?_⟩
  constructor
  · rfl
  · simp at hr
    simp
    try grind
  · simp

end

/-! ### Runs of upgrades -/

theorem execAll_append (utc) (deferred) (ss ts : List Sql) : ∀ (db : Database),
    Sql.execAll utc deferred db (ss ++ ts) =
      (Sql.execAll utc deferred db ss).bind fun db => Sql.execAll utc deferred db ts := by
  induction ss with
  | nil => intro db; rfl
  | cons s ss ih =>
    intro db
    simp only [List.cons_append, Sql.execAll]
    cases s.exec utc deferred db with
    | error e => rfl
    | ok db => exact ih db

theorem step (utc) (v : Nat) (hv : v < 9) (db : Database) (h : OfVersion v db) :
    ∃ db', Sql.execAll utc false db ((upgrades.lookup (v : Int)).getD [] ++ [.incrementVersion]) = .ok db' ∧
      OfVersion (v + 1) db' := by
  match v, hv, h with
  | 0, _, h => exact step0 utc db h
  | 1, _, h => exact step1 utc db h
  | 2, _, h => exact step2 utc db h
  | 3, _, h => exact step3 utc db h
  | 4, _, h => exact step4 utc db h
  | 5, _, h => exact step5 utc db h
  | 6, _, h => exact step6 utc db h
  | 7, _, h => exact step7 utc db h
  | 8, _, h => exact step8 utc db h

theorem upgrades_unfold : ∀ w, w < 10 → ∀ v, v < w →
    get_schema_upgrades (upgrades.take w) (v : Nat) =
      ((upgrades.lookup (v : Int)).getD [] ++ [.incrementVersion]) ++
        get_schema_upgrades (upgrades.take w) ((v + 1 : Nat) : Int) := by
  decide +kernel

theorem upgrades_end : ∀ w, w < 10 → get_schema_upgrades (upgrades.take w) (w : Nat) = [] := by
  decide +kernel

theorem upgrade_run (utc) (w : Nat) (hw : w < 10) : ∀ (k v : Nat), v + k = w → ∀ (db : Database),
    OfVersion v db → ∃ db',
      Sql.execAll utc false db (get_schema_upgrades (upgrades.take w) v) = .ok db' ∧ OfVersion w db' := by
  intro k
  induction k with
  | zero =>
    intro v hk db h
    obtain rfl : v = w := by omega
    rw [upgrades_end _ hw]
    exact ⟨db, rfl, h⟩
  | succ k ih =>
    intro v hk db h
    obtain ⟨db1, h1, h2⟩ := step utc v (by omega) db h
    obtain ⟨db2, h3, h4⟩ := ih (v + 1) (by omega) db1 h2
    refine ⟨db2, ?_, h4⟩
    rw [upgrades_unfold w hw v (by omega), execAll_append, h1]
    exact h3

theorem upgrades_split : ∀ w, w < 10 → ∀ v, v < w + 1 →
    get_schema_upgrades upgrades (v : Nat) =
      get_schema_upgrades (upgrades.take w) (v : Nat) ++ get_schema_upgrades upgrades (w : Nat) := by
  decide +kernel

/-! ### Connections -/

theorem executeAll_current (utc) (ss : List Sql) : ∀ (c : Conn Database), c.deferred = false →
    (c.executeAll utc ss).1.deferred = false ∧
    match Sql.execAll utc false c.current ss with
    | .ok db => (c.executeAll utc ss).2 = .ok () ∧ (c.executeAll utc ss).1.current = db
    | .error e => (c.executeAll utc ss).2 = .error e := by
  induction ss with
  | nil => intro c h; exact ⟨h, rfl, rfl⟩
  | cons s ss ih =>
    intro c h
    obtain ⟨committed, working, deferred⟩ := c
    simp only at h
    subst h
    simp only [Conn.executeAll, Sql.execAll]
    obtain _ | d := working
    · simp only [Conn.execute, Conn.current, Option.getD_none]
      by_cases hdml : s.opensTransaction = true
      · rw [if_pos hdml]
        cases he : s.exec utc false committed with
        | error e => exact ⟨rfl, rfl⟩
        | ok d' => exact ih ⟨committed, some d', false⟩ rfl
      · rw [if_neg hdml]
        cases he : s.exec utc false committed with
        | error e => exact ⟨rfl, rfl⟩
        | ok d' => exact ih ⟨d', none, false⟩ rfl
    · simp only [Conn.execute, Conn.current, Option.getD_some]
      cases he : s.exec utc false d with
      | error e => exact ⟨rfl, rfl⟩
      | ok d' => exact ih ⟨committed, some d', false⟩ rfl

theorem exit_ok {α} (c : Conn Database) (hd : c.deferred = false) (a : α) :
    c.exit Database.foreignOk (.ok a) = (⟨c.current, none, false⟩, .ok a) := by
  obtain ⟨committed, working, deferred⟩ := c
  simp only at hd
  subst hd
  cases working <;> rfl

/-- Opening a database that has a version table executes the upgrades from its version. -/
theorem initialize_eq (utc) (table) (db db1 db' : Database) (v : Int)
    (hc : Sql.exec utc false db .createVersion = .ok db1) (hv : read_schema_version db1 = .ok v)
    (hu : Sql.execAll utc false db1 (get_schema_upgrades table v) = .ok db') :
    initialize_database utc table db = (db', .ok ()) := by
  have e : (({ committed := db } : Conn Database).executeAll utc [.createVersion]) =
      (⟨db1, none, false⟩, .ok ()) := by
    simp only [Conn.executeAll, Conn.execute, hc]
    rfl
  have k := executeAll_current utc (get_schema_upgrades table v) ⟨db1, none, false⟩ rfl
  simp only [Conn.current, Option.getD_none, hu] at k
  simp only [initialize_database, upgrade_body, e, Conn.current, Option.getD_none, hv]
  generalize (Conn.executeAll utc ⟨db1, none, false⟩ (get_schema_upgrades table v)) = x at k
  obtain ⟨c, r⟩ := x
  simp only at k
  obtain ⟨k1, rfl, k3⟩ := k
  simp only [exit_ok c k1, Conn.current, k3]

theorem version_of {v : Nat} {db : Database} (h : OfVersion v db) :
    Sql.exec (fun _ => none) false db .createVersion = .ok db ∧
    (∀ utc, Sql.exec utc false db .createVersion = .ok db) ∧ read_schema_version db = .ok (v : Int) := by
  obtain ⟨ts, sq⟩ := db
  obtain ⟨ht, hr, hv⟩ := h
  simp only at ht hr hv
  have hs : schemaAt v = { name := "version", columns := [{ name := "version" }] } :: (schemaAt v).tail := by
    simp [schemaAt, history]
  rw [hs] at ht
  obtain ⟨r0, t0, rfl, h0⟩ := tables_cons ht
  have hv := hv _ List.mem_cons_self rfl
  simp only at hv
  subst hv
  exact ⟨rfl, fun _ => rfl, rfl⟩

end ZKAP
