import Verif.Lemmas.SchemaValues
import Verif.Lemmas.VoucherJson

/-! New columns, tokens, times, and crashes. -/
namespace ZKAP
open Spec

/-! ### New columns -/

/-- A table of that name has that column. -/
def hasColumn (ds : List TableDef) (n c : String) : Bool :=
  match ds.find? fun d => d.name == n with
  | none => false
  | some d => (d.columns.findIdx? fun x => x.name == c).isSome

theorem columnValues_isSome (db : Database) (n c : String) :
    (columnValues db n c).isSome = hasColumn (db.tables.map (·.schema)) n c := by
  simp only [columnValues, hasColumn, List.find?_map]
  rw [show ((fun d : TableDef => d.name == n) ∘ fun x : Table => x.schema) =
    fun t : Table => t.schema.name == n from rfl]
  cases List.find? (fun t : Table => t.schema.name == n) db.tables with
  | none => rfl
  | some t =>
    simp only [Option.map_some]
    cases List.findIdx? (fun x => x.name == c) t.schema.columns <;> rfl

/-- The column does not exist or has only this value. -/
def OnlyDefault (db : Database) (n c : String) (d : Value) : Prop :=
  ∀ vs, columnValues db n c = some vs → ∀ x ∈ vs, x = d

/-- The statement can only put this value into this column. -/
def Sql.keepsDefault (s : Sql) (n c : String) (d : Value) : Bool :=
  s.written != some n && (!s.converts n c || d == .null) &&
    match s with
    | .addColumn m col => !(m == n && col.name == c) || col.default == d
    | .createVersion => n != "version"
    | _ => true

theorem exec_keepsDefault {utc deferred} {db db' : Database} {s : Sql} (h : TidyDb db)
    (he : s.exec utc deferred db = .ok db') {n c d} (hs : s.keepsDefault n c d = true)
    (hd : OnlyDefault db n c d) : OnlyDefault db' n c d := by
  simp only [Sql.keepsDefault, Bool.and_eq_true, bne_iff_ne, Bool.or_eq_true, Bool.not_eq_true',
    beq_iff_eq] at hs
  obtain ⟨⟨hw, hc⟩, hs⟩ := hs
  cases hv : columnValues db n c with
  | some vs =>
    have := exec_values h he hw hv
    intro vs' hvs'
    rw [this] at hvs'
    cases hvs'
    by_cases hconv : s.converts n c = true
    · rw [if_pos hconv]
      have hnull : d = .null := by
        rcases hc with hc | hc
        · rw [hconv] at hc; exact nomatch hc
        · exact hc
      intro x hx
      obtain ⟨y, hy, rfl⟩ := List.mem_map.1 hx
      rw [hd vs hv y hy, hnull]
      rfl
    · rw [if_neg hconv]
      exact hd vs hv
  | none =>
    intro vs' hvs'
    -- the column is new
    rw [columnValues_eq] at hv hvs'
    have same : db'.find n = db.find n → ∀ x ∈ vs', x = d := by
      intro e
      rw [e, hv] at hvs'
      exact nomatch hvs'
    cases s with
    | createTable td =>
      simp only [Sql.exec] at he
      split at he
      · exact nomatch he
      · cases he
        simp only [Database.find, List.find?_append] at hvs' same
        cases hf : List.find? (fun t => t.schema.name == n) db.tables with
        | some t => rw [hf] at same; exact same rfl
        | none =>
          rw [hf] at hvs'
          simp only [Option.none_or, List.find?_cons] at hvs'
          split at hvs'
          · simp only [Option.bind_some] at hvs'
            obtain ⟨i, _, rfl⟩ := Option.map_eq_some_iff.1 hvs'
            intro x hx
            exact nomatch hx
          · exact nomatch hvs'
    | createVersion =>
      simp only [Sql.exec] at he
      split at he
      · cases he; exact same rfl
      · cases he
        simp only [bne_iff_ne] at hs
        simp only [Database.find, List.find?_append] at hvs' same
        cases hf : List.find? (fun t => t.schema.name == n) db.tables with
        | some t => rw [hf] at same; exact same rfl
        | none =>
          rw [hf] at hvs'
          simp only [Option.none_or, List.find?_cons] at hvs'
          rw [show (("version" : String) == n) = false by simpa using fun e => hs e.symm] at hvs'
          exact nomatch hvs'
    | addColumn m col =>
      simp only [Sql.exec] at he
      split at he
      · exact nomatch he
      · split at he
        · exact nomatch he
        · cases he
          rw [find_modify _ _ _ _ (by intro t; rfl)] at same hvs'
          by_cases hnm : n = m
          · subst hnm
            rw [if_pos rfl] at hvs'
            cases hf : db.find n with
            | none => rw [hf] at hvs'; exact nomatch hvs'
            | some t =>
              rw [hf] at hvs' hv
              simp only [Option.map_some, Option.bind_some] at hvs' hv
              have hnone : t.schema.index c = none := by
                cases hi : t.schema.index c with
                | none => rfl
                | some i => rw [hi] at hv; exact nomatch hv
              obtain ⟨i, hi, rfl⟩ := Option.map_eq_some_iff.1 hvs'
              simp only [TableDef.index, List.findIdx?_append] at hi
              rw [show List.findIdx? (fun x => x.name == c) t.schema.columns = none from hnone] at hi
              simp only [Option.none_or, List.findIdx?_cons, List.findIdx?_nil, Option.map_none] at hi
              split at hi
              · rename_i hcol
                simp only [Option.map_some, Nat.zero_add, Option.some.injEq] at hi
                subst hi
                simp only [beq_iff_eq] at hcol
                subst hcol
                simp only [beq_self_eq_true, Bool.and_self, Bool.not_true, Bool.false_or, beq_iff_eq] at hs
                intro x hx
                simp only [List.map_map, List.mem_map, Function.comp] at hx
                obtain ⟨row, hrow, rfl⟩ := hx
                rw [← hs, ← h.rows t (find_mem hf) row hrow]
                simp
              · exact nomatch hi
          · rw [if_neg hnm] at same
            exact same rfl
    | dropTable m =>
      simp only [Sql.exec] at he
      split at he
      · exact nomatch he
      · split at he
        · exact nomatch he
        · cases he
          apply same
          have hnm : n ≠ m := by
            intro e; exact hw (by rw [e]; rfl)
          simp only [Database.find]
          rw [List.find?_filter]
          congr 1
          funext u
          by_cases hu : u.schema.name = n
          · simp [hu, hnm]
          · have : (u.schema.name == n) = false := by simpa using hu
            simp [this]
    | insert m row => exact same (find_insertRow he (fun e => hw (by rw [e]; rfl)))
    | insertNamed m named =>
      simp only [Sql.exec] at he
      split at he
      · exact nomatch he
      · split at he
        · exact nomatch he
        · exact same (find_insertRow he (fun e => hw (by rw [e]; rfl)))
    | insertOrIgnore m named =>
      simp only [Sql.exec] at he
      split at he
      · exact nomatch he
      · split at he
        · exact nomatch he
        · split at he
          · cases he; exact same rfl
          · exact same (find_insertRow he (fun e => hw (by rw [e]; rfl)))
    | update m sets wheres =>
      simp only [Sql.exec] at he
      split at he
      · exact nomatch he
      · split at he
        · exact nomatch he
        · split at he
          · cases he
            apply same
            rw [find_modify _ _ _ _ (by intro t; rfl), if_neg (fun e => hw (by rw [e]; rfl))]
          · exact nomatch he
    | delete m wheres =>
      simp only [Sql.exec] at he
      split at he
      · exact nomatch he
      · split at he
        · exact nomatch he
        · split at he
          · cases he
            apply same
            rw [find_modify _ _ _ _ (by intro t; rfl), if_neg (fun e => hw (by rw [e]; rfl))]
          · exact nomatch he
    | incrementVersion =>
      simp only [Sql.exec] at he
      split at he
      · exact nomatch he
      · split at he
        · exact nomatch he
        · cases he
          apply same
          rw [find_modify _ _ _ _ (by intro t; rfl), if_neg (fun e => hw (by rw [e]; rfl))]
    | groupsOfRedeemed =>
      simp only [Sql.exec] at he
      split at he
      · exact same (find_insertRows _ (fun e => hw (by rw [e]; rfl)) he)
      · exact nomatch he
    | toUtc m col =>
      simp only [Sql.exec] at he
      split at he
      · exact nomatch he
      · rename_i t' ht'
        split at he
        · exact nomatch he
        · rename_i j hj
          cases he
          rw [find_modify _ _ _ _ (by intro t; rfl)] at same hvs'
          by_cases hnm : n = m
          · subst hnm
            rw [if_pos rfl] at hvs'
            rw [ht'] at hvs' hv
            simp only [Option.map_some, Option.bind_some] at hvs' hv
            cases hi : t'.schema.index c with
            | none => rw [hi] at hvs'; exact nomatch hvs'
            | some i => rw [hi] at hv; exact nomatch hv
          · rw [if_neg hnm] at same
            exact same rfl
    | clearSequence =>
      simp only [Sql.exec] at he
      split at he
      · exact nomatch he
      · cases he; exact same rfl
    | insertSequence m k =>
      simp only [Sql.exec] at he
      split at he
      · exact nomatch he
      · cases he; exact same rfl
    | beginTransaction => exact nomatch he
    | commit => exact nomatch he
    | invalid => exact nomatch he

theorem execAll_keepsDefault {utc deferred} {n c d} (ss : List Sql)
    (hs : ∀ s ∈ ss, s.keepsDefault n c d = true) :
    ∀ {db db' : Database}, TidyDb db → Sql.execAll utc deferred db ss = .ok db' →
      OnlyDefault db n c d → OnlyDefault db' n c d := by
  induction ss with
  | nil => intro db db' h he hv; cases he; exact hv
  | cons s ss ih =>
    intro db db' h he hv
    rw [Sql.execAll] at he
    split at he
    · exact nomatch he
    · rename_i db1 h1
      exact ih (fun s' h' => hs s' (List.mem_cons_of_mem _ h')) (h.exec h1) he
        (exec_keepsDefault h h1 (hs s List.mem_cons_self) hv)

theorem schema_names : ∀ v, v < 10 → ((schemaAt v).map (·.name)).Nodup := by decide +kernel

theorem tidy_of {v : Nat} (hv : v < 10) {db : Database} (h : OfVersion v db) : TidyDb db := by
  refine ⟨h.rows, ?_⟩
  unfold NamesOk
  have : db.tables.map (·.schema.name) = (db.tables.map (·.schema)).map (·.name) := by
    rw [List.map_map]; rfl
  rw [this, h.tables]
  exact schema_names v hv

theorem take_all : upgrades.take 9 = upgrades := by decide +kernel

theorem upgrade_any (utc) (v : Nat) (hv : v < 10) (db : Database) (h : OfVersion v db) :
    ∃ db', Sql.execAll utc false db (get_schema_upgrades upgrades v) = .ok db' ∧ OfVersion 9 db' := by
  have := upgrade_run utc 9 (by omega) (9 - v) v (by omega) db h
  rwa [take_all] at this

theorem initialize_any (utc) (v : Nat) (hv : v < 10) (db : Database) (h : OfVersion v db) :
    ∃ db', Sql.execAll utc false db (get_schema_upgrades upgrades v) = .ok db' ∧ OfVersion 9 db' ∧
      initialize_database utc upgrades db = (db', .ok ()) := by
  obtain ⟨db', h1, h2⟩ := upgrade_any utc v hv db h
  obtain ⟨_, hc, hr⟩ := version_of h
  exact ⟨db', h1, h2, initialize_eq utc upgrades db db db' v (hc utc) hr h1⟩

/-! ### Which times are converted -/

/-- The columns converted by some statements. -/
def conversions : List Sql → List (String × String)
  | [] => []
  | .toUtc t c :: ss => (t, c) :: conversions ss
  | _ :: ss => conversions ss

theorem foldl_conversions (utc) (n c : String) (ss : List Sql) : ∀ (vs : List Value),
    ss.foldl (fun vs s => if s.converts n c then vs.map (toUtc utc) else vs) vs =
      (conversions ss).foldl (fun vs p => if (n, c) = p then vs.map (toUtc utc) else vs) vs := by
  induction ss with
  | nil => intro vs; rfl
  | cons s ss ih =>
    intro vs
    rw [List.foldl_cons, ih]
    cases s with
    | toUtc t' c' =>
      simp only [conversions, List.foldl_cons, Sql.converts, Bool.and_eq_true, beq_iff_eq, Prod.mk.injEq]
      congr 1
      by_cases h1 : n = t' ∧ c = c'
      · rw [if_pos h1, if_pos ⟨h1.1.symm, h1.2.symm⟩]
      · rw [if_neg h1, if_neg (fun e => h1 ⟨e.1.symm, e.2.symm⟩)]
    | _ => rfl

theorem conversions_upgrades : ∀ v, v < 10 → conversions (get_schema_upgrades upgrades (v : Nat)) =
    if v < 8 then convertedTimes else [] := by
  decide +kernel

theorem foldl_convertedTimes (utc) (n c : String) (vs : List Value) :
    convertedTimes.foldl (fun vs p => if (n, c) = p then vs.map (toUtc utc) else vs) vs =
      if (n, c) ∈ convertedTimes then vs.map (toUtc utc) else vs := by
  simp only [convertedTimes, List.foldl_cons, List.foldl_nil, List.mem_cons, List.not_mem_nil, or_false]
  by_cases h1 : (n, c) = ("vouchers", "created")
  · rw [h1]; rfl
  · by_cases h2 : (n, c) = ("lease-maintenance-spending", "started")
    · rw [h2]; rfl
    · by_cases h3 : (n, c) = ("lease-maintenance-spending", "finished")
      · rw [h3]; rfl
      · simp only [h1, h2, h3, if_false, or_self]

/-! ### The upgrade to version 6 -/

theorem numberFrom_cons (k : Int) (r : Row) (rs : List Row) :
    numberFrom k (r :: rs) = r.set 0 (.int k) :: numberFrom (k + 1) rs := rfl

theorem groupRows_nonempty (t : Table) (row : Row) (hrow : row ∈ t.rows)
    (hs : t.schema.get row "state" = .text "redeemed") :
    ∃ a b rest, groupRows t = [.null, a, .int 1, b] :: rest := by
  have hne : groupRows t ≠ [] := by
    unfold groupRows
    intro h
    have h := List.map_eq_nil_iff.1 h
    have hm : (t.schema.get row "number", t.schema.get row "public-key") ∈
        ((t.rows.filter fun row => t.schema.get row "state" == .text "redeemed").map fun row =>
          (t.schema.get row "number", t.schema.get row "public-key")).eraseDups :=
      List.mem_eraseDups.2 (List.mem_map.2 ⟨row, List.mem_filter.2 ⟨hrow, by simp [hs]⟩, rfl⟩)
    rw [h] at hm
    exact nomatch hm
  cases hg : groupRows t with
  | nil => exact absurd hg hne
  | cons r rest =>
    have : r ∈ groupRows t := by rw [hg]; exact List.mem_cons_self
    obtain ⟨⟨a, b⟩, _, rfl⟩ := List.mem_map.1 this
    exact ⟨a, b, rest, rfl⟩

/-! ### Tables that a statement does not name -/

/-- The tables whose rows or columns a statement may change. -/
def Sql.target : Sql → Option String
  | .addColumn t _ => some t
  | .toUtc t _ => some t
  | s => s.written

theorem exec_find {utc deferred} {db db' : Database} {s : Sql}
    (he : s.exec utc deferred db = .ok db') {n : String} {t} (hw : s.target ≠ some n)
    (hf : db.find n = some t) : db'.find n = some t := by
  have app : ∀ us sq, (Database.mk (db.tables ++ us) sq).find n = some t := by
    intro us sq
    simp only [Database.find, List.find?_append]
    rw [show List.find? (fun t => t.schema.name == n) db.tables = some t from hf]
    rfl
  cases s with
  | createTable d =>
    simp only [Sql.exec] at he
    split at he
    · exact nomatch he
    · cases he; exact app _ _
  | createVersion =>
    simp only [Sql.exec] at he
    split at he
    · cases he; exact hf
    · cases he; exact app _ _
  | addColumn m col =>
    simp only [Sql.exec] at he
    split at he
    · exact nomatch he
    · split at he
      · exact nomatch he
      · cases he
        rw [find_modify _ _ _ _ (by intro t; rfl), if_neg (fun e => hw (by rw [e]; rfl)), hf]
  | dropTable m =>
    simp only [Sql.exec] at he
    split at he
    · exact nomatch he
    · split at he
      · exact nomatch he
      · cases he
        have hnm : n ≠ m := by
          intro e; exact hw (by rw [e]; rfl)
        rw [← hf]
        simp only [Database.find]
        rw [List.find?_filter]
        congr 1
        funext u
        by_cases hu : u.schema.name = n
        · simp [hu, hnm]
        · have : (u.schema.name == n) = false := by simpa using hu
          simp [this]
  | insert m row => rw [find_insertRow he (fun e => hw (by rw [e]; rfl)), hf]
  | insertNamed m named =>
    simp only [Sql.exec] at he
    split at he
    · exact nomatch he
    · split at he
      · exact nomatch he
      · rw [find_insertRow he (fun e => hw (by rw [e]; rfl)), hf]
  | insertOrIgnore m named =>
    simp only [Sql.exec] at he
    split at he
    · exact nomatch he
    · split at he
      · exact nomatch he
      · split at he
        · cases he; exact hf
        · rw [find_insertRow he (fun e => hw (by rw [e]; rfl)), hf]
  | update m sets wheres =>
    simp only [Sql.exec] at he
    split at he
    · exact nomatch he
    · split at he
      · exact nomatch he
      · split at he
        · cases he
          rw [find_modify _ _ _ _ (by intro t; rfl), if_neg (fun e => hw (by rw [e]; rfl)), hf]
        · exact nomatch he
  | delete m wheres =>
    simp only [Sql.exec] at he
    split at he
    · exact nomatch he
    · split at he
      · exact nomatch he
      · split at he
        · cases he
          rw [find_modify _ _ _ _ (by intro t; rfl), if_neg (fun e => hw (by rw [e]; rfl)), hf]
        · exact nomatch he
  | incrementVersion =>
    simp only [Sql.exec] at he
    split at he
    · exact nomatch he
    · split at he
      · exact nomatch he
      · cases he
        rw [find_modify _ _ _ _ (by intro t; rfl), if_neg (fun e => hw (by rw [e]; rfl)), hf]
  | groupsOfRedeemed =>
    simp only [Sql.exec] at he
    split at he
    · rw [find_insertRows _ (fun e => hw (by rw [e]; rfl)) he, hf]
    · exact nomatch he
  | toUtc m col =>
    simp only [Sql.exec] at he
    split at he
    · exact nomatch he
    · split at he
      · exact nomatch he
      · cases he
        rw [find_modify _ _ _ _ (by intro t; rfl), if_neg (fun e => hw (by rw [e]; rfl)), hf]
  | clearSequence =>
    simp only [Sql.exec] at he
    split at he
    · exact nomatch he
    · cases he; exact hf
  | insertSequence m k =>
    simp only [Sql.exec] at he
    split at he
    · exact nomatch he
    · cases he; exact hf
  | beginTransaction => exact nomatch he
  | commit => exact nomatch he
  | invalid => exact nomatch he

theorem execAll_find {utc deferred} {n : String} {t} (ss : List Sql) (hw : ∀ s ∈ ss, s.target ≠ some n) :
    ∀ {db db' : Database}, Sql.execAll utc deferred db ss = .ok db' →
      db.find n = some t → db'.find n = some t := by
  induction ss with
  | nil => intro db db' he hv; cases he; exact hv
  | cons s ss ih =>
    intro db db' he hv
    rw [Sql.execAll] at he
    split at he
    · exact nomatch he
    · rename_i db1 h1
      exact ih (fun s' h' => hw s' (List.mem_cons_of_mem _ h')) he
        (exec_find h1 (hw s List.mem_cons_self) hv)

theorem upgrade5_spendable (utc) (db db' : Database) (h : OfVersion 5 db)
    (he : Sql.execAll utc false db (get_schema_upgrades upgrades 5) = .ok db')
    (hred : SomeRedeemed db) (token : String) (ht : HasToken db token) : Spendable db' token := by
  obtain ⟨ts, sq⟩ := db
  obtain ⟨hs, hr, hv⟩ := h
  simp only at hs hr hv
  simp [schemaAt, history] at hs
  obtain ⟨r0, t0, rfl, h0⟩ := tables_cons hs
  obtain ⟨r1, t1, rfl, h1⟩ := tables_cons h0
  obtain ⟨r2, t2, rfl, h2⟩ := tables_cons h1
  obtain ⟨r3, t3, rfl, h3⟩ := tables_cons h2
  obtain ⟨r4, t4, rfl, h4⟩ := tables_cons h3
  obtain ⟨r5, t5, rfl, h5⟩ := tables_cons h4
  obtain rfl := tables_nil h5
  have hv := hv _ List.mem_cons_self rfl
  simp only at hv
  subst hv
  rw [show get_schema_upgrades upgrades 5 =
    .createTable redemption_groups_v6 :: .groupsOfRedeemed ::
    .addColumn "vouchers" { name := "sequestered-count", notNull := true, default := .int 0 } ::
    .addColumn "unblinded-tokens" { name := "redemption-group", default := .int 1 } ::
    .incrementVersion :: get_schema_upgrades upgrades 6 from by decide +kernel] at he
  rw [Sql.execAll] at he
  generalize hdb : Sql.exec _ _ _ _ = x at he
  change Except.ok _ = x at hdb
  subst hdb
  simp only at he
  rw [Sql.execAll, exec_groups utc _ _ [] rfl rfl] at he
  simp only at he
  rw [Sql.execAll] at he
  generalize hdb : Sql.exec _ _ _ _ = x at he
  change Except.ok _ = x at hdb
  subst hdb
  simp only at he
  rw [Sql.execAll] at he
  generalize hdb : Sql.exec _ _ _ _ = x at he
  change Except.ok _ = x at hdb
  subst hdb
  simp only at he
  rw [Sql.execAll] at he
  generalize hdb : Sql.exec _ _ _ _ = x at he
  change Except.ok _ = x at hdb
  subst hdb
  simp only at he
  have htok := execAll_find (n := "unblinded-tokens") (get_schema_upgrades upgrades 6)
    (by decide +kernel) he rfl
  have hgrp := execAll_find (n := "redemption-groups") (get_schema_upgrades upgrades 6)
    (by decide +kernel) he rfl
  clear he
  obtain ⟨vs, hvs, hmem⟩ := ht
  obtain ⟨us, hus, hmem'⟩ := hred
  change some (r3.map fun row => row.getD 0 .null) = some vs at hvs
  change some (r1.map fun row => row.getD 2 .null) = some us at hus
  obtain rfl := Option.some.inj hvs
  obtain rfl := Option.some.inj hus
  obtain ⟨row, hrow, hget⟩ := List.mem_map.1 hmem
  obtain ⟨vrow, hvrow, hvget⟩ := List.mem_map.1 hmem'
  have hlen : row.length = 1 := by
    simp at hr
    exact hr.2.2.1 row hrow
  obtain ⟨a, rfl⟩ : ∃ a, row = [a] := by
    obtain _ | ⟨a, _ | ⟨b, l⟩⟩ := row
    · exact nomatch hlen
    · exact ⟨a, rfl⟩
    · exact nomatch hlen
  obtain ⟨x, y, rest, hg⟩ := groupRows_nonempty ⟨(schemaAt 5)[1]'(by decide), r1⟩ vrow hvrow hvget
  refine ⟨_, find_mem htok, _, find_mem hgrp, [a, .int 1], ?_, [.int 1, x, .int 1, y], ?_,
    rfl, rfl, hget, rfl, rfl⟩
  · exact List.mem_map.2 ⟨[a], hrow, rfl⟩
  · show _ ∈ [] ++ numberFrom _ (groupRows ⟨(schemaAt 5)[1]'(by decide), r1⟩)
    rw [hg]
    exact List.mem_cons_self

/-! ### The upgrade to version 8 -/

/-- The conversion changes only the time of creation. -/
theorem voucher_row_utc (utc) (a0 a1 a2 a3 a4 a5 a6 a7 a8 : Value) (r : VoucherRow)
    (hd : voucher_row ((schemaAt 7)[1]'(by decide)) [a0, a1, a2, a3, a4, a5, a6, a7, a8] = some r)
    (u : String) (hu : utc r.created = some u) :
    voucher_row ((schemaAt 7)[1]'(by decide)) [a0, toUtc utc a1, a2, a3, a4, a5, a6, a7, a8] =
      some { r with created := u ++ "+00:00" } := by
  change (a0.asText.bind fun number => a1.asText.bind fun created => a2.asText.bind fun state =>
    a6.asNat.bind fun counter => a7.asNat.bind fun expected_tokens => a8.asNat.bind fun sequestered_count =>
    some { number, created, state, counter, expected_tokens, sequestered_count,
           finished := a3.asText, token_count := a4.asNat }) = some r at hd
  change (a0.asText.bind fun number => (toUtc utc a1).asText.bind fun created => a2.asText.bind fun state =>
    a6.asNat.bind fun counter => a7.asNat.bind fun expected_tokens => a8.asNat.bind fun sequestered_count =>
    some { number, created, state, counter, expected_tokens, sequestered_count,
           finished := a3.asText, token_count := a4.asNat }) = (some { r with created := u ++ "+00:00" } : Option VoucherRow)
  simp only [Option.bind_eq_some_iff] at hd
  obtain ⟨number, h0, created, h1, state, h2, counter, h6, et, h7, sc, h8, h⟩ := hd
  cases h
  cases a1 <;> simp only [Value.asText, Option.some.injEq] at h1
  · exact nomatch h1
  · exact nomatch h1
  · subst h1
    simp only at hu
    simp only [toUtc, hu, h0, h2, h6, h7, h8, Option.bind_some]
    rfl
  · exact nomatch h1

theorem upgrade7_voucher (utc) (db db' : Database) (h : OfVersion 7 db)
    (he : Sql.execAll utc false db (get_schema_upgrades upgrades 7) = .ok db')
    (r : VoucherRow) (hrow : HasVoucherRow db r) (u : String) (hu : utc r.created = some u) :
    HasVoucherRow db' { r with created := u ++ "+00:00" } := by
  obtain ⟨ts, sq⟩ := db
  obtain ⟨hs, hr, hv⟩ := h
  simp only at hs hr hv
  simp [schemaAt, history] at hs
  obtain ⟨r0, t0, rfl, h0⟩ := tables_cons hs
  obtain ⟨r1, t1, rfl, h1⟩ := tables_cons h0
  obtain ⟨r2, t2, rfl, h2⟩ := tables_cons h1
  obtain ⟨r3, t3, rfl, h3⟩ := tables_cons h2
  obtain ⟨r4, t4, rfl, h4⟩ := tables_cons h3
  obtain ⟨r5, t5, rfl, h5⟩ := tables_cons h4
  obtain ⟨r6, t6, rfl, h6⟩ := tables_cons h5
  obtain ⟨r7, t7, rfl, h7⟩ := tables_cons h6
  obtain rfl := tables_nil h7
  rw [show get_schema_upgrades upgrades 7 =
    .toUtc "vouchers" "created" :: (get_schema_upgrades upgrades 7).tail from by decide +kernel] at he
  rw [Sql.execAll] at he
  generalize hdb : Sql.exec _ _ _ _ = x at he
  change Except.ok _ = x at hdb
  subst hdb
  simp only at he
  have hvou := execAll_find (n := "vouchers") (get_schema_upgrades upgrades 7).tail
    (by decide +kernel) he rfl
  clear he
  obtain ⟨t, ht, hname, row, hrow, hd⟩ := hrow
  obtain rfl : t = ⟨(schemaAt 7)[1]'(by decide), r1⟩ := by
    simp at ht
    rcases ht with rfl | rfl | rfl | rfl | rfl | rfl | rfl | rfl
    · exact absurd (show _ = _ from hname) (by simp)
    · rfl
    all_goals exact absurd (show _ = _ from hname) (by simp)
  have hlen : row.length = 9 := by
    simp at hr
    exact hr.2.1 row hrow
  obtain ⟨a0, a1, a2, a3, a4, a5, a6, a7, a8, rfl⟩ :
      ∃ a0 a1 a2 a3 a4 a5 a6 a7 a8, row = [a0, a1, a2, a3, a4, a5, a6, a7, a8] := by
    match row, hlen with
    | [a0, a1, a2, a3, a4, a5, a6, a7, a8], _ => exact ⟨a0, a1, a2, a3, a4, a5, a6, a7, a8, rfl⟩
  refine ⟨_, find_mem hvou, rfl, [a0, toUtc utc a1, a2, a3, a4, a5, a6, a7, a8],
    List.mem_map.2 ⟨_, hrow, rfl⟩, ?_⟩
  exact voucher_row_utc utc _ _ _ _ _ _ _ _ _ r hd u hu

theorem readable_pending (r : VoucherRow) (hs : r.state = "pending") (u : String) (hu : LocalTime u) :
    Readable { r with created := u ++ "+00:00" } := by
  obtain ⟨t, hv, ht⟩ := hu
  unfold Readable Voucher.from_row
  simp only [← ht, parse_iso_space hv, state_from_row, hs, beq_self_eq_true, if_true]
  exact ⟨_, rfl⟩

/-! ### Crashes -/

theorem executeAll_open (utc) (ss : List Sql) : ∀ (d0 d : Database),
    (Conn.executeAll utc ⟨d0, some d, false⟩ ss).1.committed = d0 := by
  induction ss with
  | nil => intro d0 d; rfl
  | cons s ss ih =>
    intro d0 d
    simp only [Conn.executeAll, Conn.execute]
    cases s.exec utc false d with
    | error e => rfl
    | ok d' => exact ih d0 d'

/-- If the first statement opens a transaction, a crash undoes everything. -/
theorem executeAll_dml (utc) (s : Sql) (ss : List Sql) (hs : s.opensTransaction = true) (d : Database) :
    (Conn.executeAll utc ⟨d, none, false⟩ (s :: ss)).1.committed = d := by
  simp only [Conn.executeAll, Conn.execute, hs, if_true]
  cases s.exec utc false d with
  | error e => rfl
  | ok d' => exact executeAll_open utc ss d d'

/-- `CREATE TABLE` or `ADD COLUMN`. -/
def Sql.once : Sql → Bool
  | .createTable _ => true
  | .addColumn .. => true
  | _ => false

theorem exec_twice {utc deferred} {db db1 : Database} {s : Sql} (hs : s.once = true)
    (he : s.exec utc deferred db = .ok db1) : s.exec utc deferred db1 = .error .operationalError := by
  cases s with
  | createTable d =>
    simp only [Sql.exec] at he ⊢
    split at he
    · exact nomatch he
    · cases he
      rw [if_pos]
      simp [Database.find, List.find?_append]
  | addColumn m col =>
    simp only [Sql.exec] at he ⊢
    split at he
    · exact nomatch he
    · rename_i t ht
      split at he
      · exact nomatch he
      · cases he
        rw [find_modify _ _ _ _ (by intro t; rfl), if_pos rfl, ht]
        simp only [Option.map_some]
        rw [if_pos]
        simp [TableDef.index, List.findIdx?_append]
  | _ => exact nomatch hs

theorem upgrades_head : ∀ v, v < 9 → v ≠ 7 →
    ∃ s ∈ get_schema_upgrades upgrades (v : Nat),
      get_schema_upgrades upgrades (v : Nat) = s :: (get_schema_upgrades upgrades (v : Nat)).tail ∧
      s.once = true ∧ s.opensTransaction = false ∧ s.target ≠ some "version" := by
  decide +kernel

theorem crash_stuck (utc : String → Option String) (v : Nat) (hv : v < 9) (hv7 : v ≠ 7)
    (db : Database) (h : OfVersion v db) :
    initialize_database utc upgrades (crash_while_initializing utc upgrades 1 db) =
      (crash_while_initializing utc upgrades 1 db, .error .operationalError) := by
  obtain ⟨s, _, hs, honce, hopen, htarget⟩ := upgrades_head v hv hv7
  obtain ⟨db', hrun, _⟩ := upgrade_any utc v (by omega) db h
  obtain ⟨_, hc, hr⟩ := version_of h
  rw [hs, Sql.execAll] at hrun
  cases he : s.exec utc false db with
  | error e => rw [he] at hrun; exact nomatch hrun
  | ok db1 =>
    obtain ⟨t, ht⟩ : ∃ t, db.find "version" = some t := by
      cases hf : db.find "version" with
      | some t => exact ⟨t, rfl⟩
      | none => rw [read_schema_version, hf] at hr; exact nomatch hr
    have ht1 := exec_find he htarget ht
    have hc1 : Sql.exec utc false db1 .createVersion = .ok db1 := by
      simp only [Sql.exec, ht1]
    have hr1 : read_schema_version db1 = .ok (v : Int) := by
      rw [← hr]
      simp only [read_schema_version, ht1, ht]
    have start : ∀ d, Sql.exec utc false d .createVersion = .ok d →
        ({ committed := d } : Conn Database).executeAll utc [.createVersion] = (⟨d, none, false⟩, .ok ()) := by
      intro d hd
      simp only [Conn.executeAll, Conn.execute, hd]
      rfl
    have hcrash : crash_while_initializing utc upgrades 1 db = db1 := by
      simp only [crash_while_initializing, start db (hc utc), Conn.current, Option.getD_none, hr, Conn.crash]
      rw [hs, List.take_succ_cons, List.take_zero]
      simp only [Conn.executeAll, Conn.execute, hopen, he]
      rfl
    rw [hcrash]
    simp only [initialize_database, upgrade_body, start db1 hc1, Conn.current, Option.getD_none, hr1]
    rw [hs]
    simp only [Conn.executeAll, Conn.execute, hopen, exec_twice honce he]
    rfl

end ZKAP
