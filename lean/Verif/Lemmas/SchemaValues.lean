import Verif.Lemmas.Schema

/-! What statements do to the values that are in the database already. -/
namespace ZKAP
open Spec

/-- Every row has a value for each column. -/
def RowsOk (db : Database) : Prop :=
  ∀ t ∈ db.tables, ∀ row ∈ t.rows, row.length = t.schema.columns.length

/-- The table to which a statement adds rows, or from which it removes them or changes the version. -/
def Sql.written : Sql → Option String
  | .dropTable t => some t
  | .insert t _ => some t
  | .insertNamed t _ => some t
  | .insertOrIgnore t _ => some t
  | .update t _ _ => some t
  | .delete t _ => some t
  | .incrementVersion => some "version"
  | .groupsOfRedeemed => some "redemption-groups"
  | _ => none

/-- The statement converts the times in this column. -/
def Sql.converts (s : Sql) (n c : String) : Bool :=
  match s with
  | .toUtc t c' => t == n && c' == c
  | _ => false

theorem rowsOk_modify {db : Database} {n f} (h : RowsOk db)
    (hf : ∀ t ∈ db.tables, (∀ row ∈ t.rows, row.length = t.schema.columns.length) →
      t.schema.name = n → ∀ row ∈ (f t).rows, row.length = (f t).schema.columns.length) :
    RowsOk (db.modify n f) := by
  intro t ht
  obtain ⟨t', ht', rfl⟩ := List.mem_map.1 ht
  by_cases hn : t'.schema.name = n
  · have hb : (t'.schema.name == n) = true := by simpa using hn
    simp only [hb, if_true]
    exact hf t' ht' (h t' ht') hn
  · have hb : (t'.schema.name == n) = false := by simpa using hn
    simp only [hb]
    exact h t' ht'

theorem numberRow_length (db : Database) (t : Table) (row : Row) :
    (db.numberRow t row).length = row.length := by
  simp only [Database.numberRow]
  split
  · rfl
  · rfl
  all_goals
    split
    · rfl
    · split
      · exact List.length_set
      · rfl

theorem insertRow_ok {db db' : Database} {deferred n row} (h : db.insertRow deferred n row = .ok db') :
    ∃ t row' sq, db.find n = some t ∧ row'.length = t.schema.columns.length ∧
      db' = { db.modify n (fun t => { t with rows := t.rows ++ [row'] }) with sequence := sq } := by
  unfold Database.insertRow at h
  split at h
  · exact nomatch h
  · rename_i t ht
    split at h
    · exact nomatch h
    · rename_i hl
      split at h
      · exact nomatch h
      · simp only at h
        split at h
        · exact nomatch h
        · split at h
          · exact nomatch h
          · split at h
            · cases h
              exact ⟨t, db.numberRow t row, _, ht, by rw [numberRow_length]; omega, rfl⟩
            · exact nomatch h

/-- Tables with different schemas of the same name do not occur. -/
def NamesOk (db : Database) : Prop := (db.tables.map (·.schema.name)).Nodup

theorem find_unique {db : Database} (hn : NamesOk db) {n t u} (hf : db.find n = some t)
    (hu : u ∈ db.tables) (hname : u.schema.name = n) : u = t := by
  unfold Database.find at hf
  unfold NamesOk at hn
  generalize db.tables = ts at hf hn hu
  induction ts with
  | nil => exact nomatch hu
  | cons x xs ih =>
    rw [List.map_cons, List.nodup_cons] at hn
    rw [List.find?_cons] at hf
    rcases List.mem_cons.1 hu with rfl | hu
    · have hb : (u.schema.name == n) = true := by simpa using hname
      rw [hb] at hf
      exact Option.some.inj hf
    · have hx : (x.schema.name == n) = false := by
        rw [beq_eq_false_iff_ne]
        intro he
        exact hn.1 (by rw [he, ← hname]; exact List.mem_map_of_mem hu)
      rw [hx] at hf
      exact ih hf hn.2 hu

theorem names_modify (db : Database) (n : String) (f : Table → Table)
    (hf : ∀ t, (f t).schema.name = t.schema.name) :
    (db.modify n f).tables.map (·.schema.name) = db.tables.map (·.schema.name) := by
  simp only [Database.modify, List.map_map]
  apply List.map_congr_left
  intro t _
  simp only [Function.comp]
  split <;> simp [hf]

theorem find_none_iff (db : Database) (n : String) :
    db.find n = none ↔ n ∉ db.tables.map (·.schema.name) := by
  simp [Database.find]

theorem assign_length (d : TableDef) (sets : Dict String Value) : ∀ (row : Row),
    (d.assign sets row).length = row.length := by
  unfold TableDef.assign
  induction sets with
  | nil => intro row; rfl
  | cons c cs ih =>
    intro row
    rw [List.foldl_cons, ih]
    split
    · rfl
    · exact List.length_set

/-- What is kept by every statement. -/
structure TidyDb (db : Database) : Prop where
  rows : RowsOk db
  names : NamesOk db

theorem TidyDb.modify {db : Database} {n f} (h : TidyDb db) (hname : ∀ t, (f t).schema.name = t.schema.name)
    (hf : ∀ t ∈ db.tables, (∀ row ∈ t.rows, row.length = t.schema.columns.length) →
      t.schema.name = n → ∀ row ∈ (f t).rows, row.length = (f t).schema.columns.length) :
    TidyDb (db.modify n f) :=
  ⟨rowsOk_modify h.rows hf, by unfold NamesOk; rw [names_modify db n f hname]; exact h.names⟩

theorem TidyDb.insertRow {db db' : Database} {deferred n row} (h : TidyDb db)
    (hi : db.insertRow deferred n row = .ok db') : TidyDb db' := by
  obtain ⟨t, row', sq, ht, hl, rfl⟩ := insertRow_ok hi
  have := h.modify (n := n) (f := fun t => { t with rows := t.rows ++ [row'] }) (fun _ => rfl) (by
    intro u hu hr hn r hr'
    rcases List.mem_append.1 hr' with h1 | h1
    · exact hr r h1
    · obtain rfl := List.mem_singleton.1 h1
      rw [hl, find_unique h.names ht hu hn])
  exact ⟨this.rows, this.names⟩

theorem TidyDb.insertRows {deferred n} (rows : List Row) : ∀ {db db' : Database}, TidyDb db →
    db.insertRows deferred n rows = .ok db' → TidyDb db' := by
  induction rows with
  | nil => intro db db' h hi; cases hi; exact h
  | cons r rs ih =>
    intro db db' h hi
    rw [Database.insertRows] at hi
    split at hi
    · exact nomatch hi
    · rename_i db1 h1
      exact ih (h.insertRow h1) hi

theorem TidyDb.exec {utc deferred} {db db' : Database} {s : Sql} (h : TidyDb db)
    (he : s.exec utc deferred db = .ok db') : TidyDb db' := by
  cases s with
  | createTable d =>
    simp only [Sql.exec] at he
    split at he
    · exact nomatch he
    · rename_i hc
      cases he
      have hc : db.find d.name = none := by
        simp only [Bool.or_eq_true, not_or] at hc
        simpa using hc.2
      refine ⟨?_, ?_⟩
      · intro t ht
        rcases List.mem_append.1 ht with ht | ht
        · exact h.rows t ht
        · obtain rfl := List.mem_singleton.1 ht
          intro row hr
          exact nomatch hr
      · unfold NamesOk
        rw [find_none_iff] at hc
        simp only [List.map_append, List.map_cons, List.map_nil]
        rw [List.nodup_append]
        refine ⟨h.names, by simp, ?_⟩
        intro a ha b hb hab
        obtain rfl := List.mem_singleton.1 hb
        exact hc (hab ▸ ha)
  | createVersion =>
    simp only [Sql.exec] at he
    split at he
    · cases he; exact h
    · rename_i hc
      cases he
      refine ⟨?_, ?_⟩
      · intro t ht
        rcases List.mem_append.1 ht with ht | ht
        · exact h.rows t ht
        · obtain rfl := List.mem_singleton.1 ht
          intro row hr
          obtain rfl := List.mem_singleton.1 hr
          rfl
      · unfold NamesOk
        rw [find_none_iff] at hc
        simp only [List.map_append, List.map_cons, List.map_nil]
        rw [List.nodup_append]
        refine ⟨h.names, by simp, ?_⟩
        intro a ha b hb hab
        obtain rfl := List.mem_singleton.1 hb
        exact hc (hab ▸ ha)
  | addColumn n c =>
    simp only [Sql.exec] at he
    split at he
    · exact nomatch he
    · split at he
      · exact nomatch he
      · cases he
        refine h.modify (by intro t; rfl) ?_
        intro t _ hr _ row hrow
        obtain ⟨r, hr', rfl⟩ := List.mem_map.1 hrow
        simp [hr r hr']
  | dropTable n =>
    simp only [Sql.exec] at he
    split at he
    · exact nomatch he
    · split at he
      · exact nomatch he
      · cases he
        refine ⟨fun t ht => h.rows t (List.mem_filter.1 ht).1, ?_⟩
        exact List.Nodup.sublist (List.Sublist.map _ List.filter_sublist) h.names
  | insert n row => exact h.insertRow he
  | insertNamed n named =>
    simp only [Sql.exec] at he
    split at he
    · exact nomatch he
    · split at he
      · exact nomatch he
      · exact h.insertRow he
  | insertOrIgnore n named =>
    simp only [Sql.exec] at he
    split at he
    · exact nomatch he
    · split at he
      · exact nomatch he
      · split at he
        · cases he; exact h
        · exact h.insertRow he
  | update n sets wheres =>
    simp only [Sql.exec] at he
    split at he
    · exact nomatch he
    · rename_i t0 ht0
      split at he
      · exact nomatch he
      · split at he
        · cases he
          refine h.modify (by intro t; rfl) ?_
          intro t ht hr hn row hrow
          obtain ⟨r, hr', rfl⟩ := List.mem_map.1 hrow
          obtain rfl := find_unique h.names ht0 ht hn
          split
          · rw [assign_length]; exact hr r hr'
          · exact hr r hr'
        · exact nomatch he
  | delete n wheres =>
    simp only [Sql.exec] at he
    split at he
    · exact nomatch he
    · split at he
      · exact nomatch he
      · split at he
        · cases he
          refine h.modify (by intro t; rfl) ?_
          intro t _ hr _ row hrow
          exact hr row (List.mem_filter.1 hrow).1
        · exact nomatch he
  | incrementVersion =>
    simp only [Sql.exec] at he
    split at he
    · exact nomatch he
    · split at he
      · exact nomatch he
      · cases he
        refine h.modify (by intro t; rfl) ?_
        intro t _ hr _ row hrow
        obtain ⟨r, hr', rfl⟩ := List.mem_map.1 hrow
        simp [hr r hr']
  | groupsOfRedeemed =>
    simp only [Sql.exec] at he
    split at he
    · exact h.insertRows _ he
    · exact nomatch he
  | toUtc n c =>
    simp only [Sql.exec] at he
    split at he
    · exact nomatch he
    · split at he
      · exact nomatch he
      · cases he
        refine h.modify (by intro t; rfl) ?_
        intro t _ hr _ row hrow
        obtain ⟨r, hr', rfl⟩ := List.mem_map.1 hrow
        simp [hr r hr']
  | clearSequence =>
    simp only [Sql.exec] at he
    split at he
    · exact nomatch he
    · cases he; exact ⟨h.rows, h.names⟩
  | insertSequence n k =>
    simp only [Sql.exec] at he
    split at he
    · exact nomatch he
    · cases he; exact ⟨h.rows, h.names⟩
  | beginTransaction => exact nomatch he
  | commit => exact nomatch he
  | invalid => exact nomatch he

theorem find_insertRow {db db' : Database} {deferred n row} (hi : db.insertRow deferred n row = .ok db')
    {m : String} (hm : m ≠ n) : db'.find m = db.find m := by
  obtain ⟨t, row', sq, ht, hl, rfl⟩ := insertRow_ok hi
  rw [show ({ db.modify n (fun t => { t with rows := t.rows ++ [row'] }) with sequence := sq } : Database).find m =
    (db.modify n (fun t => { t with rows := t.rows ++ [row'] })).find m from rfl]
  rw [find_modify db n m (fun t => { t with rows := t.rows ++ [row'] }) (fun _ => rfl), if_neg hm]

theorem find_insertRows {deferred n} (rows : List Row) {m : String} (hm : m ≠ n) :
    ∀ {db db' : Database}, db.insertRows deferred n rows = .ok db' → db'.find m = db.find m := by
  induction rows with
  | nil => intro db db' hi; cases hi; rfl
  | cons r rs ih =>
    intro db db' hi
    rw [Database.insertRows] at hi
    split at hi
    · exact nomatch hi
    · rename_i db1 h1
      rw [ih hi, find_insertRow h1 hm]

/-- Values stay, except that times are converted, in every table the statement does not write to. -/
theorem exec_values {utc deferred} {db db' : Database} {s : Sql} (h : TidyDb db)
    (he : s.exec utc deferred db = .ok db') {n c : String} {vs} (hw : s.written ≠ some n)
    (hv : columnValues db n c = some vs) :
    columnValues db' n c = some (if s.converts n c then vs.map (toUtc utc) else vs) := by
  rw [columnValues_eq] at hv ⊢
  cases hfind : db.find n with
  | none => rw [hfind] at hv; exact nomatch hv
  | some t =>
    rw [hfind] at hv
    simp only [Option.bind_some] at hv
    cases hidx : t.schema.index c with
    | none => rw [hidx] at hv; exact nomatch hv
    | some i =>
      rw [hidx] at hv
      simp only [Option.map_some, Option.some.injEq] at hv
      subst hv
      have same : db'.find n = db.find n → s.converts n c = false →
          ((db'.find n).bind fun t => (t.schema.index c).map fun i => t.rows.map fun row => row.getD i .null) =
          some (if s.converts n c = true then (t.rows.map fun row => row.getD i .null).map (toUtc utc)
            else t.rows.map fun row => row.getD i .null) := by
        intro h1 h2
        rw [h1, h2, hfind]
        simp only [Option.bind_some, hidx, Option.map_some]
        rfl
      cases s with
      | createTable d =>
        simp only [Sql.exec] at he
        split at he
        · exact nomatch he
        · cases he
          apply same _ rfl
          simp only [Database.find, List.find?_append]
          rw [show List.find? (fun t => t.schema.name == n) db.tables = some t from hfind]
          rfl
      | createVersion =>
        simp only [Sql.exec] at he
        split at he
        · cases he; exact same rfl rfl
        · cases he
          apply same _ rfl
          simp only [Database.find, List.find?_append]
          rw [show List.find? (fun t => t.schema.name == n) db.tables = some t from hfind]
          rfl
      | addColumn m col =>
        simp only [Sql.exec] at he
        split at he
        · exact nomatch he
        · split at he
          · exact nomatch he
          · cases he
            rw [find_modify _ _ _ _ (by intro t; rfl)]
            by_cases hnm : n = m
            · rw [if_pos hnm, hfind]
              simp only [Option.map_some, Option.bind_some, Sql.converts]
              have hi : i < t.schema.columns.length := by
                have := (List.findIdx?_eq_some_iff_getElem.1 hidx).1
                exact this
              have hidx' : ({ t.schema with columns := t.schema.columns ++ [col] } : TableDef).index c = some i := by
                simp only [TableDef.index, List.findIdx?_append]
                rw [show List.findIdx? (fun x => x.name == c) t.schema.columns = some i from hidx]
                rfl
              rw [hidx']
              simp only [Option.map_some, List.map_map, Option.some.injEq]
              simp only [Bool.false_eq_true, if_false]
              apply List.map_congr_left
              intro row hrow
              have hl := h.rows t (find_mem hfind) row hrow
              simp only [Function.comp]
              rw [List.getD_eq_getElem?_getD, List.getD_eq_getElem?_getD, List.getElem?_append_left (by omega)]
            · rw [if_neg hnm, hfind]
              simp only [Option.bind_some, hidx, Option.map_some]
              rfl
      | dropTable m =>
        simp only [Sql.exec] at he
        split at he
        · exact nomatch he
        · split at he
          · exact nomatch he
          · cases he
            apply same _ rfl
            have hnm : n ≠ m := by
              intro e; exact hw (by rw [e]; rfl)
            simp only [Database.find]
            rw [List.find?_filter]
            congr 1
            funext u
            by_cases hu : u.schema.name = n
            · simp [hu, hnm]
            · have : (u.schema.name == n) = false := by simpa using hu
              simp [this]
      | insert m row =>
        exact same (find_insertRow he (fun e => hw (by rw [e]; rfl))) rfl
      | insertNamed m named =>
        simp only [Sql.exec] at he
        split at he
        · exact nomatch he
        · split at he
          · exact nomatch he
          · exact same (find_insertRow he (fun e => hw (by rw [e]; rfl))) rfl
      | insertOrIgnore m named =>
        simp only [Sql.exec] at he
        split at he
        · exact nomatch he
        · split at he
          · exact nomatch he
          · split at he
            · cases he; exact same rfl rfl
            · exact same (find_insertRow he (fun e => hw (by rw [e]; rfl))) rfl
      | update m sets wheres =>
        simp only [Sql.exec] at he
        split at he
        · exact nomatch he
        · split at he
          · exact nomatch he
          · split at he
            · cases he
              apply same _ rfl
              rw [find_modify _ _ _ _ (by intro t; rfl), if_neg (fun e => hw (by rw [e]; rfl))]
            · exact nomatch he
      | delete m wheres =>
        simp only [Sql.exec] at he
        split at he
        · exact nomatch he
        · split at he
          · exact nomatch he
          · split at he
            · cases he
              apply same _ rfl
              rw [find_modify _ _ _ _ (by intro t; rfl), if_neg (fun e => hw (by rw [e]; rfl))]
            · exact nomatch he
      | incrementVersion =>
        simp only [Sql.exec] at he
        split at he
        · exact nomatch he
        · split at he
          · exact nomatch he
          · cases he
            apply same _ rfl
            rw [find_modify _ _ _ _ (by intro t; rfl), if_neg (fun e => hw (by rw [e]; rfl))]
      | groupsOfRedeemed =>
        simp only [Sql.exec] at he
        split at he
        · exact same (find_insertRows _ (fun e => hw (by rw [e]; rfl)) he) rfl
        · exact nomatch he
      | toUtc m col =>
        simp only [Sql.exec] at he
        split at he
        · exact nomatch he
        · rename_i t' ht'
          split at he
          · exact nomatch he
          · rename_i j hj
            cases he
            rw [find_modify _ _ _ _ (by intro t; rfl)]
            by_cases hnm : n = m
            · subst hnm
              rw [hfind] at ht'
              cases ht'
              rw [if_pos rfl, hfind]
              simp only [Option.map_some, Option.bind_some, hidx, Sql.converts, beq_self_eq_true,
                Bool.true_and, beq_iff_eq, List.map_map, Option.some.injEq]
              by_cases hc : col = c
              · subst hc
                rw [hidx] at hj
                cases hj
                rw [if_pos rfl]
                apply List.map_congr_left
                intro row hrow
                have hl := h.rows t (find_mem hfind) row hrow
                have hi : i < t.schema.columns.length := (List.findIdx?_eq_some_iff_getElem.1 hidx).1
                simp only [Function.comp, List.getD_eq_getElem?_getD, List.getElem?_modify]
                rw [List.getElem?_eq_getElem (by omega)]
                simp
              · rw [if_neg hc]
                have hji : j ≠ i := by
                  intro e
                  subst e
                  have h1 := (List.findIdx?_eq_some_iff_getElem.1 hidx)
                  have h2 := (List.findIdx?_eq_some_iff_getElem.1 hj)
                  obtain ⟨_, h1, _⟩ := h1
                  obtain ⟨_, h2, _⟩ := h2
                  simp only [beq_iff_eq] at h1 h2
                  exact hc (h2.symm.trans h1)
                apply List.map_congr_left
                intro row hrow
                simp only [Function.comp, List.getD_eq_getElem?_getD, List.getElem?_modify]
                simp [hji]
            · rw [if_neg hnm, hfind]
              have : Sql.converts (.toUtc m col) n c = false := by
                simp only [Sql.converts, Bool.and_eq_false_imp]
                intro e
                exact absurd (by simpa using e) (fun e : m = n => hnm e.symm)
              rw [this]
              simp only [Option.bind_some, hidx, Option.map_some]
              rfl
      | clearSequence =>
        simp only [Sql.exec] at he
        split at he
        · exact nomatch he
        · cases he; exact same rfl rfl
      | insertSequence m k =>
        simp only [Sql.exec] at he
        split at he
        · exact nomatch he
        · cases he; exact same rfl rfl
      | beginTransaction => exact nomatch he
      | commit => exact nomatch he
      | invalid => exact nomatch he

theorem execAll_values {utc deferred} {n c : String} (ss : List Sql) (hw : ∀ s ∈ ss, s.written ≠ some n) :
    ∀ {db db' : Database} {vs}, TidyDb db → Sql.execAll utc deferred db ss = .ok db' →
      columnValues db n c = some vs →
      columnValues db' n c = some (ss.foldl (fun vs s =>
        if s.converts n c then vs.map (toUtc utc) else vs) vs) := by
  induction ss with
  | nil => intro db db' vs h he hv; cases he; exact hv
  | cons s ss ih =>
    intro db db' vs h he hv
    rw [Sql.execAll] at he
    split at he
    · exact nomatch he
    · rename_i db1 h1
      exact ih (fun s' h' => hw s' (List.mem_cons_of_mem _ h')) (h.exec h1) he
        (exec_values h h1 (hw s List.mem_cons_self) hv)

end ZKAP
