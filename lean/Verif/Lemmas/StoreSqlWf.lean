import Verif.Lemmas.StoreSqlRun
import Verif.Lemmas.StoreInv
import Verif.Lemmas.Recovery
import Verif.Lemmas.ReplayDatabase

/-! The store's SQL keeps a database as SQLite wants it, and replaying it. -/
namespace ZKAP
open Spec

/-! ### What a statement leaves alone -/

/-- Only one table differs. -/
def OnlyTable (n : String) (db db' : Database) : Prop :=
  (∀ m, m ≠ n → db'.find m = db.find m) ∧ db'.sequence = db.sequence

theorem only_refl (n : String) (db : Database) : OnlyTable n db db := ⟨fun _ _ => rfl, rfl⟩

theorem only_modify (n : String) (db : Database) (f : Table → Table) (hs : ∀ t, (f t).schema = t.schema) :
    OnlyTable n db (db.modify n f) :=
  ⟨fun m hm => by rw [find_modify _ _ _ _ (fun t => by rw [hs]), if_neg hm], rfl⟩

theorem insertRow_only {db db' : Database} {n : String} {row : Row} {b : Bool}
    (hk : ∀ t, db.find n = some t → ∀ c, t.schema.key ≠ .autoincrement c)
    (h : db.insertRow b n row = .ok db') : OnlyTable n db db' := by
  unfold Database.insertRow at h
  cases hf : db.find n with
  | none => rw [hf] at h; exact nomatch h
  | some t =>
    rw [hf] at h
    simp only at h
    split at h
    · exact nomatch h
    · split at h
      · exact nomatch h
      · split at h
        · exact nomatch h
        · split at h
          · exact nomatch h
          · split at h
            · injection h with h
              subst h
              refine ⟨fun m hm => (only_modify n db (fun u => { u with rows := u.rows ++ [db.numberRow t row] })
                fun _ => rfl).1 m hm, ?_⟩
              have hne := hk t hf
              simp only [Database.noteNumber]
            · exact nomatch h

theorem effect_only {s : Session} {db db' : Database} {q : StoreSql} {b : Bool}
    (hk : ∀ t, db.find q.target = some t → ∀ c, t.schema.key ≠ .autoincrement c)
    (h : q.effect s b db = .ok db') : OnlyTable q.target db db' := by
  cases q with
  | insert n row => exact insertRow_only hk h
  | insertNamed n named =>
    simp only [StoreSql.effect, Sql.exec] at h
    split at h
    · exact nomatch h
    · split at h
      · exact nomatch h
      · exact insertRow_only hk h
  | insertOrIgnore n named =>
    simp only [StoreSql.effect, Sql.exec] at h
    split at h
    · exact nomatch h
    · split at h
      · exact nomatch h
      · split at h
        · injection h with h; subst h; exact only_refl _ _
        · exact insertRow_only hk h
  | set n sets wheres =>
    simp only [StoreSql.effect] at h
    split at h
    · exact nomatch h
    · split at h
      · exact nomatch h
      · split at h
        · injection h with h; subst h; exact only_modify n db _ fun _ => rfl
        · exact nomatch h
  | delete n wheres =>
    simp only [StoreSql.effect, Sql.exec] at h
    split at h
    · exact nomatch h
    · split at h
      · exact nomatch h
      · split at h
        · injection h with h; subst h; exact only_modify n db _ fun _ => rfl
        · exact nomatch h
  | deleteIn n c source =>
    simp only [StoreSql.effect] at h
    split at h
    · exact nomatch h
    · split at h
      · split at h
        · injection h with h; subst h; exact only_modify n db _ fun _ => rfl
        · exact nomatch h
      · exact nomatch h
  | clear n =>
    simp only [StoreSql.effect, Sql.exec] at h
    split at h
    · exact nomatch h
    · split at h
      · exact nomatch h
      · split at h
        · injection h with h; subst h; exact only_modify n db _ fun _ => rfl
        · exact nomatch h

/-- The version, the event stream and the record of its numbers are the same. -/
structure SameRest (db db' : Database) : Prop where
  version : db'.find "version" = db.find "version"
  events : db'.find "event-stream" = db.find "event-stream"
  sequence : db'.sequence = db.sequence

theorem sameRest_refl (db : Database) : SameRest db db := ⟨rfl, rfl, rfl⟩

theorem sameRest_trans {a b c : Database} (h : SameRest a b) (g : SameRest b c) : SameRest a c :=
  ⟨g.version.trans h.version, g.events.trans h.events, g.sequence.trans h.sequence⟩

theorem sqlOf_target (st : Stmt) : (sqlOf st).target ≠ "version" ∧ (sqlOf st).target ≠ "event-stream" := by
  cases st <;> (constructor <;> simp [sqlOf, StoreSql.target])

theorem exec_rest {s s' : Session} {t : Tables} (h : Finds s.main t.app) {b : Bool} {st : Stmt}
    (he : s.exec b (sqlOf st) = .ok s') : SameRest s.main s'.main := by
  obtain ⟨n1, n2⟩ := sqlOf_target st
  unfold Session.exec at he
  split at he
  · split at he
    · exact nomatch he
    · injection he with he; subst he; exact sameRest_refl _
  · split at he
    · exact nomatch he
    · rename_i db hdb
      injection he with he; subst he
      have := effect_only (by
        intro u hu c hc
        have hs : u.schema ∈ schemaAt currentVersion :=
          h.schema.subset (List.mem_map.2 ⟨u, find_mem hu, rfl⟩)
        have hname := find_name hu
        have hev : ∀ d ∈ schemaAt currentVersion, ∀ c, d.key = .autoincrement c → d.name = "event-stream" := by
          rw [schema_now]
          intro d hd c hc
          simp only [List.mem_cons, List.not_mem_nil, or_false] at hd
          rcases hd with rfl | rfl | rfl | rfl | rfl | rfl | rfl | rfl <;> first | rfl | exact nomatch hc
        exact n2 (hname.symm.trans (hev _ hs c hc))) hdb
      exact ⟨this.1 _ (fun e => n1 e.symm), this.1 _ (fun e => n2 e.symm), this.2⟩

/-! ### Runs and what they leave alone -/

theorem execMany_rest {s s' : Session} {t : Tables} (h : Tracks s t) (sts : List Stmt)
    (he : Session.execMany false (sts.map sqlOf) s = .ok s') : SameRest s.main s'.main := by
  induction sts generalizing s t with
  | nil => injection he with he; subst he; exact sameRest_refl _
  | cons st sts ih =>
    simp only [List.map_cons, Session.execMany] at he
    have hf := tracks_exec h st
    cases hr : s.exec false (sqlOf st) with
    | error e => rw [hr] at he; exact nomatch he
    | ok s1 =>
      rw [hr] at he hf
      cases hx : exec st t with
      | error e => rw [hx] at hf; exact hf.elim
      | ok x =>
        rw [hx] at hf
        exact sameRest_trans (exec_rest h.main hr) (ih hf he)

/-- The statements recorded for a method, executed. -/
theorem sql_run_execMany {α} (p : SqlProg α) (s s' : Session) (a : α) (h : (p.run s).2 = .ok (a, s')) :
    Session.execMany false ((p.run s).1.flatMap (·.stmts)) s = .ok s' := by
  have happ : ∀ (x y : List StoreSql) (s s1 : Session), Session.execMany false x s = .ok s1 →
      Session.execMany false (x ++ y) s = Session.execMany false y s1 := by
    intro x
    induction x with
    | nil => intro y s s1 h; injection h with h; subst h; rfl
    | cons q qs ih =>
      intro y s s1 h
      simp only [Session.execMany, List.cons_append] at h ⊢
      cases hq : s.exec false q with
      | error e => rw [hq] at h; exact nomatch h
      | ok s2 => rw [hq] at h; exact ih y s2 s1 h
  induction p generalizing s with
  | done a => injection h with h; injection h with _ h; subst h; rfl
  | raise e => exact nomatch h
  | query q k ih =>
    simp only [SqlProg.run] at h ⊢
    cases hq : q.rows s with
    | error e => rw [hq] at h; exact nomatch h
    | ok rows => rw [hq] at h; exact ih rows s h
  | execute i q k ih =>
    simp only [SqlProg.run] at h ⊢
    cases hq : s.exec false q with
    | error e => rw [hq] at h; exact nomatch h
    | ok s1 =>
      rw [hq] at h
      simp only [List.flatMap_cons]
      rw [happ [q] _ s s1 (by simp only [Session.execMany, hq])]
      exact ih _ _ s1 h
  | executemany i qs k ih =>
    simp only [SqlProg.run] at h ⊢
    cases hq : Session.execMany false qs s with
    | error e => rw [hq] at h; exact nomatch h
    | ok s1 =>
      rw [hq] at h
      simp only [List.flatMap_cons]
      rw [happ qs _ s s1 hq]
      exact ih s1 h

theorem sqlMutations_stmts (l : List Mutation) :
    (l.map sqlMutation).flatMap (·.stmts) = (l.flatMap (·.stmts)).map sqlOf := by
  induction l with
  | nil => rfl
  | cons m ms ih => rw [List.map_cons, List.flatMap_cons, List.flatMap_cons, List.map_append, ih]; rfl

theorem step_rest {s : Session} {t : Tables} (h : Tracks s t) (op : StoreOp) :
    SameRest s.main (op.sqlStep s).2.main := by
  have ha := agree_op h op
  have hm := ha.1
  have key : SameRest s.main (op.sqlProg.transact s).2.main := by
    unfold SqlProg.transact
    cases hr : (op.sqlProg.run s).2 with
    | error e => exact sameRest_refl _
    | ok z =>
      obtain ⟨a, s'⟩ := z
      have := sql_run_execMany _ _ _ _ hr
      rw [hm, sqlMutations_stmts] at this
      exact execMany_rest h _ this
  cases op with
  | restart => exact sameRest_refl _
  | _ => exact key

theorem run_rest {s : Session} {t : Tables} (h : Tracks s t) (ops : List StoreOp) :
    SameRest s.main (runSql ops s).2.main := by
  induction ops generalizing s t with
  | nil => exact sameRest_refl _
  | cons op ops ih => exact sameRest_trans (step_rest h op) (ih (tracks_step h op).2)

/-! ### Databases that hold the records of a store -/

theorem tableOk_map {α} (d : TableDef) (f : α → Row) (l : List α) (c : String) (k : α → Value)
    (hkey : d.key.column = some c) (hget : ∀ x, d.get (f x) c = k x) (hnd : (l.map k).Nodup)
    (hlen : ∀ x, (f x).length = d.columns.length) (hnn : ∀ x, d.notNullOk (f x) = true)
    (hint : ∀ c, d.key = .integer c ∨ d.key = .autoincrement c → ∀ x, ∃ n, k x = .int n) :
    TableOk ⟨d, l.map f⟩ := by
  refine ⟨?_, ?_, ?_, ?_⟩
  · intro row hr
    obtain ⟨x, _, rfl⟩ := List.mem_map.1 hr
    exact hlen x
  · intro row hr col hc hcn
    obtain ⟨x, _, rfl⟩ := List.mem_map.1 hr
    have := List.all_eq_true.1 (hnn x) col hc
    rw [hcn] at this
    intro hnull
    rw [hnull] at this
    exact nomatch this
  · intro c' hc'
    rw [hkey] at hc'
    injection hc' with hc'
    subst hc'
    rw [List.pairwise_map]
    rw [List.Nodup, List.pairwise_map] at hnd
    exact hnd.imp fun hne => Or.inr (by rw [hget, hget]; exact hne)
  · intro c' hc' row hr
    obtain ⟨x, _, rfl⟩ := List.mem_map.1 hr
    have : c' = c := by
      rcases hc' with hc' | hc' <;> (rw [hc'] at hkey; injection hkey)
    subst this
    rw [hget]
    exact hint _ hc' x

theorem nodup_text {α} {l : List α} {f : α → String} (h : (l.map f).Nodup) :
    (l.map fun x => Value.text (f x)).Nodup := by
  rw [List.Nodup, List.pairwise_map] at h ⊢
  exact h.imp fun hne he => hne (by injection he)

theorem nodup_int {α} {l : List α} {f : α → Nat} (h : (l.map f).Nodup) :
    (l.map fun x => Value.int (f x)).Nodup := by
  rw [List.Nodup, List.pairwise_map] at h ⊢
  exact h.imp fun hne he => hne (by injection he with he; omega)

/-- The tables with the records are fine. -/
theorem records_ok {db : Database} {t : Tables} (h : Finds db t.app) (hw : StoreWF t) {n : String} {u : Table}
    (hu : db.find n = some u) (h1 : n ≠ "version") (h2 : n ≠ "event-stream")
    (hn : n ∈ (schemaAt currentVersion).map (·.name)) : TableOk u := by
  obtain ⟨pk, hpk⟩ := h.vouchers
  rw [schema_now] at hn
  simp only [List.map_cons, List.map_nil, List.mem_cons, List.not_mem_nil, or_false] at hn
  rcases hn with hn | hn | hn | hn | hn | hn | hn | hn <;> subst hn
  · exact absurd rfl h1
  · have := hu.symm.trans hpk
    injection this with this
    subst this
    exact tableOk_map vouchersNow _ _ "number" (fun v => .text v.number) rfl (fun _ => rfl)
      (nodup_text hw.vouchers) (fun _ => rfl) (fun _ => rfl) (fun c hc => by rcases hc with hc | hc <;> exact nomatch hc)
  · have := hu.symm.trans h.tokens
    injection this with this
    subst this
    exact tableOk_map tokensNow _ _ "text" (fun v => .text v.text) rfl (fun _ => rfl)
      (nodup_text hw.tokens) (fun _ => rfl) (fun _ => rfl) (fun c hc => by rcases hc with hc | hc <;> exact nomatch hc)
  · have := hu.symm.trans h.unblinded
    injection this with this
    subst this
    exact tableOk_map unblindedNow _ _ "token" (fun v => .text v.token) rfl (fun _ => rfl)
      (nodup_text hw.unblinded) (fun _ => rfl) (fun _ => rfl) (fun c hc => by rcases hc with hc | hc <;> exact nomatch hc)
  · have := hu.symm.trans h.maint
    injection this with this
    subst this
    exact tableOk_map maintNow _ _ "id" (fun v => .int v.id) rfl (fun _ => rfl)
      (nodup_int hw.maint) (fun _ => rfl) (fun _ => rfl) (fun c hc x => ⟨_, rfl⟩)
  · have := hu.symm.trans h.invalid
    injection this with this
    subst this
    exact tableOk_map invalidNow _ _ "token" (fun v => .text v.token) rfl (fun _ => rfl)
      (nodup_text hw.invalid) (fun _ => rfl) (fun _ => rfl) (fun c hc => by rcases hc with hc | hc <;> exact nomatch hc)
  · have := hu.symm.trans h.groups
    injection this with this
    subst this
    exact tableOk_map groupsNow _ _ "rowid" (fun v => .int v.rowid) rfl (fun _ => rfl)
      (nodup_int hw.groups) (fun _ => rfl) (fun _ => rfl) (fun c hc x => ⟨_, rfl⟩)
  · exact absurd rfl h2

theorem find_of_mem {db : Database} {ds : List TableDef} (h : (db.tables.map (·.schema)).Perm ds)
    (hn : (ds.map (·.name)).Nodup) {t : Table} (ht : t ∈ db.tables) : db.find t.schema.name = some t := by
  have hf := find_of_schema h hn (h.subset (List.mem_map.2 ⟨t, ht, rfl⟩)) (rows := t.rows) (by
    intro u hu hun
    have hnames : (db.tables.map (·.schema.name)).Nodup := by
      have := (h.map (·.name)).nodup_iff.2 hn
      rw [List.map_map] at this
      exact this
    rw [inj_of_nodup_map hnames hu ht hun])
  exact hf

/-- A database that differs from a well-formed one only in the records of the store is well-formed. -/
theorem wellFormed_of_rest {db0 db : Database} {t : Tables} (hw0 : WellFormed db0)
    (h : Finds db t.app) (hw : StoreWF t) (hr : SameRest db0 db) : WellFormed db := by
  obtain ⟨pk, hpk⟩ := h.vouchers
  have hmem : ∀ u ∈ db.tables, u.schema ∈ schemaAt currentVersion :=
    fun u hu => h.schema.subset (List.mem_map.2 ⟨u, hu, rfl⟩)
  have hfind : ∀ u ∈ db.tables, db.find u.schema.name = some u := fun u hu => find_of_mem h.schema names_now hu
  have hrest : ∀ u ∈ db.tables, u.schema.name = "version" ∨ u.schema.name = "event-stream" → u ∈ db0.tables := by
    intro u hu hn
    have := hfind u hu
    rcases hn with hn | hn <;> rw [hn] at this
    · rw [hr.version] at this; exact find_mem this
    · rw [hr.events] at this; exact find_mem this
  have hev : ∀ d ∈ schemaAt currentVersion, ∀ c, d.key = .autoincrement c → d.name = "event-stream" := by
    rw [schema_now]
    intro d hd c hc
    simp only [List.mem_cons, List.not_mem_nil, or_false] at hd
    rcases hd with rfl | rfl | rfl | rfl | rfl | rfl | rfl | rfl <;> first | rfl | exact nomatch hc
  have hin : ∀ d ∈ schemaAt currentVersion, ∃ u ∈ db.tables, u.schema = d := by
    intro d hd
    obtain ⟨u, hu, he⟩ := List.mem_map.1 (h.schema.symm.subset hd)
    exact ⟨u, hu, he⟩
  refine ⟨?_, ?_, ?_, ?_, ?_, ?_, ?_⟩
  · have := (h.schema.map (·.name)).nodup_iff.2 names_now
    rw [List.map_map] at this
    exact this
  · intro u hu
    have : ∀ d ∈ schemaAt currentVersion, reservedName d.name = false := by decide +kernel
    exact this _ (hmem u hu)
  · intro u hu
    by_cases h1 : u.schema.name = "version"
    · exact hw0.tables u (hrest u hu (Or.inl h1))
    · by_cases h2 : u.schema.name = "event-stream"
      · exact hw0.tables u (hrest u hu (Or.inr h2))
      · exact records_ok h hw (hfind u hu) h1 h2 (List.mem_map.2 ⟨_, hmem u hu, rfl⟩)
  · intro u hu f hf
    have : ∀ d ∈ schemaAt currentVersion, ∀ f ∈ d.foreign, ∃ p ∈ schemaAt currentVersion,
        p.name = f.parent ∧ p.key.column = some f.parentColumn := by decide +kernel
    obtain ⟨p, hp, h1, h2⟩ := this _ (hmem u hu) f hf
    obtain ⟨v, hv, rfl⟩ := hin p hp
    exact ⟨v, hv, h1, h2⟩
  · intro u hu row hrow f hf
    have hok := finds_foreignOk h hw.tokens_voucher
    simp only [Database.foreignOk, List.all_eq_true] at hok
    have := hok u hu row hrow f hf
    simp only [Database.foreignKeyOk, Bool.or_eq_true, beq_iff_eq] at this
    rcases this with this | this
    · exact Or.inl this
    · right
      cases hp : db.find f.parent with
      | none => rw [hp] at this; exact nomatch this
      | some p =>
        rw [hp] at this
        simp only [List.contains_iff_mem, Table.values, List.mem_map] at this
        obtain ⟨r, hr, he⟩ := this
        exact ⟨p, find_mem hp, find_name hp, r, hr, he⟩
  · intro sq _
    obtain ⟨u, hu, he⟩ := hin eventsNow (by rw [schema_now]; simp)
    exact ⟨u, hu, "sequence-number", by rw [he]; rfl⟩
  · intro u hu c hc
    have hn := hev _ (hmem u hu) c hc
    have := hw0.numbers u (hrest u hu (Or.inr hn)) c hc
    rw [hr.sequence]
    exact this

/-! ### Replay -/

/-- Executing recorded statements while foreign keys are not checked. -/
theorem replay_session {s : Session} {r t t' : Tables} (hs : Finds s.main r.app) (ht : TempFinds s.temp r.temp)
    (hr : Sim r t) (sts : List Stmt) (hx : execMany sts t = .ok t') :
    ∃ s' r', Session.execMany true (sts.map sqlOf) s = .ok s' ∧ Finds s'.main r'.app ∧
      TempFinds s'.temp r'.temp ∧ Sim r' t' := by
  induction sts generalizing s r t with
  | nil =>
    injection hx with hx
    subst hx
    exact ⟨s, r, rfl, hs, ht, hr⟩
  | cons st sts ih =>
    simp only [execMany] at hx
    cases he : exec st t with
    | error e => rw [he] at hx; exact nomatch hx
    | ok x =>
      rw [he] at hx
      obtain ⟨r1, h1, h2⟩ := exec_sim he hr
      have hf := follows hs ht true (Or.inl rfl) st
      simp only [stmtExec, if_true, h1] at hf
      cases hq : s.exec true (sqlOf st) with
      | error e => rw [hq] at hf; exact hf.elim
      | ok s1 =>
        rw [hq] at hf
        obtain ⟨s', r', h3, h4⟩ := ih hf.1 hf.2 h2 hx
        exact ⟨s', r', by simp only [List.map_cons, Session.execMany, hq]; exact h3, h4⟩

end ZKAP
