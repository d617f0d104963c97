import Verif.Spec.StoreSql
import Verif.Spec.Recovery
import Verif.Lemmas.Schema
import Verif.Lemmas.Snapshot
import Verif.Lemmas.Replay

/-! The SQL of the store against the model of its effects. -/
namespace ZKAP
open Spec

/-! ### The tables of the current version -/

def versionNow : TableDef := { name := "version", columns := [{ name := "version" }] }
def vouchersNow : TableDef :=
  { name := "vouchers", key := .plain "number", columns := [
      { name := "number" }, { name := "created" }, { name := "state", default := .text "pending" },
      { name := "finished" }, { name := "token-count" }, { name := "public-key" },
      { name := "counter", default := .int 0 },
      { name := "expected-tokens", notNull := true, default := .int 32768 },
      { name := "sequestered-count", notNull := true, default := .int 0 }] }
def tokensNow : TableDef :=
  { name := "tokens", key := .plain "text",
    foreign := [{ column := "voucher", parent := "vouchers", parentColumn := "number" }],
    columns := [{ name := "text" }, { name := "voucher" },
      { name := "counter", notNull := true, default := .int 0 }] }
def unblindedNow : TableDef :=
  { name := "unblinded-tokens", key := .plain "token", columns := [
      { name := "token" }, { name := "redemption-group", default := .int 1 }] }
def maintNow : TableDef :=
  { name := "lease-maintenance-spending", key := .integer "id", columns := [
      { name := "id" }, { name := "started" }, { name := "finished" }, { name := "count" }] }
def invalidNow : TableDef :=
  { name := "invalid-unblinded-tokens", key := .plain "token", columns := [
      { name := "token" }, { name := "reason" }] }
def groupsNow : TableDef :=
  { name := "redemption-groups", key := .integer "rowid", columns := [
      { name := "rowid" }, { name := "voucher" }, { name := "spendable" }, { name := "public-key" }] }
def eventsNow : TableDef :=
  { name := "event-stream", key := .autoincrement "sequence-number", columns := [
      { name := "sequence-number" }, { name := "statement" }, { name := "important" },
      { name := "serialized_arguments", default := .blob [0x80] }] }

theorem schema_now : schemaAt currentVersion = [versionNow, vouchersNow, tokensNow, unblindedNow, maintNow,
    invalidNow, groupsNow, eventsNow] := by decide +kernel

def inUseDef : TableDef :=
  { name := "in-use", columns := [{ name := "unblinded-token" }], key := .plain "unblinded-token" }
def toDiscardDef : TableDef := { name := "to-discard", columns := [{ name := "unblinded-token" }] }
def toResetDef : TableDef := { name := "to-reset", columns := [{ name := "unblinded-token" }] }

/-- A table of a database whose schema is known. -/
theorem find_of_schema {db : Database} {ds : List TableDef} (h : (db.tables.map (·.schema)).Perm ds)
    (hn : (ds.map (·.name)).Nodup) {d : TableDef} (hd : d ∈ ds) {rows : List Row}
    (hr : HasRows db d.name rows) : db.find d.name = some ⟨d, rows⟩ := by
  obtain ⟨t, ht, hts⟩ := List.mem_map.1 (h.symm.subset hd)
  cases hf : db.find d.name with
  | none =>
    simp only [Database.find, List.find?_eq_none] at hf
    exact absurd (by simp [hts]) (hf t ht)
  | some u =>
    have hu := find_mem hf
    have hun := find_name hf
    have hd' : u.schema ∈ ds := h.subset (List.mem_map.2 ⟨u, hu, rfl⟩)
    have he : u.schema = d := inj_of_nodup_map hn hd' hd hun
    have hrows := hr u hu hun
    obtain ⟨us, ur⟩ := u
    simp only at he hrows
    rw [he, hrows]

theorem rows_of_find {db : Database} {ds : List TableDef} (h : (db.tables.map (·.schema)).Perm ds)
    (hn : (ds.map (·.name)).Nodup) {n : String} {t : Table} (hf : db.find n = some t) :
    HasRows db n t.rows := by
  intro u hu hun
  have hnames : (db.tables.map (·.schema.name)).Nodup := by
    have := (h.map (·.name)).nodup_iff.2 hn
    rw [List.map_map] at this
    exact this
  have := inj_of_nodup_map hnames hu (find_mem hf) (by rw [hun, find_name hf])
  rw [this]

theorem names_now : ((schemaAt currentVersion).map (·.name)).Nodup := by decide +kernel

theorem temp_names : (temporary_tables.map (·.name)).Nodup := by decide +kernel

/-- The tables of the file as the statements find them. -/
structure Finds (db : Database) (a : App) : Prop where
  schema : (db.tables.map (·.schema)).Perm (schemaAt currentVersion)
  vouchers : ∃ pk : String → Value, db.find "vouchers" =
    some ⟨vouchersNow, a.vouchers.map fun v => voucherValues (pk v.number) v⟩
  tokens : db.find "tokens" = some ⟨tokensNow, a.tokens.map tokenValues⟩
  unblinded : db.find "unblinded-tokens" = some ⟨unblindedNow, a.unblinded.map unblindedValues⟩
  maint : db.find "lease-maintenance-spending" = some ⟨maintNow, a.maint.map maintValues⟩
  invalid : db.find "invalid-unblinded-tokens" = some ⟨invalidNow, a.invalid.map invalidValues⟩
  groups : db.find "redemption-groups" = some ⟨groupsNow, a.groups.map groupValues⟩

theorem holds_finds {db : Database} {a : App} : Holds db a ↔ Finds db a := by
  constructor
  · intro h
    have hm : ∀ d ∈ [versionNow, vouchersNow, tokensNow, unblindedNow, maintNow, invalidNow, groupsNow,
        eventsNow], d ∈ schemaAt currentVersion := by
      intro d hd
      rw [schema_now]; exact hd
    obtain ⟨pk, hpk⟩ := h.vouchers
    exact ⟨h.schema,
      ⟨pk, find_of_schema (d := vouchersNow) h.schema names_now (hm _ (by simp)) hpk⟩,
      find_of_schema (d := tokensNow) h.schema names_now (hm _ (by simp)) h.tokens,
      find_of_schema (d := unblindedNow) h.schema names_now (hm _ (by simp)) h.unblinded,
      find_of_schema (d := maintNow) h.schema names_now (hm _ (by simp)) h.maint,
      find_of_schema (d := invalidNow) h.schema names_now (hm _ (by simp)) h.invalid,
      find_of_schema (d := groupsNow) h.schema names_now (hm _ (by simp)) h.groups⟩
  · intro h
    obtain ⟨pk, hpk⟩ := h.vouchers
    exact ⟨h.schema, ⟨pk, rows_of_find h.schema names_now hpk⟩, rows_of_find h.schema names_now h.tokens,
      rows_of_find h.schema names_now h.unblinded, rows_of_find h.schema names_now h.maint,
      rows_of_find h.schema names_now h.invalid, rows_of_find h.schema names_now h.groups⟩

/-- The temporary tables as the statements find them. -/
structure TempFinds (db : Database) (m : Temp) : Prop where
  schema : db.tables.map (·.schema) = temporary_tables
  in_use : db.find "in-use" = some ⟨inUseDef, m.in_use.map fun x => [.text x]⟩
  to_discard : db.find "to-discard" = some ⟨toDiscardDef, m.to_discard.map fun x => [.text x]⟩
  to_reset : db.find "to-reset" = some ⟨toResetDef, m.to_reset.map fun x => [.text x]⟩

theorem session_finds {s : Session} {t : Tables} :
    SessionHolds s t ↔ Finds s.main t.app ∧ TempFinds s.temp t.temp := by
  constructor
  · intro h
    have hp : (s.temp.tables.map (·.schema)).Perm temporary_tables := by rw [h.temp_schema]
    exact ⟨holds_finds.1 h.main, h.temp_schema,
      find_of_schema (d := inUseDef) hp temp_names (by decide +kernel) h.in_use,
      find_of_schema (d := toDiscardDef) hp temp_names (by decide +kernel) h.to_discard,
      find_of_schema (d := toResetDef) hp temp_names (by decide +kernel) h.to_reset⟩
  · intro h
    have hp : (s.temp.tables.map (·.schema)).Perm temporary_tables := by rw [h.2.schema]
    exact ⟨holds_finds.2 h.1, h.2.schema, rows_of_find hp temp_names h.2.in_use,
      rows_of_find hp temp_names h.2.to_discard, rows_of_find hp temp_names h.2.to_reset⟩

/-- A name that is not that of a temporary table. -/
theorem temp_none {db : Database} {m : Temp} (h : TempFinds db m) {n : String}
    (hn : n ∉ temporary_tables.map (·.name)) : db.find n = none := by
  simp only [Database.find, List.find?_eq_none]
  intro t ht hname
  apply hn
  rw [← h.schema, List.map_map]
  exact List.mem_map.2 ⟨t, ht, by simpa using hname⟩

/-! ### Changing the rows of a table -/

theorem find_put {db : Database} {n : String} {d : TableDef} {rows rows' : List Row} {f : Table → Table}
    (sq : Option (Dict String Int)) (hf : db.find n = some ⟨d, rows⟩) (hs : ∀ t, (f t).schema = t.schema)
    (hr : (f ⟨d, rows⟩).rows = rows') (m : String) :
    (Database.mk (db.modify n f).tables sq).find m = if m = n then some ⟨d, rows'⟩ else db.find m := by
  have h1 : (Database.mk (db.modify n f).tables sq).find m = (db.modify n f).find m := rfl
  rw [h1, find_modify _ _ _ _ (fun t => by rw [hs])]
  by_cases hm : m = n
  · subst hm
    rw [if_pos rfl, if_pos rfl, hf, Option.map_some]
    have := hs ⟨d, rows⟩
    generalize f ⟨d, rows⟩ = u at this hr
    obtain ⟨us, ur⟩ := u
    simp only at this hr
    rw [this, hr]
  · rw [if_neg hm, if_neg hm]

theorem schema_put {db : Database} {n : String} {f : Table → Table}
    (hs : ∀ t, (f t).schema = t.schema) : (db.modify n f).tables.map (·.schema) = db.tables.map (·.schema) := by
  simp only [Database.modify, List.map_map]
  apply List.map_congr_left
  intro t _
  simp only [Function.comp]
  split
  · exact hs t
  · rfl

/-- The new database after a change of one table. -/
structure Put (db db' : Database) (n : String) (d : TableDef) (rows : List Row) : Prop where
  schema : db'.tables.map (·.schema) = db.tables.map (·.schema)
  find : ∀ m, db'.find m = if m = n then some ⟨d, rows⟩ else db.find m

theorem put_of {db : Database} {n : String} {d : TableDef} {rows rows' : List Row} {f : Table → Table}
    (sq : Option (Dict String Int)) (hf : db.find n = some ⟨d, rows⟩) (hs : ∀ t, (f t).schema = t.schema)
    (hr : (f ⟨d, rows⟩).rows = rows') : Put db (Database.mk (db.modify n f).tables sq) n d rows' :=
  ⟨schema_put hs, find_put sq hf hs hr⟩

/-- What an `INSERT` of a row does. -/
theorem insertRow_eq {db : Database} {n : String} {d : TableDef} {rows : List Row} {row row' : Row}
    {b : Bool} (hf : db.find n = some ⟨d, rows⟩) (hl : row.length = d.columns.length)
    (hfor : d.foreign = []) (hrow : db.numberRow ⟨d, rows⟩ row = row')
    (hn : d.notNullOk row' = true) (ht : d.keyTyped row' = true) :
    (Table.keyFree ⟨d, rows⟩ row' = false → db.insertRow b n row = .error .integrityError) ∧
    (Table.keyFree ⟨d, rows⟩ row' = true → ∃ db', db.insertRow b n row = .ok db' ∧
      Put db db' n d (rows ++ [row'])) := by
  constructor <;> intro hk
  · simp only [Database.insertRow, hf, hl, ne_eq, not_true, if_false, hfor, List.all_nil, Bool.not_true,
      Bool.false_eq_true, hrow, hn, ht, Bool.and_self, hk, Bool.not_false, if_true]
  · refine ⟨Database.mk (db.modify n fun t => { t with rows := t.rows ++ [row'] }).tables
      (db.noteNumber d row'), ?_, put_of _ hf (fun _ => rfl) rfl⟩
    simp only [Database.insertRow, hf, hl, ne_eq, not_true, if_false, hfor, List.all_nil, Bool.not_true,
      Bool.false_eq_true, hrow, hn, ht, Bool.and_self, hk, Bool.or_true, if_true]

theorem contains_map_text {α} (l : List α) (f : α → String) (x : String) :
    (l.map fun r => Value.text (f r)).contains (.text x) = decide (x ∈ l.map f) := by
  rw [Bool.eq_iff_iff]
  simp only [List.contains_iff_mem, List.mem_map, decide_eq_true_eq, Value.text.injEq]

theorem maxInt_nextRowid (l : List Nat) : maxInt (l.map fun (n : Nat) => Value.int n) + 1 = (nextRowid l : Nat) := by
  have key : ∀ (l : List Nat) (a : Nat), (l.foldl Nat.max a : Nat) = max (a : Int) (maxInt (l.map fun (n : Nat) => Value.int n)) := by
    intro l
    induction l with
    | nil =>
      intro a
      simp only [List.foldl_nil, List.map_nil, maxInt]
      omega
    | cons b bs ih =>
      intro a
      simp only [List.foldl_cons, List.map_cons, maxInt]
      rw [ih]
      have : ((Nat.max a b : Nat) : Int) = max (a : Int) b := by
        show ((max a b : Nat) : Int) = _
        omega
      omega
  have := key l 0
  have h0 := maxInt_nonneg (l.map fun (n : Nat) => Value.int n)
  simp only [nextRowid]
  omega

theorem finds_put_tokens {db db' : Database} {a : App} {l} (h : Finds db a)
    (hp : Put db db' "tokens" tokensNow (l.map tokenValues)) : Finds db' { a with tokens := l } := by
  obtain ⟨pk, hpk⟩ := h.vouchers
  refine ⟨by rw [hp.schema]; exact h.schema, ⟨pk, ?_⟩, ?_, ?_, ?_, ?_, ?_⟩ <;> rw [hp.find]
  · rw [if_neg (by decide), hpk]
  · rw [if_pos rfl]
  · rw [if_neg (by decide), h.unblinded]
  · rw [if_neg (by decide), h.maint]
  · rw [if_neg (by decide), h.invalid]
  · rw [if_neg (by decide), h.groups]

theorem finds_put_unblinded {db db' : Database} {a : App} {l} (h : Finds db a)
    (hp : Put db db' "unblinded-tokens" unblindedNow (l.map unblindedValues)) : Finds db' { a with unblinded := l } := by
  obtain ⟨pk, hpk⟩ := h.vouchers
  refine ⟨by rw [hp.schema]; exact h.schema, ⟨pk, ?_⟩, ?_, ?_, ?_, ?_, ?_⟩ <;> rw [hp.find]
  · rw [if_neg (by decide), hpk]
  · rw [if_neg (by decide), h.tokens]
  · rw [if_pos rfl]
  · rw [if_neg (by decide), h.maint]
  · rw [if_neg (by decide), h.invalid]
  · rw [if_neg (by decide), h.groups]

theorem finds_put_maint {db db' : Database} {a : App} {l} (h : Finds db a)
    (hp : Put db db' "lease-maintenance-spending" maintNow (l.map maintValues)) : Finds db' { a with maint := l } := by
  obtain ⟨pk, hpk⟩ := h.vouchers
  refine ⟨by rw [hp.schema]; exact h.schema, ⟨pk, ?_⟩, ?_, ?_, ?_, ?_, ?_⟩ <;> rw [hp.find]
  · rw [if_neg (by decide), hpk]
  · rw [if_neg (by decide), h.tokens]
  · rw [if_neg (by decide), h.unblinded]
  · rw [if_pos rfl]
  · rw [if_neg (by decide), h.invalid]
  · rw [if_neg (by decide), h.groups]

theorem finds_put_invalid {db db' : Database} {a : App} {l} (h : Finds db a)
    (hp : Put db db' "invalid-unblinded-tokens" invalidNow (l.map invalidValues)) : Finds db' { a with invalid := l } := by
  obtain ⟨pk, hpk⟩ := h.vouchers
  refine ⟨by rw [hp.schema]; exact h.schema, ⟨pk, ?_⟩, ?_, ?_, ?_, ?_, ?_⟩ <;> rw [hp.find]
  · rw [if_neg (by decide), hpk]
  · rw [if_neg (by decide), h.tokens]
  · rw [if_neg (by decide), h.unblinded]
  · rw [if_neg (by decide), h.maint]
  · rw [if_pos rfl]
  · rw [if_neg (by decide), h.groups]

theorem finds_put_groups {db db' : Database} {a : App} {l} (h : Finds db a)
    (hp : Put db db' "redemption-groups" groupsNow (l.map groupValues)) : Finds db' { a with groups := l } := by
  obtain ⟨pk, hpk⟩ := h.vouchers
  refine ⟨by rw [hp.schema]; exact h.schema, ⟨pk, ?_⟩, ?_, ?_, ?_, ?_, ?_⟩ <;> rw [hp.find]
  · rw [if_neg (by decide), hpk]
  · rw [if_neg (by decide), h.tokens]
  · rw [if_neg (by decide), h.unblinded]
  · rw [if_neg (by decide), h.maint]
  · rw [if_neg (by decide), h.invalid]
  · rw [if_pos rfl]

theorem finds_put_vouchers {db db' : Database} {a : App} {l : List VoucherRow} (h : Finds db a)
    (pk : String → Value)
    (hp : Put db db' "vouchers" vouchersNow (l.map fun v => voucherValues (pk v.number) v)) :
    Finds db' { a with vouchers := l } := by
  refine ⟨by rw [hp.schema]; exact h.schema, ⟨pk, ?_⟩, ?_, ?_, ?_, ?_, ?_⟩ <;> rw [hp.find]
  · rw [if_pos rfl]
  · rw [if_neg (by decide), h.tokens]
  · rw [if_neg (by decide), h.unblinded]
  · rw [if_neg (by decide), h.maint]
  · rw [if_neg (by decide), h.invalid]
  · rw [if_neg (by decide), h.groups]

theorem temp_put_in_use {db db' : Database} {m : Temp} {l : List String} (h : TempFinds db m)
    (hp : Put db db' "in-use" inUseDef (l.map fun x => [.text x])) : TempFinds db' { m with in_use := l } := by
  refine ⟨by rw [hp.schema]; exact h.schema, ?_, ?_, ?_⟩ <;> rw [hp.find]
  · rw [if_pos rfl]
  · rw [if_neg (by decide), h.to_discard]
  · rw [if_neg (by decide), h.to_reset]

theorem temp_put_to_discard {db db' : Database} {m : Temp} {l : List String} (h : TempFinds db m)
    (hp : Put db db' "to-discard" toDiscardDef (l.map fun x => [.text x])) : TempFinds db' { m with to_discard := l } := by
  refine ⟨by rw [hp.schema]; exact h.schema, ?_, ?_, ?_⟩ <;> rw [hp.find]
  · rw [if_neg (by decide), h.in_use]
  · rw [if_pos rfl]
  · rw [if_neg (by decide), h.to_reset]

theorem temp_put_to_reset {db db' : Database} {m : Temp} {l : List String} (h : TempFinds db m)
    (hp : Put db db' "to-reset" toResetDef (l.map fun x => [.text x])) : TempFinds db' { m with to_reset := l } := by
  refine ⟨by rw [hp.schema]; exact h.schema, ?_, ?_, ?_⟩ <;> rw [hp.find]
  · rw [if_neg (by decide), h.in_use]
  · rw [if_neg (by decide), h.to_discard]
  · rw [if_pos rfl]

/-! ### Statements -/

/-- A session follows the tables: both raise, or both go on. -/
def Follows (r : Except PyErr Session) (x : Except PyErr Tables) : Prop :=
  match x, r with
  | .error e, .error f => e = f
  | .ok t, .ok s => Finds s.main t.app ∧ TempFinds s.temp t.temp
  | _, _ => False

theorem main_ok {s : Session} {m : Temp} (ht : TempFinds s.temp m) {q : StoreSql} {b : Bool} {db' : Database}
    (hn : q.target ∉ temporary_tables.map (·.name)) (h : q.effect s b s.main = .ok db') :
    s.exec b q = .ok { s with main := db' } := by
  simp only [Session.exec, temp_none ht hn, h]

theorem main_error {s : Session} {m : Temp} (ht : TempFinds s.temp m) {q : StoreSql} {b : Bool} {e : PyErr}
    (hn : q.target ∉ temporary_tables.map (·.name)) (h : q.effect s b s.main = .error e) :
    s.exec b q = .error e := by
  simp only [Session.exec, temp_none ht hn, h]

theorem temp_ok {s : Session} {q : StoreSql} {b : Bool} {u : Table} {db' : Database}
    (hf : s.temp.find q.target = some u) (h : q.effect s b s.temp = .ok db') :
    s.exec b q = .ok { s with temp := db' } := by
  simp only [Session.exec, hf, h]

theorem temp_error {s : Session} {q : StoreSql} {b : Bool} {u : Table} {e : PyErr}
    (hf : s.temp.find q.target = some u) (h : q.effect s b s.temp = .error e) : s.exec b q = .error e := by
  simp only [Session.exec, hf, h]

/-- The effect of a statement, with foreign keys checked at once or not. -/
def stmtExec (deferred : Bool) (st : Stmt) (t : Tables) : Except PyErr Tables :=
  if deferred then exec_deferred st t
  else match exec st t with
    | .error e => .error e
    | .ok x => .ok x.tables

theorem unblinded_get (r : UnblindedRow) : unblindedNow.get (unblindedValues r) "token" = .text r.token := rfl

theorem not_temp {n : String} (h : n ∈ ["vouchers", "tokens", "unblinded-tokens", "lease-maintenance-spending",
    "invalid-unblinded-tokens", "redemption-groups"]) : n ∉ temporary_tables.map (·.name) := by
  revert n
  decide

theorem follows_insertUnblinded {s : Session} {t : Tables} (h : Finds s.main t.app)
    (ht : TempFinds s.temp t.temp) (b : Bool) (token : String) (group : Nat) :
    Follows (s.exec b (sqlOf (.insertUnblinded token group)))
      (stmtExec b (.insertUnblinded token group) t) := by
  have hn : (sqlOf (.insertUnblinded token group)).target ∉ temporary_tables.map (·.name) :=
    not_temp (n := "unblinded-tokens") (by simp)
  obtain ⟨i1, i2⟩ := insertRow_eq (b := b) (row := [.text token, .int group])
    (row' := unblindedValues ⟨token, group⟩) h.unblinded rfl rfl rfl rfl rfl
  have he : (sqlOf (.insertUnblinded token group)).effect s b s.main =
      s.main.insertRow b "unblinded-tokens" [.text token, .int group] := by
    simp only [sqlOf, StoreSql.effect, Sql.exec, h.unblinded]
    rfl
  have hk : Table.keyFree ⟨unblindedNow, t.app.unblinded.map unblindedValues⟩ (unblindedValues ⟨token, group⟩) =
      !decide (token ∈ t.app.unblinded.map (·.token)) := by
    rw [← contains_map_text]
    simp only [Table.keyFree, Table.values, List.map_map]
    rfl
  by_cases hm : token ∈ t.app.unblinded.map (·.token)
  · have hx : stmtExec b (.insertUnblinded token group) t = .error .integrityError := by
      cases b <;> simp only [stmtExec, exec_deferred, exec, if_pos hm, if_true, Bool.false_eq_true, if_false]
    rw [hx, main_error ht hn (by rw [he]; exact i1 (by rw [hk, decide_eq_true hm]; rfl))]
    rfl
  · have hx : stmtExec b (.insertUnblinded token group) t = .ok { t with app := { t.app with
        unblinded := t.app.unblinded ++ [⟨token, group⟩] } } := by
      cases b <;> simp only [stmtExec, exec_deferred, exec, if_neg hm, if_true, Bool.false_eq_true, if_false]
    obtain ⟨db', h1, h2⟩ := i2 (by rw [hk, decide_eq_false hm]; rfl)
    rw [hx, main_ok ht hn (by rw [he]; exact h1)]
    exact ⟨finds_put_unblinded h (by rw [List.map_append]; exact h2), ht⟩

theorem follows_insertInvalid {s : Session} {t : Tables} (h : Finds s.main t.app)
    (ht : TempFinds s.temp t.temp) (b : Bool) (token reason : String) :
    Follows (s.exec b (sqlOf (.insertInvalid token reason)))
      (stmtExec b (.insertInvalid token reason) t) := by
  have hn : (sqlOf (.insertInvalid token reason)).target ∉ temporary_tables.map (·.name) :=
    not_temp (n := "invalid-unblinded-tokens") (by simp)
  obtain ⟨i1, i2⟩ := insertRow_eq (b := b) (row := [.text token, .text reason])
    (row' := invalidValues ⟨token, reason⟩) h.invalid rfl rfl rfl rfl rfl
  have he : (sqlOf (.insertInvalid token reason)).effect s b s.main =
      s.main.insertRow b "invalid-unblinded-tokens" [.text token, .text reason] := rfl
  have hk : Table.keyFree ⟨invalidNow, t.app.invalid.map invalidValues⟩ (invalidValues ⟨token, reason⟩) =
      !decide (token ∈ t.app.invalid.map (·.token)) := by
    rw [← contains_map_text]
    simp only [Table.keyFree, Table.values, List.map_map]
    rfl
  by_cases hm : token ∈ t.app.invalid.map (·.token)
  · have hx : stmtExec b (.insertInvalid token reason) t = .error .integrityError := by
      cases b <;> simp only [stmtExec, exec_deferred, exec, if_pos hm, if_true, Bool.false_eq_true, if_false]
    rw [hx, main_error ht hn (by rw [he]; exact i1 (by rw [hk, decide_eq_true hm]; rfl))]
    rfl
  · have hx : stmtExec b (.insertInvalid token reason) t = .ok { t with app := { t.app with
        invalid := t.app.invalid ++ [⟨token, reason⟩] } } := by
      cases b <;> simp only [stmtExec, exec_deferred, exec, if_neg hm, if_true, Bool.false_eq_true, if_false]
    obtain ⟨db', h1, h2⟩ := i2 (by rw [hk, decide_eq_false hm]; rfl)
    rw [hx, main_ok ht hn (by rw [he]; exact h1)]
    exact ⟨finds_put_invalid h (by rw [List.map_append]; exact h2), ht⟩

theorem follows_insertInUse {s : Session} {t : Tables} (h : Finds s.main t.app)
    (ht : TempFinds s.temp t.temp) (b : Bool) (token : String) :
    Follows (s.exec b (sqlOf (.insertInUse token))) (stmtExec b (.insertInUse token) t) := by
  obtain ⟨i1, i2⟩ := insertRow_eq (b := b) (row := [.text token]) (row' := [.text token])
    ht.in_use rfl rfl rfl rfl rfl
  have he : (sqlOf (.insertInUse token)).effect s b s.temp =
      s.temp.insertRow b "in-use" [.text token] := rfl
  have hf : s.temp.find (sqlOf (.insertInUse token)).target = some _ := ht.in_use
  have hk : Table.keyFree ⟨inUseDef, t.temp.in_use.map fun x => [.text x]⟩ [.text token] =
      !decide (token ∈ t.temp.in_use) := by
    have := contains_map_text t.temp.in_use id token
    rw [List.map_id] at this
    rw [← this]
    simp only [Table.keyFree, Table.values, List.map_map]
    rfl
  by_cases hm : token ∈ t.temp.in_use
  · have hx : stmtExec b (.insertInUse token) t = .error .integrityError := by
      cases b <;> simp only [stmtExec, exec_deferred, exec, if_pos hm, if_true, Bool.false_eq_true, if_false]
    rw [hx, temp_error hf (by rw [he]; exact i1 (by rw [hk, decide_eq_true hm]; rfl))]
    rfl
  · have hx : stmtExec b (.insertInUse token) t = .ok { t with temp := { t.temp with
        in_use := t.temp.in_use ++ [token] } } := by
      cases b <;> simp only [stmtExec, exec_deferred, exec, if_neg hm, if_true, Bool.false_eq_true, if_false]
    obtain ⟨db', h1, h2⟩ := i2 (by rw [hk, decide_eq_false hm]; rfl)
    rw [hx, temp_ok hf (by rw [he]; exact h1)]
    exact ⟨h, temp_put_in_use ht (by rw [List.map_append]; exact h2)⟩

theorem follows_insertToDiscard {s : Session} {t : Tables} (h : Finds s.main t.app)
    (ht : TempFinds s.temp t.temp) (b : Bool) (token : String) :
    Follows (s.exec b (sqlOf (.insertToDiscard token))) (stmtExec b (.insertToDiscard token) t) := by
  obtain ⟨i1, i2⟩ := insertRow_eq (b := b) (row := [.text token]) (row' := [.text token])
    ht.to_discard rfl rfl rfl rfl rfl
  have hf : s.temp.find (sqlOf (.insertToDiscard token)).target = some _ := ht.to_discard
  have hx : stmtExec b (.insertToDiscard token) t = .ok { t with temp := { t.temp with
      to_discard := t.temp.to_discard ++ [token] } } := by
    cases b <;> rfl
  obtain ⟨db', h1, h2⟩ := i2 rfl
  rw [hx, temp_ok hf h1]
  exact ⟨h, temp_put_to_discard ht (by rw [List.map_append]; exact h2)⟩

theorem follows_insertToReset {s : Session} {t : Tables} (h : Finds s.main t.app)
    (ht : TempFinds s.temp t.temp) (b : Bool) (token : String) :
    Follows (s.exec b (sqlOf (.insertToReset token))) (stmtExec b (.insertToReset token) t) := by
  obtain ⟨i1, i2⟩ := insertRow_eq (b := b) (row := [.text token]) (row' := [.text token])
    ht.to_reset rfl rfl rfl rfl rfl
  have hf : s.temp.find (sqlOf (.insertToReset token)).target = some _ := ht.to_reset
  have hx : stmtExec b (.insertToReset token) t = .ok { t with temp := { t.temp with
      to_reset := t.temp.to_reset ++ [token] } } := by
    cases b <;> rfl
  obtain ⟨db', h1, h2⟩ := i2 rfl
  rw [hx, temp_ok hf h1]
  exact ⟨h, temp_put_to_reset ht (by rw [List.map_append]; exact h2)⟩

theorem follows_insertGroup {s : Session} {t : Tables} (h : Finds s.main t.app)
    (ht : TempFinds s.temp t.temp) (b : Bool) (voucher public_key : String) (spendable : Bool) :
    Follows (s.exec b (sqlOf (.insertGroup voucher public_key spendable)))
      (stmtExec b (.insertGroup voucher public_key spendable) t) := by
  have hn : (sqlOf (.insertGroup voucher public_key spendable)).target ∉ temporary_tables.map (·.name) :=
    not_temp (n := "redemption-groups") (by simp)
  have hnext : s.main.nextNumber ⟨groupsNow, t.app.groups.map groupValues⟩ =
      (nextRowid (t.app.groups.map (·.rowid)) : Nat) := by
    rw [← maxInt_nextRowid, List.map_map]
    simp only [Database.nextNumber, groupsNow, Table.values, List.map_map]
    rfl
  obtain ⟨i1, i2⟩ := insertRow_eq (b := b) (db := s.main) (row := [.null, .text voucher, boolValue spendable, .text public_key])
    (row' := groupValues ⟨nextRowid (t.app.groups.map (·.rowid)), voucher, spendable, some public_key⟩)
    h.groups rfl rfl (by
      have : s.main.numberRow ⟨groupsNow, t.app.groups.map groupValues⟩
        [.null, .text voucher, boolValue spendable, .text public_key] =
        [.int (s.main.nextNumber ⟨groupsNow, t.app.groups.map groupValues⟩), .text voucher,
          boolValue spendable, .text public_key] := rfl
      rw [this, hnext]
      rfl) rfl rfl
  have he : (sqlOf (.insertGroup voucher public_key spendable)).effect s b s.main =
      s.main.insertRow b "redemption-groups" [.null, .text voucher, boolValue spendable, .text public_key] := by
    simp only [sqlOf, StoreSql.effect, Sql.exec, h.groups]
    rfl
  have hx : stmtExec b (.insertGroup voucher public_key spendable) t = .ok { t with app := { t.app with
      groups := t.app.groups ++ [⟨nextRowid (t.app.groups.map (·.rowid)), voucher, spendable, some public_key⟩] } } := by
    cases b <;> rfl
  obtain ⟨db', h1, h2⟩ := i2 (by
    have hfresh := nextRowid_fresh (t.app.groups.map (·.rowid))
    have : (t.app.groups.map fun g => Value.int (g.rowid : Nat)).contains
        (.int (nextRowid (t.app.groups.map (·.rowid)) : Nat)) = false := by
      rw [Bool.eq_false_iff]
      intro hc
      rw [List.contains_iff_mem, List.mem_map] at hc
      obtain ⟨g, hg, he⟩ := hc
      injection he with he
      apply hfresh
      rw [List.mem_map]
      exact ⟨g, hg, by omega⟩
    simp only [Table.keyFree, Table.values, List.map_map]
    show ((_ == _) || !(t.app.groups.map fun g => Value.int (g.rowid : Nat)).contains
        (.int (nextRowid (t.app.groups.map (·.rowid)) : Nat))) = true
    rw [this]
    simp)
  rw [hx, main_ok ht hn (by rw [he]; exact h1)]
  exact ⟨finds_put_groups h (by rw [List.map_append]; exact h2), ht⟩

theorem int_fresh {α} (l : List α) (f : α → Nat) :
    (l.map fun g => Value.int (f g : Nat)).contains (.int (nextRowid (l.map f) : Nat)) = false := by
  have hfresh := nextRowid_fresh (l.map f)
  rw [Bool.eq_false_iff]
  intro hc
  rw [List.contains_iff_mem, List.mem_map] at hc
  obtain ⟨g, hg, he⟩ := hc
  injection he with he
  apply hfresh
  rw [List.mem_map]
  exact ⟨g, hg, by omega⟩

theorem follows_insertMaint {s : Session} {t : Tables} (h : Finds s.main t.app)
    (ht : TempFinds s.temp t.temp) (b : Bool) (started : String) :
    Follows (s.exec b (sqlOf (.insertMaint started))) (stmtExec b (.insertMaint started) t) := by
  have hn : (sqlOf (.insertMaint started)).target ∉ temporary_tables.map (·.name) :=
    not_temp (n := "lease-maintenance-spending") (by simp)
  have hnext : s.main.nextNumber ⟨maintNow, t.app.maint.map maintValues⟩ =
      (nextRowid (t.app.maint.map (·.id)) : Nat) := by
    rw [← maxInt_nextRowid, List.map_map]
    simp only [Database.nextNumber, maintNow, Table.values, List.map_map]
    rfl
  obtain ⟨i1, i2⟩ := insertRow_eq (b := b) (db := s.main) (row := [.null, .text started, .null, .int 0])
    (row' := maintValues ⟨nextRowid (t.app.maint.map (·.id)), started, none, 0⟩)
    h.maint rfl rfl (by
      have : s.main.numberRow ⟨maintNow, t.app.maint.map maintValues⟩
        [.null, .text started, .null, .int 0] =
        [.int (s.main.nextNumber ⟨maintNow, t.app.maint.map maintValues⟩), .text started, .null, .int 0] := rfl
      rw [this, hnext]
      rfl) rfl rfl
  have he : (sqlOf (.insertMaint started)).effect s b s.main =
      s.main.insertRow b "lease-maintenance-spending" [.null, .text started, .null, .int 0] := by
    simp only [sqlOf, StoreSql.effect, Sql.exec, h.maint]
    rfl
  have hx : stmtExec b (.insertMaint started) t = .ok { t with app := { t.app with
      maint := t.app.maint ++ [⟨nextRowid (t.app.maint.map (·.id)), started, none, 0⟩] } } := by
    cases b <;> rfl
  obtain ⟨db', h1, h2⟩ := i2 (by
    simp only [Table.keyFree, Table.values, List.map_map]
    show ((_ == _) || !(t.app.maint.map fun g => Value.int (g.id : Nat)).contains
        (.int (nextRowid (t.app.maint.map (·.id)) : Nat))) = true
    rw [int_fresh]
    simp)
  rw [hx, main_ok ht hn (by rw [he]; exact h1)]
  exact ⟨finds_put_maint h (by rw [List.map_append]; exact h2), ht⟩

theorem follows_insertVoucher {s : Session} {t : Tables} (h : Finds s.main t.app)
    (ht : TempFinds s.temp t.temp) (b : Bool) (number : String) (expected : Nat) (created : String) :
    Follows (s.exec b (sqlOf (.insertVoucher number expected created)))
      (stmtExec b (.insertVoucher number expected created) t) := by
  have hn : (sqlOf (.insertVoucher number expected created)).target ∉ temporary_tables.map (·.name) :=
    not_temp (n := "vouchers") (by simp)
  obtain ⟨pk, hpk⟩ := h.vouchers
  let v : VoucherRow := { number := number, created := created, expected_tokens := expected }
  obtain ⟨i1, i2⟩ := insertRow_eq (b := b) (row := voucherValues .null v)
    (row' := voucherValues .null v) hpk rfl rfl rfl rfl rfl
  have hk : Table.keyFree ⟨vouchersNow, t.app.vouchers.map fun v => voucherValues (pk v.number) v⟩
      (voucherValues .null v) = !decide (number ∈ t.app.vouchers.map (·.number)) := by
    rw [← contains_map_text]
    simp only [Table.keyFree, Table.values, List.map_map]
    rfl
  have he : (sqlOf (.insertVoucher number expected created)).effect s b s.main =
      if !(!decide (number ∈ t.app.vouchers.map (·.number))) then .ok s.main
      else s.main.insertRow b "vouchers" (voucherValues .null v) := by
    rw [← hk]
    simp only [sqlOf, StoreSql.effect, Sql.exec, hpk]
    rfl
  by_cases hm : number ∈ t.app.vouchers.map (·.number)
  · have hx : stmtExec b (.insertVoucher number expected created) t = .ok t := by
      cases b <;> simp only [stmtExec, exec_deferred, exec, if_pos hm, if_true, Bool.false_eq_true, if_false]
    rw [hx, main_ok ht hn (by rw [he, decide_eq_true hm]; rfl)]
    exact ⟨h, ht⟩
  · have hx : stmtExec b (.insertVoucher number expected created) t = .ok { t with app := { t.app with
        vouchers := t.app.vouchers ++ [v] } } := by
      cases b <;> simp only [stmtExec, exec_deferred, exec, if_neg hm, if_true, Bool.false_eq_true, if_false] <;> rfl
    obtain ⟨db', h1, h2⟩ := i2 (by rw [hk, decide_eq_false hm]; rfl)
    rw [hx, main_ok ht hn (by rw [he, decide_eq_false hm]; exact h1)]
    refine ⟨finds_put_vouchers h (fun n => if n = number then .null else pk n) ?_, ht⟩
    rw [List.map_append]
    have : (t.app.vouchers.map fun v => voucherValues (if v.number = number then .null else pk v.number) v) =
        t.app.vouchers.map fun v => voucherValues (pk v.number) v := by
      apply List.map_congr_left
      intro w hw
      rw [if_neg (fun hwn => hm (List.mem_map.2 ⟨w, hw, hwn⟩))]
    rw [this]
    have hv : ([v].map fun v => voucherValues (if v.number = number then .null else pk v.number) v) =
        [voucherValues .null v] := by
      simp only [List.map_cons, List.map_nil]
      rw [if_pos rfl]
    rw [hv]
    exact h2

theorem follows_insertToken {s : Session} {t : Tables} (h : Finds s.main t.app)
    (ht : TempFinds s.temp t.temp) (b : Bool) (voucher : String) (counter : Nat) (text : String) :
    Follows (s.exec b (sqlOf (.insertToken voucher counter text)))
      (stmtExec b (.insertToken voucher counter text) t) := by
  have hn : (sqlOf (.insertToken voucher counter text)).target ∉ temporary_tables.map (·.name) :=
    not_temp (n := "tokens") (by simp)
  obtain ⟨pk, hpk⟩ := h.vouchers
  have hk : Table.keyFree ⟨tokensNow, t.app.tokens.map tokenValues⟩ (tokenValues ⟨text, voucher, counter⟩) =
      !decide (text ∈ t.app.tokens.map (·.text)) := by
    rw [← contains_map_text]
    simp only [Table.keyFree, Table.values, List.map_map]
    rfl
  have he : (sqlOf (.insertToken voucher counter text)).effect s b s.main =
      s.main.insertRow b "tokens" (tokenValues ⟨text, voucher, counter⟩) := by
    simp only [sqlOf, StoreSql.effect, Sql.exec, h.tokens]
    rfl
  let db' : Database := Database.mk (s.main.modify "tokens" fun u =>
    { u with rows := u.rows ++ [tokenValues ⟨text, voucher, counter⟩] }).tables s.main.sequence
  have hput : Put s.main db' "tokens" tokensNow
      (t.app.tokens.map tokenValues ++ [tokenValues ⟨text, voucher, counter⟩]) :=
    put_of _ h.tokens (fun _ => rfl) rfl
  have hfk : tokensNow.foreign.all (db'.foreignKeyOk tokensNow (tokenValues ⟨text, voucher, counter⟩)) =
      decide (voucher ∈ t.app.vouchers.map (·.number)) := by
    rw [← contains_map_text]
    have hv : db'.find "vouchers" = s.main.find "vouchers" := by rw [hput.find, if_neg (by decide)]
    rw [hpk] at hv
    show (Database.foreignKeyOk db' tokensNow (tokenValues ⟨text, voucher, counter⟩)
      { column := "voucher", parent := "vouchers", parentColumn := "number" } && true) = _
    simp only [Database.foreignKeyOk, hv, Table.values, List.map_map, Bool.and_true]
    rfl
  have hi : s.main.insertRow b "tokens" (tokenValues ⟨text, voucher, counter⟩) =
      if !(!decide (text ∈ t.app.tokens.map (·.text))) then .error .integrityError
      else if b || decide (voucher ∈ t.app.vouchers.map (·.number)) then .ok db'
      else .error .integrityError := by
    rw [← hk, ← hfk]
    have hp : tokensNow.foreign.all (fun f => (s.main.find f.parent).isSome) = true := by
      show ((s.main.find "vouchers").isSome && true) = true
      rw [hpk]; rfl
    simp only [Database.insertRow, h.tokens, hp, Bool.not_true, Bool.false_eq_true, if_false]
    rw [if_neg (fun hne => hne rfl)]
    rfl
  by_cases hm : text ∈ t.app.tokens.map (·.text)
  · have hx : stmtExec b (.insertToken voucher counter text) t = .error .integrityError := by
      cases b <;> simp only [stmtExec, exec_deferred, exec, if_pos hm, if_true, Bool.false_eq_true, if_false]
    rw [hx, main_error ht hn (by rw [he, hi, decide_eq_true hm]; rfl)]
    rfl
  · rw [decide_eq_false hm] at hi
    have hfin : Finds db' { t.app with tokens := t.app.tokens ++ [⟨text, voucher, counter⟩] } :=
      finds_put_tokens h (by rw [List.map_append]; exact hput)
    cases b with
    | true =>
      have hx : stmtExec true (.insertToken voucher counter text) t = .ok { t with app := { t.app with
          tokens := t.app.tokens ++ [⟨text, voucher, counter⟩] } } := by
        simp only [stmtExec, exec_deferred, if_neg hm, if_true]
      rw [hx, main_ok ht hn (by rw [he, hi]; rfl)]
      exact ⟨hfin, ht⟩
    | false =>
      by_cases hv : voucher ∈ t.app.vouchers.map (·.number)
      · have hx : stmtExec false (.insertToken voucher counter text) t = .ok { t with app := { t.app with
            tokens := t.app.tokens ++ [⟨text, voucher, counter⟩] } } := by
          simp only [stmtExec, exec, if_neg hm, Bool.false_eq_true, if_false, if_neg (not_not_intro hv)]
        rw [hx, main_ok ht hn (by rw [he, hi, decide_eq_true hv]; rfl)]
        exact ⟨hfin, ht⟩
      · have hx : stmtExec false (.insertToken voucher counter text) t = .error .integrityError := by
          simp only [stmtExec, exec, if_neg hm, Bool.false_eq_true, if_false, if_pos hv]
        rw [hx, main_error ht hn (by rw [he, hi, decide_eq_false hv]; rfl)]
        rfl

/-! ### Updates -/

/-- What an `UPDATE` does when each row that is not changed by it and each row that is stays valid. -/
theorem set_eq {s : Session} {db : Database} {n : String} {d : TableDef} {rows : List Row} {b : Bool}
    (sets : Dict String SetTo) (wheres : Dict String Value) (hf : db.find n = some ⟨d, rows⟩)
    (hs : (!(sets.all (fun c => (d.index c.1).isSome) && d.hasAll wheres) || sets.any fun c => d.isKey c.1) =
      false) (rows' : List Row)
    (hr : (rows.map fun row => if d.selects wheres row then d.assignTo sets row else row) = rows')
    (hn : ∀ row ∈ rows', d.notNullOk row = true) :
    ∃ db', (StoreSql.set n sets wheres).effect s b db = .ok db' ∧ Put db db' n d rows' := by
  refine ⟨Database.mk (db.modify n fun t => { t with rows := rows' }).tables db.sequence, ?_,
    put_of _ hf (fun _ => rfl) rfl⟩
  have hall : rows'.all d.notNullOk = true := List.all_eq_true.2 hn
  simp only [StoreSql.effect, hf, hs, hr, hall, Bool.false_eq_true, if_false, if_true]
  rfl

theorem voucher_notNull (pk : Value) (v : VoucherRow) : vouchersNow.notNullOk (voucherValues pk v) = true := rfl

theorem maint_notNull (r : MaintRow) : maintNow.notNullOk (maintValues r) = true := rfl

theorem text_ne_null (x : String) : (Value.text x != Value.null) = true := rfl

theorem int_ne_null (x : Int) : (Value.int x != Value.null) = true := rfl

theorem text_beq (x y : String) : (Value.text x == Value.text y) = (x == y) := by
  rw [Bool.eq_iff_iff]; simp

theorem int_beq (x y : Int) : (Value.int x == Value.int y) = (x == y) := by
  rw [Bool.eq_iff_iff]; simp

theorem follows_updateRedeemed {s : Session} {t : Tables} (h : Finds s.main t.app)
    (ht : TempFinds s.temp t.temp) (b : Bool) (state : String) (tokens sequestered : Nat)
    (finished number : String) :
    Follows (s.exec b (sqlOf (.updateRedeemed state tokens sequestered finished number)))
      (stmtExec b (.updateRedeemed state tokens sequestered finished number) t) := by
  have hn : (sqlOf (.updateRedeemed state tokens sequestered finished number)).target ∉
    temporary_tables.map (·.name) := not_temp (n := "vouchers") (by simp)
  obtain ⟨pk, hpk⟩ := h.vouchers
  let up : VoucherRow → VoucherRow := fun v => if v.number == number then
              { v with
                state := state
                token_count := some (v.token_count.getD 0 + tokens)
                sequestered_count := v.sequestered_count + sequestered
                finished := some finished
                counter := v.counter + 1 }
            else v
  have hup : ∀ v, (up v).number = v.number := by
    intro v
    show (if v.number == number then _ else v : VoucherRow).number = _
    split <;> rfl
  obtain ⟨db', h1, h2⟩ := set_eq (s := s) (b := b) [("state", .value (.text state)), ("token-count", .coalescePlus tokens),
      ("sequestered-count", .coalescePlus sequestered), ("finished", .value (.text finished)),
      ("counter", .plus 1)] [("number", .text number)] hpk rfl
      ((t.app.vouchers.map up).map fun v => voucherValues (pk v.number) v) (by
        rw [List.map_map, List.map_map]
        apply List.map_congr_left
        intro v _
        simp only [Function.comp, hup]
        have hsel : vouchersNow.selects [("number", .text number)] (voucherValues (pk v.number) v) =
            (v.number == number) := by
          show (_ && (Value.text v.number == Value.text number) && true) = _
          rw [text_beq]
          simp [text_ne_null]
        rw [hsel]
        by_cases hv : v.number == number
        · have : up v = { v with
                state := state
                token_count := some (v.token_count.getD 0 + tokens)
                sequestered_count := v.sequestered_count + sequestered
                finished := some finished
                counter := v.counter + 1 } := if_pos hv
          rw [if_pos hv, this]
          obtain ⟨n0, c0, s0, f0, tc, k, ex, sq⟩ := v
          cases tc
          · simp only [Option.getD_none, Nat.zero_add]
            rfl
          · rfl
        · have : up v = v := if_neg hv
          rw [if_neg hv, this]) (by
        intro row hrow
        obtain ⟨v, _, rfl⟩ := List.mem_map.1 hrow
        exact voucher_notNull _ _)
  have hx : stmtExec b (.updateRedeemed state tokens sequestered finished number) t =
      .ok { t with app := { t.app with vouchers := t.app.vouchers.map up } } := by
    cases b <;> rfl
  rw [hx, main_ok ht hn h1]
  exact ⟨finds_put_vouchers h pk h2, ht⟩

theorem follows_updateDoubleSpent {s : Session} {t : Tables} (h : Finds s.main t.app)
    (ht : TempFinds s.temp t.temp) (b : Bool) (finished number : String) :
    Follows (s.exec b (sqlOf (.updateDoubleSpent finished number)))
      (stmtExec b (.updateDoubleSpent finished number) t) := by
  have hn : (sqlOf (.updateDoubleSpent finished number)).target ∉ temporary_tables.map (·.name) :=
    not_temp (n := "vouchers") (by simp)
  obtain ⟨pk, hpk⟩ := h.vouchers
  let up : VoucherRow → VoucherRow := fun v => if v.number == number && v.state == "pending" then
              { v with state := "double-spend", finished := some finished }
            else v
  have hup : ∀ v, (up v).number = v.number := by
    intro v
    show (if v.number == number && v.state == "pending" then _ else v : VoucherRow).number = _
    split <;> rfl
  obtain ⟨db', h1, h2⟩ := set_eq (s := s) (b := b) [("state", .value (.text "double-spend")),
      ("finished", .value (.text finished))] [("number", .text number), ("state", .text "pending")] hpk rfl
      ((t.app.vouchers.map up).map fun v => voucherValues (pk v.number) v) (by
        rw [List.map_map, List.map_map]
        apply List.map_congr_left
        intro v _
        simp only [Function.comp, hup]
        have hsel : vouchersNow.selects [("number", .text number), ("state", .text "pending")]
            (voucherValues (pk v.number) v) = (v.number == number && v.state == "pending") := by
          show (_ && (Value.text v.number == Value.text number) &&
            (_ && (Value.text v.state == Value.text "pending") && true)) = _
          rw [text_beq, text_beq]
          simp [text_ne_null]
        rw [hsel]
        by_cases hv : v.number == number && v.state == "pending"
        · have : up v = { v with state := "double-spend", finished := some finished } := if_pos hv
          rw [if_pos hv, this]
          rfl
        · have : up v = v := if_neg hv
          rw [if_neg hv, this]) (by
        intro row hrow
        obtain ⟨v, _, rfl⟩ := List.mem_map.1 hrow
        exact voucher_notNull _ _)
  have hx : stmtExec b (.updateDoubleSpent finished number) t =
      .ok { t with app := { t.app with vouchers := t.app.vouchers.map up } } := by
    cases b <;> rfl
  rw [hx, main_ok ht hn h1]
  exact ⟨finds_put_vouchers h pk h2, ht⟩

theorem maint_selects (id : Option Nat) (r : MaintRow) :
    maintNow.selects [("id", optNat id)] (maintValues r) = decide (some r.id = id) := by
  cases id with
  | none => rfl
  | some n =>
    show ((Value.int n != .null) && (Value.int r.id == Value.int n) && true) = _
    rw [int_beq]
    rw [Bool.eq_iff_iff]
    simp
    omega

theorem follows_updateMaintCount {s : Session} {t : Tables} (h : Finds s.main t.app)
    (ht : TempFinds s.temp t.temp) (b : Bool) (count : Int) (id : Option Nat) :
    Follows (s.exec b (sqlOf (.updateMaintCount count id))) (stmtExec b (.updateMaintCount count id) t) := by
  have hn : (sqlOf (.updateMaintCount count id)).target ∉ temporary_tables.map (·.name) :=
    not_temp (n := "lease-maintenance-spending") (by simp)
  let up : MaintRow → MaintRow := fun r => if some r.id = id then { r with count := r.count + count } else r
  obtain ⟨db', h1, h2⟩ := set_eq (s := s) (b := b) [("count", .plus count)] [("id", optNat id)] h.maint rfl
      ((t.app.maint.map up).map maintValues) (by
        rw [List.map_map, List.map_map]
        apply List.map_congr_left
        intro r _
        simp only [Function.comp, maint_selects]
        by_cases hv : some r.id = id
        · have : up r = { r with count := r.count + count } := if_pos hv
          rw [if_pos (decide_eq_true hv), this]
          rfl
        · have : up r = r := if_neg hv
          rw [decide_eq_false hv, if_neg (by simp), this]) (by
        intro row hrow
        obtain ⟨r, _, rfl⟩ := List.mem_map.1 hrow
        exact maint_notNull _)
  have hx : stmtExec b (.updateMaintCount count id) t =
      .ok { t with app := { t.app with maint := t.app.maint.map up } } := by
    cases b <;> rfl
  rw [hx, main_ok ht hn h1]
  exact ⟨finds_put_maint h h2, ht⟩

theorem follows_updateMaintFinished {s : Session} {t : Tables} (h : Finds s.main t.app)
    (ht : TempFinds s.temp t.temp) (b : Bool) (finished : String) (id : Option Nat) :
    Follows (s.exec b (sqlOf (.updateMaintFinished finished id)))
      (stmtExec b (.updateMaintFinished finished id) t) := by
  have hn : (sqlOf (.updateMaintFinished finished id)).target ∉ temporary_tables.map (·.name) :=
    not_temp (n := "lease-maintenance-spending") (by simp)
  let up : MaintRow → MaintRow := fun r => if some r.id = id then { r with finished := some finished } else r
  obtain ⟨db', h1, h2⟩ := set_eq (s := s) (b := b) [("finished", .value (.text finished))]
      [("id", optNat id)] h.maint rfl ((t.app.maint.map up).map maintValues) (by
        rw [List.map_map, List.map_map]
        apply List.map_congr_left
        intro r _
        simp only [Function.comp, maint_selects]
        by_cases hv : some r.id = id
        · have : up r = { r with finished := some finished } := if_pos hv
          rw [if_pos (decide_eq_true hv), this]
          rfl
        · have : up r = r := if_neg hv
          rw [decide_eq_false hv, if_neg (by simp), this]) (by
        intro row hrow
        obtain ⟨r, _, rfl⟩ := List.mem_map.1 hrow
        exact maint_notNull _)
  have hx : stmtExec b (.updateMaintFinished finished id) t =
      .ok { t with app := { t.app with maint := t.app.maint.map up } } := by
    cases b <;> rfl
  rw [hx, main_ok ht hn h1]
  exact ⟨finds_put_maint h h2, ht⟩

/-! ### Deletions -/

theorem foreign_now {d : TableDef} (h : d ∈ schemaAt currentVersion) (hf : d.foreign ≠ []) : d = tokensNow := by
  rw [schema_now] at h
  simp only [List.mem_cons, List.not_mem_nil, or_false] at h
  rcases h with rfl | rfl | rfl | rfl | rfl | rfl | rfl | rfl <;> first | rfl | exact absurd rfl hf

theorem finds_foreignOk {db : Database} {a : App} (h : Finds db a) (hk : ForeignKeys a) : db.foreignOk = true := by
  obtain ⟨pk, hpk⟩ := h.vouchers
  simp only [Database.foreignOk, List.all_eq_true]
  intro u hu row hrow f hf
  have hs : u.schema ∈ schemaAt currentVersion := h.schema.subset (List.mem_map.2 ⟨u, hu, rfl⟩)
  have hd := foreign_now hs (by intro h0; rw [h0] at hf; exact nomatch hf)
  have hrows := rows_of_find h.schema names_now h.tokens u hu (by rw [hd]; rfl)
  rw [hd] at hf ⊢
  rw [hrows] at hrow
  obtain ⟨r, hr, rfl⟩ := List.mem_map.1 hrow
  have hfe : f = { column := "voucher", parent := "vouchers", parentColumn := "number" } := by
    simpa [tokensNow] using hf
  subst hfe
  have := hk r hr
  simp only [Database.foreignKeyOk, hpk, Table.values, List.map_map]
  have hc := contains_map_text a.vouchers (·.number) r.voucher
  rw [decide_eq_true this] at hc
  show ((_ == _) || (a.vouchers.map fun v => Value.text v.number).contains (.text r.voucher)) = true
  rw [hc, Bool.or_true]

/-- No table for the duration of a connection refers to another. -/
theorem temp_foreignOk {db : Database} (h : db.tables.map (·.schema) = temporary_tables) : db.foreignOk = true := by
  simp only [Database.foreignOk, List.all_eq_true]
  intro u hu row _ f hf
  have hs : u.schema ∈ temporary_tables := by rw [← h]; exact List.mem_map.2 ⟨u, hu, rfl⟩
  simp only [temporary_tables, List.mem_cons, List.not_mem_nil, or_false] at hs
  rcases hs with hs | hs | hs <;> (rw [hs] at hf; exact nomatch hf)

theorem filter_map_eq {α} (l : List α) (f : α → Row) (p : Row → Bool) (q : α → Bool)
    (h : ∀ x, p (f x) = q x) : (l.map f).filter p = (l.filter q).map f := by
  rw [List.filter_map]
  congr 1
  apply List.filter_congr
  intro x _
  exact h x

theorem follows_deleteTokens {s : Session} {t : Tables} (h : Finds s.main t.app)
    (ht : TempFinds s.temp t.temp) (b : Bool) (hk : b = true ∨ ForeignKeys t.app) (voucher : String) (counter : Nat) :
    Follows (s.exec b (sqlOf (.deleteTokens voucher counter)))
      (stmtExec b (.deleteTokens voucher counter) t) := by
  have hn : (sqlOf (.deleteTokens voucher counter)).target ∉ temporary_tables.map (·.name) :=
    not_temp (n := "tokens") (by simp)
  let keep := fun (r : TokenRow) => !(r.voucher == voucher && r.counter == counter)
  have hput : Put s.main (Database.mk (s.main.modify "tokens" fun u => { u with
      rows := u.rows.filter fun row => !(u.schema.selects [("voucher", .text voucher), ("counter", .int counter)] row) }).tables
      s.main.sequence) "tokens" tokensNow ((t.app.tokens.filter keep).map tokenValues) := by
    refine put_of _ h.tokens (fun _ => rfl) ?_
    refine filter_map_eq _ _ _ _ ?_
    intro r
    show (!(_ && (Value.text r.voucher == Value.text voucher) &&
      (_ && (Value.int r.counter == Value.int counter) && true))) = !_
    rw [text_beq, int_beq]
    have : ((r.counter : Int) == (counter : Int)) = (r.counter == counter) := by
      rw [Bool.eq_iff_iff]; simp; omega
    rw [this]
    simp [text_ne_null, int_ne_null]
  have hfin := finds_put_tokens h hput
  have hok : b = true ∨ _ := hk.imp_right fun hk => finds_foreignOk hfin
    (fun r hr => hk r (List.mem_filter.1 hr).1)
  have hx : stmtExec b (.deleteTokens voucher counter) t =
      .ok { t with app := { t.app with tokens := t.app.tokens.filter keep } } := by
    cases b <;> rfl
  have he : (sqlOf (.deleteTokens voucher counter)).effect s b s.main = .ok (Database.mk (s.main.modify "tokens" fun u => { u with
      rows := u.rows.filter fun row => !(u.schema.selects [("voucher", .text voucher), ("counter", .int counter)] row) }).tables
      s.main.sequence) := by
    have hh : tokensNow.hasAll [("voucher", .text voucher), ("counter", .int counter)] = true := rfl
    simp only [sqlOf, StoreSql.effect, Sql.exec, h.tokens, hh, Bool.not_true, Bool.false_eq_true, if_false]
    rw [if_pos (by rw [Bool.or_eq_true]; exact hok)]
    rfl
  rw [hx, main_ok ht hn he]
  exact ⟨hfin, ht⟩

/-- What `DELETE … IN` does. -/
theorem deleteIn_eq {s : Session} {db : Database} {n c : String} {d : TableDef} {rows : List Row} {b : Bool}
    {source : Source} {vs : List Value} {i : Nat} (hf : db.find n = some ⟨d, rows⟩) (hi : d.index c = some i)
    (hv : s.valuesOf source = .ok vs) (rows' : List Row)
    (hr : (rows.filter fun row => !((d.get row c).isIn vs)) = rows')
    (hok : ∀ db', Put db db' n d rows' → b = true ∨ db'.foreignOk = true) :
    ∃ db', (StoreSql.deleteIn n c source).effect s b db = .ok db' ∧ Put db db' n d rows' := by
  have hput : Put db (Database.mk (db.modify n fun t => { t with
      rows := t.rows.filter fun row => !((t.schema.get row c).isIn vs) }).tables db.sequence) n d rows' :=
    put_of _ hf (fun _ => rfl) hr
  refine ⟨_, ?_, hput⟩
  have := hok _ hput
  simp only [StoreSql.effect, hf, hi, hv]
  rw [if_pos (by rw [Bool.or_eq_true]; exact this)]
  rfl

/-- What `DELETE FROM` without a condition does. -/
theorem clear_eq {s : Session} {db : Database} {n : String} {d : TableDef} {rows : List Row} {b : Bool}
    (hf : db.find n = some ⟨d, rows⟩) (hok : ∀ db', Put db db' n d [] → b = true ∨ db'.foreignOk = true) :
    ∃ db', (StoreSql.clear n).effect s b db = .ok db' ∧ Put db db' n d [] := by
  have hput : Put db (Database.mk (db.modify n fun t => { t with
      rows := t.rows.filter fun row => !(t.schema.selects [] row) }).tables db.sequence) n d [] :=
    put_of _ hf (fun _ => rfl) (by simp [TableDef.selects])
  refine ⟨_, ?_, hput⟩
  have := hok _ hput
  have hh : d.hasAll [] = true := rfl
  simp only [StoreSql.effect, Sql.exec, hf, hh, Bool.not_true, Bool.false_eq_true, if_false]
  rw [if_pos (by rw [Bool.or_eq_true]; exact this)]
  rfl

theorem isIn_texts (x : String) (l : List String) :
    (Value.text x).isIn (l.map fun y => Value.text y) = decide (x ∈ l) := by
  have := contains_map_text l id x
  rw [List.map_id] at this
  simp only [Value.isIn, text_ne_null, Bool.true_and]
  exact this

theorem values_to_discard {s : Session} {m : Temp} (ht : TempFinds s.temp m) :
    s.valuesOf (.table "to-discard") = .ok (m.to_discard.map fun x => Value.text x) := by
  simp only [Session.valuesOf, Session.find, ht.to_discard, toDiscardDef, Table.values, List.map_map]
  rfl

theorem values_to_reset {s : Session} {m : Temp} (ht : TempFinds s.temp m) :
    s.valuesOf (.table "to-reset") = .ok (m.to_reset.map fun x => Value.text x) := by
  simp only [Session.valuesOf, Session.find, ht.to_reset, toResetDef, Table.values, List.map_map]
  rfl

theorem values_in_use {s : Session} {m : Temp} (ht : TempFinds s.temp m) :
    s.valuesOf (.table "in-use") = .ok (m.in_use.map fun x => Value.text x) := by
  simp only [Session.valuesOf, Session.find, ht.in_use, inUseDef, Table.values, List.map_map]
  rfl

theorem session_find_main {s : Session} {m : Temp} (ht : TempFinds s.temp m) {n : String}
    (hn : n ∉ temporary_tables.map (·.name)) : s.find n = s.main.find n := by
  simp only [Session.find, temp_none ht hn]

theorem values_invalid {s : Session} {a : App} {m : Temp} (h : Finds s.main a) (ht : TempFinds s.temp m) :
    s.valuesOf (.select "token" "invalid-unblinded-tokens") =
      .ok ((a.invalid.map (·.token)).map fun x => Value.text x) := by
  have hn := session_find_main ht (n := "invalid-unblinded-tokens") (not_temp (by simp))
  rw [h.invalid] at hn
  simp only [Session.valuesOf, hn, Table.values, List.map_map]
  rfl

theorem follows_deleteInUse {s : Session} {t : Tables} (h : Finds s.main t.app)
    (ht : TempFinds s.temp t.temp) (b : Bool) {st : Stmt} {source : Source} {l : List String}
    (hs : sqlOf st = .deleteIn "in-use" "unblinded-token" source)
    (hv : s.valuesOf source = .ok (l.map fun x => Value.text x))
    (hx : stmtExec b st t = .ok { t with temp := { t.temp with in_use := t.temp.in_use.filter (· ∉ l) } }) :
    Follows (s.exec b (sqlOf st)) (stmtExec b st t) := by
  obtain ⟨db', h1, h2⟩ := deleteIn_eq (s := s) (b := b) (c := "unblinded-token") (i := 0) ht.in_use rfl hv
    ((t.temp.in_use.filter (· ∉ l)).map fun x => [.text x]) (by
      refine filter_map_eq _ _ _ _ ?_
      intro x
      show (!((Value.text x).isIn _)) = _
      rw [isIn_texts]
      simp) (fun db' hp => Or.inr (temp_foreignOk (by rw [hp.schema]; exact ht.schema)))
  rw [hx, temp_ok (s := s) (u := ⟨inUseDef, t.temp.in_use.map fun x => [.text x]⟩)
    (by rw [hs]; exact ht.in_use) (by rw [hs]; exact h1)]
  exact ⟨h, temp_put_in_use ht h2⟩

theorem follows_deleteUnblinded {s : Session} {t : Tables} (h : Finds s.main t.app)
    (ht : TempFinds s.temp t.temp) (b : Bool) (hk : b = true ∨ ForeignKeys t.app) {st : Stmt} {source : Source}
    {l : List String} (hs : sqlOf st = .deleteIn "unblinded-tokens" "token" source)
    (hv : s.valuesOf source = .ok (l.map fun x => Value.text x))
    (hx : stmtExec b st t =
      .ok { t with app := { t.app with unblinded := t.app.unblinded.filter (·.token ∉ l) } }) :
    Follows (s.exec b (sqlOf st)) (stmtExec b st t) := by
  obtain ⟨db', h1, h2⟩ := deleteIn_eq (s := s) (b := b) (c := "token") (i := 0) h.unblinded rfl hv
    ((t.app.unblinded.filter (·.token ∉ l)).map unblindedValues) (by
      refine filter_map_eq _ _ _ _ ?_
      intro x
      show (!((Value.text x.token).isIn _)) = _
      rw [isIn_texts]
      simp) (fun db' hp => hk.imp_right (finds_foreignOk (finds_put_unblinded h hp)))
  rw [hx, main_ok (s := s) ht (by rw [hs]; exact not_temp (n := "unblinded-tokens") (by simp))
    (by rw [hs]; exact h1)]
  exact ⟨finds_put_unblinded h h2, ht⟩

theorem follows_clearToDiscard {s : Session} {t : Tables} (h : Finds s.main t.app)
    (ht : TempFinds s.temp t.temp) (b : Bool) :
    Follows (s.exec b (sqlOf .clearToDiscard)) (stmtExec b .clearToDiscard t) := by
  obtain ⟨db', h1, h2⟩ := clear_eq (s := s) (b := b) ht.to_discard
    (fun db' hp => Or.inr (temp_foreignOk (by rw [hp.schema]; exact ht.schema)))
  have hx : stmtExec b .clearToDiscard t = .ok { t with temp := { t.temp with to_discard := [] } } := by
    cases b <;> rfl
  rw [hx, temp_ok (q := sqlOf .clearToDiscard) ht.to_discard h1]
  exact ⟨h, temp_put_to_discard ht h2⟩

theorem follows_clearToReset {s : Session} {t : Tables} (h : Finds s.main t.app)
    (ht : TempFinds s.temp t.temp) (b : Bool) :
    Follows (s.exec b (sqlOf .clearToReset)) (stmtExec b .clearToReset t) := by
  obtain ⟨db', h1, h2⟩ := clear_eq (s := s) (b := b) ht.to_reset
    (fun db' hp => Or.inr (temp_foreignOk (by rw [hp.schema]; exact ht.schema)))
  have hx : stmtExec b .clearToReset t = .ok { t with temp := { t.temp with to_reset := [] } } := by
    cases b <;> rfl
  rw [hx, temp_ok (q := sqlOf .clearToReset) ht.to_reset h1]
  exact ⟨h, temp_put_to_reset ht h2⟩

/-- Every statement does to the database what the model says it does to the tables. -/
theorem follows {s : Session} {t : Tables} (h : Finds s.main t.app) (ht : TempFinds s.temp t.temp) (b : Bool)
    (hk : b = true ∨ ForeignKeys t.app) (st : Stmt) : Follows (s.exec b (sqlOf st)) (stmtExec b st t) := by
  cases st with
  | insertVoucher n e c => exact follows_insertVoucher h ht b n e c
  | insertToken v c x => exact follows_insertToken h ht b v c x
  | insertGroup v pk sp => exact follows_insertGroup h ht b v pk sp
  | updateRedeemed st' n q f v => exact follows_updateRedeemed h ht b st' n q f v
  | insertUnblinded x g => exact follows_insertUnblinded h ht b x g
  | deleteTokens v c => exact follows_deleteTokens h ht b hk v c
  | updateDoubleSpent f v => exact follows_updateDoubleSpent h ht b f v
  | insertInUse x => exact follows_insertInUse h ht b x
  | insertToDiscard x => exact follows_insertToDiscard h ht b x
  | deleteInUseToDiscard =>
    exact follows_deleteInUse h ht b (st := .deleteInUseToDiscard) rfl (values_to_discard ht) (by cases b <;> rfl)
  | deleteUnblindedToDiscard =>
    exact follows_deleteUnblinded h ht b hk (st := .deleteUnblindedToDiscard) rfl (values_to_discard ht)
      (by cases b <;> rfl)
  | clearToDiscard => exact follows_clearToDiscard h ht b
  | insertInvalid x r => exact follows_insertInvalid h ht b x r
  | deleteInUseInvalid =>
    exact follows_deleteInUse h ht b (st := .deleteInUseInvalid) rfl (values_invalid h ht) (by cases b <;> rfl)
  | deleteUnblindedInvalid =>
    exact follows_deleteUnblinded h ht b hk (st := .deleteUnblindedInvalid) rfl (values_invalid h ht)
      (by cases b <;> rfl)
  | insertToReset x => exact follows_insertToReset h ht b x
  | deleteInUseToReset =>
    exact follows_deleteInUse h ht b (st := .deleteInUseToReset) rfl (values_to_reset ht) (by cases b <;> rfl)
  | clearToReset => exact follows_clearToReset h ht b
  | insertMaint x => exact follows_insertMaint h ht b x
  | updateMaintCount c i => exact follows_updateMaintCount h ht b c i
  | updateMaintFinished f i => exact follows_updateMaintFinished h ht b f i

end ZKAP
