import Verif.Spec.StartUp
import Verif.Lemmas.Recovery
import Verif.Lemmas.SchemaNew
import Verif.Lemmas.Permuted

/-! Lemmas about the connection that records changes. -/
namespace ZKAP
open Spec

theorem repl_executeAll (utc) (ss : List Sql) : ∀ (r : ReplConn),
    (r.executeAll utc ss).1.conn = (r.conn.executeAll utc ss).1 ∧
    (r.executeAll utc ss).2 = (r.conn.executeAll utc ss).2 ∧
    (r.executeAll utc ss).1.replicating = r.replicating ∧
    (r.executeAll utc ss).1.observed = r.observed ∧
    ((r.executeAll utc ss).2 = .ok () → (r.executeAll utc ss).1.mutations =
      if r.replicating then r.mutations ++ ss else r.mutations) := by
  induction ss with
  | nil =>
    intro r
    refine ⟨rfl, rfl, rfl, rfl, fun _ => ?_⟩
    simp [ReplConn.executeAll]
  | cons s ss ih =>
    intro r
    simp only [ReplConn.executeAll, ReplConn.execute, Conn.executeAll, Conn.sql]
    cases he : r.conn.execute s.opensTransaction fun deferred db => s.exec utc deferred db with
    | mk c res =>
      cases res with
      | error e => exact ⟨rfl, rfl, rfl, rfl, fun h => nomatch h⟩
      | ok u =>
        obtain ⟨h1, h2, h3, h4, h5⟩ := ih
          { r with conn := c, mutations := if r.replicating then r.mutations ++ [s] else r.mutations }
        refine ⟨h1, h2, h3, h4, fun h => ?_⟩
        rw [h5 h]
        by_cases hr : r.replicating = true
        · simp [hr]
        · simp [hr]

/-- Opening a database that has a version. -/
theorem get_store_of (utc) (render) (setup : Bool) {v : Int} {db db' : Database}
    (hc : Sql.exec utc false db .createVersion = .ok db) (hr : read_schema_version db = .ok v)
    (h1 : Sql.execAll utc false db (get_schema_upgrades upgrades v) = .ok db') :
    get_store utc render upgrades setup db = ({ conn := ⟨db', none, false⟩, replicating := setup }, .ok ()) := by
  have e : (({ committed := db } : Conn Database).executeAll utc [.createVersion]) =
      (⟨db, none, false⟩, .ok ()) := by
    simp only [Conn.executeAll, Conn.execute, hc]
    rfl
  have k := executeAll_current utc (get_schema_upgrades upgrades v) ⟨db, none, false⟩ rfl
  simp only [Conn.current, Option.getD_none, h1] at k
  obtain ⟨a1, a2, a3, a4, a5⟩ := repl_executeAll utc [.createVersion]
    { conn := { committed := db }, replicating := setup }
  rw [e] at a1 a2
  cases hx : ReplConn.executeAll utc { conn := { committed := db }, replicating := setup } [.createVersion] with
  | mk r1 res1 =>
    rw [hx] at a1 a2 a3 a4
    simp only at a1 a2 a3 a4
    subst a2
    obtain ⟨b1, b2, b3, b4, b5⟩ := repl_executeAll utc (get_schema_upgrades upgrades v) r1
    rw [a1] at b1 b2
    cases hy : ReplConn.executeAll utc r1 (get_schema_upgrades upgrades v) with
    | mk r2 res2 =>
      rw [hy] at b1 b2 b3 b4
      simp only at b1 b2 b3 b4
      cases hz : Conn.executeAll utc ⟨db, none, false⟩ (get_schema_upgrades upgrades v) with
      | mk c2 res3 =>
        rw [hz] at b1 b2 k
        simp only at b1 b2 k
        have hinit : (c2.exit Database.foreignOk res3) = (⟨db', none, false⟩, .ok ()) := by
          obtain ⟨k3, k1, k2⟩ := k
          subst k1
          obtain ⟨cc, cw, cd⟩ := c2
          simp only at k2 k3
          subst k3
          cases cw with
          | none =>
            simp only [Conn.current, Option.getD_none] at k2
            subst k2
            rfl
          | some w =>
            simp only [Conn.current, Option.getD_some] at k2
            subst k2
            rfl
        simp only [get_store, ReplConn.upgrade_body, hx, a1, Conn.current, Option.getD_none, hr, hy]
        simp only [ReplConn.exit, b1, b2, hinit, b4, a4]
        rw [call_closed _ _ _ rfl]
        simp only [Bool.false_eq_true, if_false, Sql.execAll, b3, a3]

/-- The database of a node that is started. -/
theorem get_store_eq (utc) (render) (setup : Bool) {v : Nat} (hv : v < 10) {db : Database} (h : OfVersion v db) :
    ∃ db', initialize_database utc upgrades db = (db', .ok ()) ∧ OfVersion 9 db' ∧
      get_store utc render upgrades setup db =
        ({ conn := ⟨db', none, false⟩, replicating := setup }, .ok ()) := by
  obtain ⟨db', h1, h2, h3⟩ := initialize_any utc v hv db h
  obtain ⟨_, hc, hr⟩ := version_of h
  exact ⟨db', h3, h2, get_store_of utc render setup (hc utc) hr h1⟩

/-- The same for a database whose tables are in another order. -/
theorem get_store_permuted (utc) (render) (setup : Bool) {v : Nat} (hv : v < 10) {db src : Database}
    (hp : Permuted db src) (h : OfVersion v src) :
    ∃ db' src', initialize_database utc upgrades src = (src', .ok ()) ∧ OfVersion 9 src' ∧
      Permuted db' src' ∧ get_store utc render upgrades setup db =
        ({ conn := ⟨db', none, false⟩, replicating := setup }, .ok ()) := by
  obtain ⟨src', h1, h2, h3⟩ := initialize_any utc v hv src h
  obtain ⟨hc, hr⟩ := hp.createVersion h utc
  have := Permuted.execAll utc false (get_schema_upgrades upgrades v) hp
  rw [h1] at this
  cases hd : Sql.execAll utc false db (get_schema_upgrades upgrades v) with
  | error e => rw [hd] at this; exact this.elim
  | ok db' =>
    rw [hd] at this
    exact ⟨db', src', h3, h2, this, get_store_of utc render setup hc hr hd⟩

/-! ### What is recorded -/

theorem recorded_find {db db' : Database} (h : db'.find "event-stream" = db.find "event-stream") :
    recorded db' = recorded db := by
  simp only [recorded, columnValues_eq, h]

theorem storeChange_find {utc deferred} {db db' : Database} {s : Sql} (hs : storeChange s = true)
    (h : s.exec utc deferred db = .ok db') : db'.find "event-stream" = db.find "event-stream" := by
  cases s with
  | insertNamed n named =>
    have hn : "event-stream" ≠ n := fun e => absurd (e ▸ (bne_iff_ne.1 hs)) (by exact fun h => h rfl)
    simp only [Sql.exec] at h
    split at h
    · exact nomatch h
    · split at h
      · exact nomatch h
      · exact find_insertRow h hn
  | insertOrIgnore n named =>
    have hn : "event-stream" ≠ n := fun e => absurd (e ▸ (bne_iff_ne.1 hs)) (by exact fun h => h rfl)
    simp only [Sql.exec] at h
    split at h
    · exact nomatch h
    · split at h
      · exact nomatch h
      · split at h
        · cases h; rfl
        · exact find_insertRow h hn
  | update n sets wheres =>
    have hn : "event-stream" ≠ n := fun e => absurd (e ▸ (bne_iff_ne.1 hs)) (by exact fun h => h rfl)
    simp only [Sql.exec] at h
    split at h
    · exact nomatch h
    · split at h
      · exact nomatch h
      · split at h
        · cases h
          rw [find_modify _ _ _ _ (by intro t; rfl), if_neg hn]
        · exact nomatch h
  | delete n wheres =>
    have hn : "event-stream" ≠ n := fun e => absurd (e ▸ (bne_iff_ne.1 hs)) (by exact fun h => h rfl)
    simp only [Sql.exec] at h
    split at h
    · exact nomatch h
    · split at h
      · exact nomatch h
      · split at h
        · cases h
          rw [find_modify _ _ _ _ (by intro t; rfl), if_neg hn]
        · exact nomatch h
  | _ => exact nomatch hs

theorem storeChanges_find {utc deferred} {ss : List Sql} (hs : ∀ s ∈ ss, storeChange s = true) :
    ∀ {db db' : Database}, Sql.execAll utc deferred db ss = .ok db' →
      db'.find "event-stream" = db.find "event-stream" := by
  induction ss with
  | nil => intro db db' h; cases h; rfl
  | cons s ss ih =>
    intro db db' h
    simp only [Sql.execAll] at h
    cases he : s.exec utc deferred db with
    | error e => rw [he] at h; exact nomatch h
    | ok d =>
      rw [he] at h
      rw [ih (fun x hx => hs x (List.mem_cons_of_mem _ hx)) h,
        storeChange_find (hs s List.mem_cons_self) he]

/-- The table for events of the current version. -/
def eventTable : TableDef :=
  { name := "event-stream"
    columns := [{ name := "sequence-number" }, { name := "statement" }, { name := "important" },
      { name := "serialized_arguments", default := .blob [0x80] }]
    key := .autoincrement "sequence-number" }

theorem hasEventStream_iff (db : Database) :
    HasEventStream db ↔ ∃ rows, db.find "event-stream" = some ⟨eventTable, rows⟩ := by
  constructor
  · rintro ⟨t, ht, hs⟩
    have hn : t.schema.name = "event-stream" := by
      have := List.find?_some ht
      simpa using this
    have : ∀ d ∈ schemaAt currentVersion, d.name = "event-stream" → d = eventTable := by decide +kernel
    obtain ⟨sc, rows⟩ := t
    exact ⟨rows, by rw [← this _ hs hn]; exact ht⟩
  · rintro ⟨rows, h⟩
    exact ⟨_, h, show eventTable ∈ schemaAt currentVersion by decide +kernel⟩

theorem recorded_eq {db : Database} {rows} (h : db.find "event-stream" = some ⟨eventTable, rows⟩) :
    recorded db = rows.map fun row => row.getD 1 .null := by
  have : eventTable.index "statement" = some 1 := by decide +kernel
  simp only [recorded, columnValues_eq, h, Option.bind_some, this, Option.map_some, Option.getD_some]

theorem event_recorded {utc deferred render} {db db' : Database} {s : Sql} {rows}
    (ht : db.find "event-stream" = some ⟨eventTable, rows⟩)
    (h : (event_insert render s).exec utc deferred db = .ok db') :
    ∃ row, db'.find "event-stream" = some ⟨eventTable, rows ++ [row]⟩ ∧ row.getD 1 .null = .text (render s) := by
  simp only [event_insert, Sql.exec, ht] at h
  split at h
  · exact nomatch h
  · unfold Database.insertRow at h
    rw [ht] at h
    simp only at h
    split at h
    · exact nomatch h
    · split at h
      · exact nomatch h
      · split at h
        · exact nomatch h
        · split at h
          · exact nomatch h
          · split at h
            · cases h
              refine ⟨db.numberRow ⟨eventTable, rows⟩ (eventTable.rowOf [("statement", .text (render s)),
                ("serialized_arguments", .blob [128]), ("important", .int 0)]), ?_, ?_⟩
              · show ((db.modify "event-stream" fun t => { t with rows := t.rows ++ [db.numberRow ⟨eventTable, rows⟩ _] }).find "event-stream") = _
                rw [find_modify _ _ _ _ (by intro t; rfl), if_pos rfl, ht]
                rfl
              · have hi : eventTable.index "sequence-number" = some 0 := by decide +kernel
                have hk : eventTable.key = .autoincrement "sequence-number" := rfl
                simp only [Database.numberRow, hk, hi]
                split <;> rfl
            · exact nomatch h

theorem events_recorded {utc render} (ss : List Sql) : ∀ {db db' : Database} {rows},
    db.find "event-stream" = some ⟨eventTable, rows⟩ →
    Sql.execAll utc false db (ss.map (event_insert render)) = .ok db' →
    ∃ rows', db'.find "event-stream" = some ⟨eventTable, rows'⟩ ∧
      recorded db' = recorded db ++ ss.map fun s => .text (render s) := by
  induction ss with
  | nil =>
    intro db db' rows ht h
    cases h
    exact ⟨rows, ht, by simp⟩
  | cons s ss ih =>
    intro db db' rows ht h
    simp only [List.map_cons, Sql.execAll] at h
    cases he : (event_insert render s).exec utc false db with
    | error e => rw [he] at h; exact nomatch h
    | ok d =>
      rw [he] at h
      obtain ⟨row, h1, h2⟩ := event_recorded ht he
      obtain ⟨rows', h3, h4⟩ := ih h1 h
      refine ⟨rows', h3, ?_⟩
      rw [h4, recorded_eq h1, recorded_eq ht, List.map_append, List.map_singleton, h2]
      simp

/-- A method of the store that returns. -/
theorem repl_call_ok {utc render} {r r' : ReplConn} {ss : List Sql} (hw : r.conn.working = none)
    (h : r.call utc render ss = (r', .ok ())) :
    ∃ d d', Sql.execAll utc false r.conn.committed ss = .ok d ∧
      Sql.execAll utc false d (if r.observed then
        (if r.replicating then r.mutations ++ ss else r.mutations).map (event_insert render) else []) = .ok d' ∧
      r' = { r with conn := ⟨d', none, false⟩, mutations := [] } := by
  obtain ⟨⟨d0, w, b⟩, rep, obs, ms⟩ := r
  simp only at hw
  subst hw
  simp only [ReplConn.call, Conn.begin] at h
  obtain ⟨h1, h2, h3, h4, h5⟩ := repl_executeAll utc ss
    { conn := ⟨d0, some d0, false⟩, replicating := rep, observed := obs, mutations := ms }
  obtain ⟨d, res, e1, e2, e3⟩ := executeAll_inside utc ss d0 d0 false
  rw [e1] at h1 h2
  cases hx : ReplConn.executeAll utc { conn := ⟨d0, some d0, false⟩, replicating := rep, observed := obs, mutations := ms } ss with
  | mk r1 res1 =>
    rw [hx] at h h1 h2 h3 h4 h5
    simp only at h h1 h2 h3 h4 h5
    subst h2
    cases res1 with
    | error e =>
      simp only [ReplConn.exit, Conn.exit] at h
      exact nomatch (Prod.mk.inj h).2
    | ok u =>
      have h5 := h5 rfl
      have hex : (Conn.exit Database.foreignOk (⟨d0, some d, false⟩ : Conn Database) (.ok ())) =
          (⟨d, none, false⟩, (.ok () : Except PyErr Unit)) := rfl
      simp only [ReplConn.exit, h1, hex, h4, h5, h3] at h
      rw [call_closed _ _ _ rfl] at h
      simp only at h
      cases hy : Sql.execAll utc false d (if obs = true then
          (if rep = true then ms ++ ss else ms).map (event_insert render) else []) with
      | error e =>
        rw [hy] at h
        exact nomatch (Prod.mk.inj h).2
      | ok d' =>
        rw [hy] at h
        simp only at h
        refine ⟨d, d', e2 rfl, hy, ?_⟩
        exact (Prod.mk.inj h).1.symm

/-- A method of the store whose statements succeed. -/
theorem repl_call_of {utc render} {r : ReplConn} {ss : List Sql} {d : Database} (hw : r.conn.working = none)
    (h : Sql.execAll utc false r.conn.committed ss = .ok d) :
    r.call utc render ss = 
      match Sql.execAll utc false d (if r.observed then
        (if r.replicating then r.mutations ++ ss else r.mutations).map (event_insert render) else []) with
      | .ok d' => ({ r with conn := ⟨d', none, false⟩, mutations := [] }, .ok ())
      | .error e => ({ r with conn := ⟨d, none, false⟩, mutations := [] }, .error e) := by
  obtain ⟨⟨d0, w, b⟩, rep, obs, ms⟩ := r
  simp only at hw h
  subst hw
  simp only [ReplConn.call, Conn.begin]
  obtain ⟨h1, h2, h3, h4, h5⟩ := repl_executeAll utc ss
    { conn := ⟨d0, some d0, false⟩, replicating := rep, observed := obs, mutations := ms }
  obtain ⟨d1, res, e1, e2, e3⟩ := executeAll_inside utc ss d0 d0 false
  rw [e1] at h1 h2
  cases hx : ReplConn.executeAll utc { conn := ⟨d0, some d0, false⟩, replicating := rep, observed := obs, mutations := ms } ss with
  | mk r1 res1 =>
    rw [hx] at h1 h2 h3 h4 h5
    simp only at h1 h2 h3 h4 h5
    subst h2
    cases res1 with
    | error e =>
      have := e3 e rfl
      rw [h] at this
      exact nomatch this
    | ok u =>
      have := e2 rfl
      rw [h] at this
      cases this
      have h5 := h5 rfl
      have hex : (Conn.exit Database.foreignOk (⟨d0, some d, false⟩ : Conn Database) (.ok ())) =
          (⟨d, none, false⟩, (.ok () : Except PyErr Unit)) := rfl
      simp only [ReplConn.exit, h1, hex, h4, h5, h3]
      rw [call_closed _ _ _ rfl]
      simp only
      split
      · rename_i e; rw [e]
      · rename_i e; rw [e]

end ZKAP

namespace ZKAP
open Spec

/-! ### Numbers of events -/

theorem sequenceOf_noteNumber (db : Database) (d : TableDef) (row : Row) (name : String) :
    db.sequenceOf name ≤ (({ db with sequence := db.noteNumber d row } : Database).sequenceOf name) := by
  simp only [Database.noteNumber]
  split
  · split
    · simp only [Database.sequenceOf, Option.getD_some, Dict.lookup_set]
      split
      · rename_i h
        rw [eq_of_beq h]
        simp only [Option.getD_some]
        omega
      · exact Int.le_refl _
    · exact Int.le_refl _
  · exact Int.le_refl _

theorem sequenceOf_insertRow {db db' : Database} {deferred n row} (h : db.insertRow deferred n row = .ok db')
    (name : String) : db.sequenceOf name ≤ db'.sequenceOf name := by
  unfold Database.insertRow at h
  cases ht : db.find n with
  | none => rw [ht] at h; exact nomatch h
  | some t =>
    rw [ht] at h
    simp only at h
    split at h
    · exact nomatch h
    · split at h
      · exact nomatch h
      · split at h
        · exact nomatch h
        · split at h
          · exact nomatch h
          · split at h
            · cases h
              exact sequenceOf_noteNumber db t.schema _ name
            · exact nomatch h

theorem sequenceOf_exec {utc deferred} {db db' : Database} {s : Sql} (hs : storeStatement s = true)
    (h : s.exec utc deferred db = .ok db') (name : String) : db.sequenceOf name ≤ db'.sequenceOf name := by
  cases s with
  | insert n row => exact sequenceOf_insertRow h name
  | insertNamed n named =>
    simp only [Sql.exec] at h
    split at h
    · exact nomatch h
    · split at h
      · exact nomatch h
      · exact sequenceOf_insertRow h name
  | insertOrIgnore n named =>
    simp only [Sql.exec] at h
    split at h
    · exact nomatch h
    · split at h
      · exact nomatch h
      · split at h
        · cases h; exact Int.le_refl _
        · exact sequenceOf_insertRow h name
  | update n sets wheres =>
    simp only [Sql.exec] at h
    split at h
    · exact nomatch h
    · split at h
      · exact nomatch h
      · split at h
        · cases h; exact Int.le_refl _
        · exact nomatch h
  | delete n wheres =>
    simp only [Sql.exec] at h
    split at h
    · exact nomatch h
    · split at h
      · exact nomatch h
      · split at h
        · cases h; exact Int.le_refl _
        · exact nomatch h
  | _ => exact nomatch hs

theorem sequenceOf_execAll {utc deferred} {ss : List Sql} (hs : ∀ s ∈ ss, storeStatement s = true)
    (name : String) : ∀ {db db' : Database}, Sql.execAll utc deferred db ss = .ok db' →
      db.sequenceOf name ≤ db'.sequenceOf name := by
  induction ss with
  | nil => intro db db' h; cases h; exact Int.le_refl _
  | cons s ss ih =>
    intro db db' h
    simp only [Sql.execAll] at h
    cases he : s.exec utc deferred db with
    | error e => rw [he] at h; exact nomatch h
    | ok d =>
      rw [he] at h
      exact Int.le_trans (sequenceOf_exec (hs s List.mem_cons_self) he name)
        (ih (fun x hx => hs x (List.mem_cons_of_mem _ hx)) h)

theorem eventNumbers_eq {db : Database} {rows} (h : db.find "event-stream" = some ⟨eventTable, rows⟩) :
    eventNumbers db = rows.map fun row => row.getD 0 .null := by
  have : eventTable.index "sequence-number" = some 0 := by decide +kernel
  simp only [eventNumbers, columnValues_eq, h, Option.bind_some, this, Option.map_some, Option.getD_some]

/-- The number of an event is more than the one in `sqlite_sequence`. -/
theorem event_number {utc deferred render} {db db' : Database} {s : Sql} {rows}
    (ht : db.find "event-stream" = some ⟨eventTable, rows⟩)
    (h : (event_insert render s).exec utc deferred db = .ok db') :
    ∃ n, eventNumbers db' = eventNumbers db ++ [.int n] ∧ db.sequenceOf "event-stream" < n := by
  simp only [event_insert, Sql.exec, ht] at h
  split at h
  · exact nomatch h
  · unfold Database.insertRow at h
    rw [ht] at h
    simp only at h
    split at h
    · exact nomatch h
    · split at h
      · exact nomatch h
      · split at h
        · exact nomatch h
        · split at h
          · exact nomatch h
          · split at h
            · cases h
              have hf : ((db.modify "event-stream" fun t => { t with rows := t.rows ++ [db.numberRow ⟨eventTable, rows⟩
                  (eventTable.rowOf [("statement", .text (render s)), ("serialized_arguments", .blob [128]),
                    ("important", .int 0)])] }).find "event-stream") = some ⟨eventTable, rows ++
                  [db.numberRow ⟨eventTable, rows⟩ (eventTable.rowOf [("statement", .text (render s)),
                    ("serialized_arguments", .blob [128]), ("important", .int 0)])]⟩ := by
                rw [find_modify _ _ _ _ (by intro t; rfl), if_pos rfl, ht]
                rfl
              refine ⟨db.nextNumber ⟨eventTable, rows⟩, ?_, ?_⟩
              · refine (eventNumbers_eq (by exact hf)).trans ?_
                rw [eventNumbers_eq ht, List.map_append]
                rfl
              · show _ < max _ _ + 1
                have : db.sequenceOf "event-stream" = db.sequenceOf eventTable.name := rfl
                simp only [this]
                omega
            · exact nomatch h

theorem wellFormed_number {db : Database} (hw : WellFormed db) {rows}
    (ht : db.find "event-stream" = some ⟨eventTable, rows⟩) {m : Int} (hm : .int m ∈ eventNumbers db) :
    m ≤ db.sequenceOf "event-stream" := by
  rw [eventNumbers_eq ht] at hm
  obtain ⟨row, hrow, he⟩ := List.mem_map.1 hm
  obtain ⟨s, hs, k⟩ := hw.numbers _ (List.mem_of_find?_eq_some ht) "sequence-number" rfl
  have hi : eventTable.index "sequence-number" = some 0 := by decide +kernel
  obtain ⟨x, hx, hle⟩ := k row hrow m (by simp only [TableDef.get, hi]; exact he)
  simp only [Database.sequenceOf, hs, Option.getD_some]
  have : s.lookup "event-stream" = some x := hx
  rw [this]
  exact hle

end ZKAP
