import Verif.Lemmas.Snapshot
import Verif.Lemmas.Schema

/-! The order of tables does not matter to statements. -/
namespace ZKAP
open Spec

/-- The databases differ only in the order of their tables. -/
structure Permuted (a b : Database) : Prop where
  tables : a.tables.Perm b.tables
  names : (b.tables.map (·.schema.name)).Nodup
  sequence : a.sequence = b.sequence

/-- Both raise the same error, or neither does and the results are related. -/
def BothPermuted (x y : Except PyErr Database) : Prop :=
  match x, y with
  | .error e, .error f => e = f
  | .ok a, .ok b => Permuted a b
  | _, _ => False

namespace Permuted

theorem find {a b : Database} (h : Permuted a b) (n : String) : a.find n = b.find n :=
  perm_find h.tables h.names n

theorem modify {a b : Database} (h : Permuted a b) (n : String) (f : Table → Table)
    (hf : ∀ t, (f t).schema.name = t.schema.name) : Permuted (a.modify n f) (b.modify n f) := by
  refine ⟨h.tables.map _, ?_, h.sequence⟩
  have : (b.modify n f).tables.map (·.schema.name) = b.tables.map (·.schema.name) := by
    simp only [Database.modify, List.map_map]
    apply List.map_congr_left
    intro t _
    simp only [Function.comp]
    split
    · exact hf t
    · rfl
  rw [this]
  exact h.names

theorem withSequence {a b : Database} (h : Permuted a b) (s : Option (Dict String Int)) :
    Permuted { a with sequence := s } { b with sequence := s } := ⟨h.tables, h.names, rfl⟩

theorem foreignKeyOk {a b : Database} (h : Permuted a b) (d row f) :
    a.foreignKeyOk d row f = b.foreignKeyOk d row f := by
  simp only [Database.foreignKeyOk, h.find]

theorem perm_all {α : Type} {l m : List α} (h : l.Perm m) (p : α → Bool) : l.all p = m.all p := by
  rw [Bool.eq_iff_iff, List.all_eq_true, List.all_eq_true]
  exact ⟨fun k x hx => k x (h.mem_iff.2 hx), fun k x hx => k x (h.mem_iff.1 hx)⟩

theorem perm_any {α : Type} {l m : List α} (h : l.Perm m) (p : α → Bool) : l.any p = m.any p := by
  rw [Bool.eq_iff_iff, List.any_eq_true, List.any_eq_true]
  exact ⟨fun ⟨x, hx, k⟩ => ⟨x, h.mem_iff.1 hx, k⟩, fun ⟨x, hx, k⟩ => ⟨x, h.mem_iff.2 hx, k⟩⟩

theorem foreignOk {a b : Database} (h : Permuted a b) : a.foreignOk = b.foreignOk := by
  simp only [Database.foreignOk, perm_all h.tables]
  congr 1
  funext t
  congr 1
  funext row
  congr 1
  funext f
  exact h.foreignKeyOk _ _ _

theorem referred {a b : Database} (h : Permuted a b) (t) : a.referred t = b.referred t := by
  simp only [Database.referred, perm_any h.tables]

theorem numberRow {a b : Database} (h : Permuted a b) (t row) : a.numberRow t row = b.numberRow t row := by
  simp only [Database.numberRow, Database.nextNumber, Database.sequenceOf, h.sequence]

theorem noteNumber {a b : Database} (h : Permuted a b) (d row) : a.noteNumber d row = b.noteNumber d row := by
  simp only [Database.noteNumber, Database.sequenceOf, h.sequence]

theorem both_ok {a b : Database} (h : Permuted a b) : BothPermuted (.ok a) (.ok b) := h

theorem insertRow {a b : Database} (h : Permuted a b) (deferred name row) :
    BothPermuted (a.insertRow deferred name row) (b.insertRow deferred name row) := by
  unfold Database.insertRow
  rw [h.find]
  cases hb : b.find name with
  | none => rfl
  | some t =>
    simp only [h.find, h.numberRow, h.noteNumber]
    have h' : Permuted
        { a.modify name (fun u => { u with rows := u.rows ++ [b.numberRow t row] }) with
          sequence := b.noteNumber t.schema (b.numberRow t row) }
        { b.modify name (fun u => { u with rows := u.rows ++ [b.numberRow t row] }) with
          sequence := b.noteNumber t.schema (b.numberRow t row) } :=
      (h.modify name (fun u => { u with rows := u.rows ++ [b.numberRow t row] }) (fun _ => rfl)).withSequence _
    have hfk : (Database.foreignKeyOk { a.modify name (fun u => { u with rows := u.rows ++ [b.numberRow t row] }) with
          sequence := b.noteNumber t.schema (b.numberRow t row) } t.schema (b.numberRow t row)) =
        (Database.foreignKeyOk { b.modify name (fun u => { u with rows := u.rows ++ [b.numberRow t row] }) with
          sequence := b.noteNumber t.schema (b.numberRow t row) } t.schema (b.numberRow t row)) := by
      funext f
      exact h'.foreignKeyOk _ _ _
    rw [hfk]
    split
    · rfl
    · split
      · rfl
      · split
        · rfl
        · split
          · rfl
          · split
            · exact h'
            · rfl

theorem insertRows (deferred name) (rows : List Row) : ∀ {a b : Database}, Permuted a b →
    BothPermuted (a.insertRows deferred name rows) (b.insertRows deferred name rows) := by
  induction rows with
  | nil => intro a b h; exact h
  | cons row rows ih =>
    intro a b h
    simp only [Database.insertRows]
    have := h.insertRow deferred name row
    cases ha : a.insertRow deferred name row <;> cases hb : b.insertRow deferred name row <;>
      rw [ha, hb] at this
    · exact this
    · exact this.elim
    · exact this.elim
    · exact ih this

theorem exec {a b : Database} (h : Permuted a b) (utc deferred) (s : Sql) :
    BothPermuted (s.exec utc deferred a) (s.exec utc deferred b) := by
  cases s with
  | createTable d =>
    simp only [Sql.exec, h.find]
    split
    · rfl
    · rename_i hc
      refine ⟨h.tables.append_right _, ?_, by simp only [h.sequence]⟩
      rw [List.map_append, List.nodup_append]
      refine ⟨h.names, by simp, ?_⟩
      intro n hn m hm e
      simp only [List.map_cons, List.map_nil, List.mem_singleton] at hm
      obtain ⟨t, ht, rfl⟩ := List.mem_map.1 hn
      have : (b.find d.name).isSome := by
        simp only [Database.find, List.find?_isSome]
        exact ⟨t, ht, by rw [e, hm]; simp⟩
      simp [this] at hc
  | createVersion =>
    simp only [Sql.exec, h.find]
    split
    · exact h
    · rename_i hc
      refine ⟨h.tables.append_right _, ?_, h.sequence⟩
      rw [List.map_append, List.nodup_append]
      refine ⟨h.names, by simp, ?_⟩
      intro n hn m hm e
      simp only [List.map_cons, List.map_nil, List.mem_singleton] at hm
      obtain ⟨t, ht, rfl⟩ := List.mem_map.1 hn
      simp only [Database.find, List.find?_eq_none] at hc
      exact hc t ht (by rw [e, hm]; rfl)
  | addColumn table c =>
    simp only [Sql.exec, h.find]
    split
    · rfl
    · split
      · rfl
      · exact h.modify _ _ (fun _ => rfl)
  | dropTable table =>
    simp only [Sql.exec, h.find]
    split
    · rfl
    · rw [h.referred]
      split
      · rfl
      · refine ⟨h.tables.filter _, ?_, by simp only [h.sequence]⟩
        exact h.names.sublist ((List.filter_sublist).map _)
  | insert table row => exact h.insertRow deferred table row
  | insertNamed table named =>
    simp only [Sql.exec, h.find]
    split
    · rfl
    · split
      · rfl
      · exact h.insertRow _ _ _
  | insertOrIgnore table named =>
    simp only [Sql.exec, h.find]
    split
    · rfl
    · split
      · rfl
      · split
        · exact h
        · exact h.insertRow _ _ _
  | update table sets wheres =>
    simp only [Sql.exec, h.find]
    split
    · rfl
    · split
      · rfl
      · split
        · exact h.modify _ _ (fun _ => rfl)
        · rfl
  | delete table wheres =>
    simp only [Sql.exec, h.find]
    split
    · rfl
    · split
      · rfl
      · have h' := h.modify table (fun t => { t with
          rows := t.rows.filter fun row => !(t.schema.selects wheres row) }) (fun _ => rfl)
        rw [h'.foreignOk]
        split
        · exact h'
        · rfl
  | incrementVersion =>
    simp only [Sql.exec, h.find]
    split
    · rfl
    · split
      · rfl
      · exact h.modify _ _ (fun _ => rfl)
  | groupsOfRedeemed =>
    simp only [Sql.exec, h.find]
    split
    · exact insertRows _ _ _ h
    · rfl
  | toUtc table column =>
    simp only [Sql.exec, h.find]
    split
    · rfl
    · split
      · rfl
      · exact h.modify _ _ (fun _ => rfl)
  | clearSequence =>
    simp only [Sql.exec, h.sequence]
    split
    · rfl
    · exact ⟨h.tables, h.names, rfl⟩
  | insertSequence name number =>
    simp only [Sql.exec, h.sequence]
    split
    · rfl
    · exact ⟨h.tables, h.names, rfl⟩
  | beginTransaction => rfl
  | commit => rfl
  | invalid => rfl

theorem execAll (utc deferred) (ss : List Sql) : ∀ {a b : Database}, Permuted a b →
    BothPermuted (Sql.execAll utc deferred a ss) (Sql.execAll utc deferred b ss) := by
  induction ss with
  | nil => intro a b h; exact h
  | cons s ss ih =>
    intro a b h
    simp only [Sql.execAll]
    have := h.exec utc deferred s
    cases ha : s.exec utc deferred a <;> cases hb : s.exec utc deferred b <;> rw [ha, hb] at this
    · exact this
    · exact this.elim
    · exact this.elim
    · exact ih this

theorem createVersion {v : Nat} {a b : Database} (h : Permuted a b) (hb : OfVersion v b) (utc) :
    Sql.exec utc false a .createVersion = .ok a ∧ read_schema_version a = .ok (v : Int) := by
  obtain ⟨_, hc, hr⟩ := version_of hb
  constructor
  · have := hc utc
    simp only [Sql.exec, h.find] at this ⊢
    split at this
    · rfl
    · rename_i hn
      simp only [read_schema_version, hn] at hr
      exact nomatch hr
  · simp only [read_schema_version, h.find] at hr ⊢
    exact hr

end Permuted
end ZKAP
