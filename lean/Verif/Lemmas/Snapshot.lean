import Verif.Lemmas.SchemaNew
import Verif.Lemmas.Dict
import Verif.Spec.Recovery

/-! Lemmas about dumping a database and executing the dump. -/
namespace ZKAP
open Spec

/-- Inside a transaction statements act on the working copy only. -/
theorem executeAll_working (utc) (ss : List Sql) : ∀ (d0 d d' : Database) (deferred : Bool),
    Sql.execAll utc deferred d ss = .ok d' →
    Conn.executeAll utc ⟨d0, some d, deferred⟩ ss = (⟨d0, some d', deferred⟩, .ok ()) := by
  induction ss with
  | nil => intro d0 d d' b h; cases h; rfl
  | cons s ss ih =>
    intro d0 d d' b h
    simp only [Sql.execAll] at h
    cases he : s.exec utc b d with
    | error e => rw [he] at h; exact nomatch h
    | ok d1 =>
      rw [he] at h
      simp only [Conn.executeAll, Conn.execute, he]
      exact ih d0 d1 d' b h

/-! ### Dropping all tables -/

theorem drop_all (utc) (b : Bool) : ∀ (ts : List Table) (sq : Option (Dict String Int)),
    (ts.map (·.schema.name)).Nodup → (∀ t ∈ ts, ∀ row ∈ t.rows, ∀ f ∈ t.schema.foreign, t.schema.get row f.column = .null) →
    ∃ sq', Sql.execAll utc b ⟨ts, sq⟩ (ts.map fun t => .dropTable t.schema.name) = .ok ⟨[], sq'⟩ := by
  intro ts
  induction ts with
  | nil => intro sq _ _; exact ⟨sq, rfl⟩
  | cons t ts ih =>
    intro sq hn hr
    rw [List.map_cons, List.nodup_cons] at hn
    have hf : (Database.mk (t :: ts) sq).find t.schema.name = some t := by simp [Database.find]
    have href : (Database.mk (t :: ts) sq).referred t = false := by
      simp only [Database.referred, List.any_eq_false, Bool.and_eq_true, not_and, Bool.not_eq_true]
      intro u hu _
      simp only [List.any_eq_false, Bool.and_eq_true, not_and, Bool.not_eq_true, bne_iff_ne, ne_eq]
      intro row hrow f hf h
      exact absurd (hr u hu row hrow f hf) h.2
    have hfil : (t :: ts).filter (fun u => u.schema.name != t.schema.name) = ts := by
      rw [List.filter_cons, if_neg (by simp), List.filter_eq_self]
      intro u hu
      simp only [bne_iff_ne, ne_eq]
      intro he
      exact hn.1 (List.mem_map.2 ⟨u, hu, he⟩)
    obtain ⟨sq', h'⟩ := ih (sq.map fun s => s.filter fun e => e.1 != t.schema.name) hn.2
      (fun u hu => hr u (List.mem_cons_of_mem _ hu))
    refine ⟨sq', ?_⟩
    simp only [List.map_cons, Sql.execAll, Sql.exec, hf, href, Bool.false_eq_true, if_false, hfil]
    exact h'

/-! ### Creating the tables -/

/-- The statements that `create_tables` executes and those that it leaves. -/
theorem create_tables_eq (utc) (ss : List Sql) : ∀ (d0 d d' : Database) (b : Bool),
    Sql.execAll utc b d (ss.filter Sql.startsWithCreateTable) = .ok d' →
    Conn.create_tables utc ⟨d0, some d, b⟩ (ss.map some) = (⟨d0, some d', b⟩, .ok
      (ss.filter fun s => !(s.startsWithCreateTable || s == .beginTransaction || s == .commit))) := by
  induction ss with
  | nil => intro d0 d d' b h; cases h; rfl
  | cons s ss ih =>
    intro d0 d d' b h
    simp only [List.map_cons, Conn.create_tables]
    by_cases hs : s.startsWithCreateTable = true
    · rw [List.filter_cons_of_pos hs] at h
      simp only [Sql.execAll] at h
      cases he : s.exec utc b d with
      | error e => rw [he] at h; exact nomatch h
      | ok d1 =>
        rw [he] at h
        simp only [hs, if_true, Conn.sql, Conn.execute, he]
        rw [ih d0 d1 d' b h, List.filter_cons_of_neg (by simp [hs])]
    · rw [List.filter_cons_of_neg hs] at h
      rw [if_neg hs]
      simp only [ih d0 d d' b h]
      by_cases hb : s = .beginTransaction ∨ s = .commit
      · rw [if_pos hb, List.filter_cons_of_neg (by rcases hb with rfl | rfl <;> simp)]
      · rw [if_neg hb, List.filter_cons_of_pos]
        simp only [not_or] at hb
        simp [hs, hb.1, hb.2]

theorem find_schemas {ts : List Table} (sq) (n : String) (h : n ∉ ts.map (·.schema.name)) :
    (Database.mk ts sq).find n = none := by
  simp only [Database.find, List.find?_eq_none]
  intro t ht he
  exact h (List.mem_map.2 ⟨t, ht, by simpa using he⟩)

/-- Creating tables, with what happens to `sqlite_sequence`. -/
theorem create_all (utc) (b : Bool) : ∀ (ds : List TableDef) (ts : List Table) (sq),
    (ts.map (·.schema.name) ++ ds.map (·.name)).Nodup → (∀ d ∈ ds, reservedName d.name = false) →
    ∃ sq', Sql.execAll utc b ⟨ts, sq⟩ (ds.map Sql.createTable) =
        .ok ⟨ts ++ ds.map (fun d => ⟨d, []⟩), sq'⟩ ∧
      (sq.isSome → sq'.isSome) ∧
      ((∃ d ∈ ds, ∃ c, d.key = .autoincrement c) → sq'.isSome) := by
  intro ds
  induction ds with
  | nil => intro ts sq _ _; exact ⟨sq, by simp [Sql.execAll], id, fun ⟨_, h, _⟩ => nomatch h⟩
  | cons d ds ih =>
    intro ts sq hn hr
    have hnot : d.name ∉ ts.map (·.schema.name) := by
      rw [List.nodup_append] at hn
      intro h
      exact hn.2.2 _ h _ (by simp) rfl
    have hf := find_schemas sq d.name hnot
    obtain ⟨sq', he, h1, h2⟩ := ih (ts ++ [⟨d, []⟩])
      (match d.key with | .autoincrement _ => some (sq.getD []) | _ => sq)
      (by simpa [List.append_assoc] using hn) (fun x hx => hr x (List.mem_cons_of_mem _ hx))
    refine ⟨sq', ?_, ?_, ?_⟩
    · simp only [List.map_cons, Sql.execAll, Sql.exec, hr d List.mem_cons_self, hf, Bool.false_or,
        Option.isSome_none, Bool.false_eq_true, if_false]
      rw [List.append_assoc] at he
      exact he
    · intro hs
      apply h1
      split
      · rfl
      · exact hs
    · rintro ⟨x, hx, c, hc⟩
      rcases List.mem_cons.1 hx with rfl | hx
      · apply h1
        rw [hc]
        rfl
      · exact h2 ⟨x, hx, c, hc⟩

/-! ### Inserting the rows -/

theorem find_middle (as bs : List Table) (t : Table) (sq)
    (h : t.schema.name ∉ as.map (·.schema.name)) :
    (Database.mk (as ++ t :: bs) sq).find t.schema.name = some t := by
  rw [show as ++ t :: bs = as ++ ([t] ++ bs) from rfl, find_append, find_schemas sq _ h]
  simp [Database.find]

theorem map_self {α} {l : List α} {f : α → α} (h : ∀ x ∈ l, f x = x) : l.map f = l := by
  rw [List.map_congr_left h, List.map_id']

theorem modify_middle (as bs : List Table) (t : Table) (sq) (f : Table → Table)
    (h : ((as ++ t :: bs).map (·.schema.name)).Nodup) :
    (Database.mk (as ++ t :: bs) sq).modify t.schema.name f = ⟨as ++ f t :: bs, sq⟩ := by
  rw [List.map_append, List.map_cons, List.nodup_append, List.nodup_cons] at h
  obtain ⟨_, ⟨h2, _⟩, h3⟩ := h
  simp only [Database.modify, List.map_append, List.map_cons, beq_self_eq_true, if_true]
  rw [map_self (l := as), map_self (l := bs)]
  · intro x hx
    rw [if_neg]
    simp only [beq_iff_eq]
    intro he
    exact h2 (List.mem_map.2 ⟨x, hx, he⟩)
  · intro x hx
    rw [if_neg]
    simp only [beq_iff_eq]
    intro he
    exact h3 _ (List.mem_map.2 ⟨x, hx, rfl⟩) _ List.mem_cons_self he

theorem Dict.set_same {κ α} [BEq κ] [LawfulBEq κ] (d : Dict κ α) (k : κ) (v : α)
    (h : d.lookup k = some v) : d.set k v = d := by
  induction d with
  | nil => exact nomatch h
  | cons e d ih =>
    obtain ⟨a, w⟩ := e
    rw [List.lookup_cons] at h
    simp only [Dict.set]
    by_cases hk : k = a
    · subst hk
      simp only [beq_self_eq_true] at h ⊢
      cases h
      simp
    · have h1 : (k == a) = false := by simpa using hk
      have h2 : (a == k) = false := by simpa using fun e => hk e.symm
      rw [h1] at h
      rw [h2, if_neg (by simp), ih h]

/-- `sqlite_sequence` covers the rows of a table. -/
def Covers (sq : Option (Dict String Int)) (t : Table) : Prop :=
  ∀ c, t.schema.key = .autoincrement c → ∃ s, sq = some s ∧
    ∀ row ∈ t.rows, ∀ n, t.schema.get row c = .int n → ∃ m, s.lookup t.schema.name = some m ∧ n ≤ m

theorem note_isSome (db : Database) (d : TableDef) (row : Row) (h : db.sequence.isSome) :
    (db.noteNumber d row).isSome := by
  unfold Database.noteNumber
  split
  · split
    · rfl
    · exact h
  · exact h

theorem note_same (db : Database) (d : TableDef) (rows : List Row) (row : Row) (hr : row ∈ rows)
    (h : Covers db.sequence ⟨d, rows⟩) : db.noteNumber d row = db.sequence := by
  unfold Database.noteNumber
  split
  · rename_i c hc
    obtain ⟨s, hs, hm⟩ := h c hc
    split
    · rename_i n hn
      obtain ⟨m, hl, hle⟩ := hm row hr n hn
      simp only [Database.sequenceOf, hs, Option.getD_some]
      simp only at hl
      rw [hl, Option.getD_some, show max n m = m by omega, Dict.set_same s _ _ hl]
    · rfl
  · rfl

theorem insert_one (as bs : List Table) (d : TableDef) (part rest : List Row) (row : Row) (sq)
    (hn : ((as ++ ⟨d, part⟩ :: bs).map (·.schema.name)).Nodup)
    (hp : ∀ f ∈ d.foreign, f.parent ∈ (as ++ ⟨d, part⟩ :: bs).map (·.schema.name))
    (ht : TableOk ⟨d, part ++ row :: rest⟩) :
    (Database.mk (as ++ ⟨d, part⟩ :: bs) sq).insertRow true d.name row =
      .ok ⟨as ++ ⟨d, part ++ [row]⟩ :: bs,
        (Database.mk (as ++ ⟨d, part⟩ :: bs) sq).noteNumber d row⟩ := by
  have hnot : d.name ∉ as.map (·.schema.name) := by
    rw [List.map_append, List.map_cons, List.nodup_append] at hn
    intro h
    exact hn.2.2 _ h _ List.mem_cons_self rfl
  have hf := find_middle as bs ⟨d, part⟩ sq hnot
  have hrow : row ∈ part ++ row :: rest := by simp
  have hnum : (Database.mk (as ++ ⟨d, part⟩ :: bs) sq).numberRow ⟨d, part⟩ row = row := by
    have key : ∀ c, (d.key = .integer c ∨ d.key = .autoincrement c) → ∀ i, d.index c = some i →
        row.getD i .null ≠ .null := by
      intro c hc i hi
      obtain ⟨n, hn⟩ := ht.number c hc row hrow
      simp only [TableDef.get, hi] at hn
      rw [hn]
      simp
    simp only [Database.numberRow]
    split
    · rfl
    · rfl
    · rename_i c hc
      split
      · rfl
      · rename_i i hi
        rw [if_neg (key c (Or.inl hc) i hi)]
    · rename_i c hc
      split
      · rfl
      · rename_i i hi
        rw [if_neg (key c (Or.inr hc) i hi)]
  have hnn : d.notNullOk row = true := by
    simp only [TableDef.notNullOk, List.all_eq_true]
    intro c hc
    cases hb : c.notNull with
    | false => rfl
    | true => simpa using ht.notNull row hrow c hc hb
  have hty : d.keyTyped row = true := by
    simp only [TableDef.keyTyped]
    split
    · rfl
    · rfl
    · rename_i c hc
      obtain ⟨n, hn⟩ := ht.number c (Or.inl hc) row hrow
      simp only at hn
      rw [hn]
    · rename_i c hc
      obtain ⟨n, hn⟩ := ht.number c (Or.inr hc) row hrow
      simp only at hn
      rw [hn]
  have hk : Table.keyFree ⟨d, part⟩ row = true := by
    simp only [Table.keyFree]
    split
    · rfl
    · rename_i c hc
      have hpw := ht.key c hc
      rw [List.pairwise_append] at hpw
      simp only [Bool.or_eq_true, beq_iff_eq, Bool.not_eq_true', List.contains_eq_mem,
        decide_eq_false_iff_not]
      by_cases hz : d.get row c = .null
      · exact Or.inl hz
      · right
        intro hm
        obtain ⟨r, hr, he⟩ := List.mem_map.1 hm
        rcases hpw.2.2 r hr row List.mem_cons_self with h | h
        · exact hz h
        · exact h he
  have hpar : (d.foreign.all fun f => ((Database.mk (as ++ ⟨d, part⟩ :: bs) sq).find f.parent).isSome) = true := by
    rw [List.all_eq_true]
    intro f hf
    obtain ⟨t, ht, he⟩ := List.mem_map.1 (hp f hf)
    simp only [Database.find, List.find?_isSome]
    exact ⟨t, ht, by simpa using he⟩
  unfold Database.insertRow
  rw [show (Database.mk (as ++ ⟨d, part⟩ :: bs) sq).find d.name = some ⟨d, part⟩ from hf]
  simp only [ht.rows row hrow, ne_eq, not_true_eq_false, if_false, hpar, Bool.not_true, hnum, hnn, hty, hk,
    Bool.and_self, Bool.false_eq_true, Bool.true_or, if_true]
  rw [show (Database.mk (as ++ ⟨d, part⟩ :: bs) sq).modify d.name _ = _ from
    modify_middle as bs ⟨d, part⟩ sq _ hn]

theorem insert_many (utc) (as bs : List Table) (d : TableDef) : ∀ (rest part : List Row) (sq),
    ((as ++ ⟨d, part⟩ :: bs).map (·.schema.name)).Nodup →
    (∀ f ∈ d.foreign, f.parent ∈ (as ++ ⟨d, part⟩ :: bs).map (·.schema.name)) →
    TableOk ⟨d, part ++ rest⟩ →
    ∃ sq', Sql.execAll utc true ⟨as ++ ⟨d, part⟩ :: bs, sq⟩ (rest.map fun row => .insert d.name row) =
        .ok ⟨as ++ ⟨d, part ++ rest⟩ :: bs, sq'⟩ ∧
      (sq.isSome → sq'.isSome) ∧ (Covers sq ⟨d, part ++ rest⟩ → sq' = sq) := by
  intro rest
  induction rest with
  | nil => intro part sq _ _ _; exact ⟨sq, by simp [Sql.execAll], id, fun _ => rfl⟩
  | cons row rest ih =>
    intro part sq hn hp ht
    have e : part ++ row :: rest = (part ++ [row]) ++ rest := by simp
    have h1 := insert_one as bs d part rest row sq hn hp ht
    rw [e] at ht ⊢
    obtain ⟨sq', h2, h3, h4⟩ := ih (part ++ [row])
      ((Database.mk (as ++ ⟨d, part⟩ :: bs) sq).noteNumber d row)
      (by simpa using hn) (by simpa using hp) ht
    refine ⟨sq', ?_, ?_, ?_⟩
    · simp only [List.map_cons, Sql.execAll, Sql.exec, h1]
      exact h2
    · intro hs
      exact h3 (note_isSome _ _ _ hs)
    · intro hc
      have hs := note_same (Database.mk (as ++ ⟨d, part⟩ :: bs) sq) d (part ++ [row] ++ rest) row
        (by simp) hc
      rw [hs] at h4
      exact h4 hc

/-- The tables with their rows left out. -/
def emptied (ts : List Table) : List Table := ts.map fun t => ⟨t.schema, []⟩

theorem emptied_names (ts : List Table) : (emptied ts).map (·.schema.name) = ts.map (·.schema.name) := by
  simp [emptied]

/-- The `INSERT` statements of a dump. -/
def rowInserts (ts : List Table) : List Sql :=
  ts.flatMap fun t => t.rows.map fun row => .insert t.schema.name row

theorem insert_tables (utc) (bs : List Table) : ∀ (ts as : List Table) (sq),
    ((as ++ ts ++ bs).map (·.schema.name)).Nodup →
    (∀ t ∈ ts, ∀ f ∈ t.schema.foreign, f.parent ∈ (as ++ ts ++ bs).map (·.schema.name)) →
    (∀ t ∈ ts, TableOk t) →
    ∃ sq', Sql.execAll utc true ⟨as ++ emptied ts ++ bs, sq⟩ (rowInserts ts) =
        .ok ⟨as ++ ts ++ bs, sq'⟩ ∧
      (sq.isSome → sq'.isSome) ∧ ((∀ t ∈ ts, Covers sq t) → sq' = sq) := by
  intro ts
  induction ts with
  | nil =>
    intro as sq _ _ _
    exact ⟨sq, by simp [emptied, rowInserts, Sql.execAll], id, fun _ => rfl⟩
  | cons t ts ih =>
    intro as sq hn hp ht
    obtain ⟨d, rows⟩ := t
    have hn0 : (as ++ ⟨d, []⟩ :: (emptied ts ++ bs)).map (·.schema.name) =
        (as ++ ⟨d, rows⟩ :: ts ++ bs).map (·.schema.name) := by
      simp [emptied_names]
    obtain ⟨sq1, h1, h2, h3⟩ := insert_many utc as (emptied ts ++ bs) d rows [] sq
      (by rw [hn0]; exact hn) (by rw [hn0]; exact hp _ List.mem_cons_self) (ht _ List.mem_cons_self)
    have hn1 : (as ++ [⟨d, rows⟩] ++ ts ++ bs) = (as ++ ⟨d, rows⟩ :: ts ++ bs) := by simp
    obtain ⟨sq2, h4, h5, h6⟩ := ih (as ++ [⟨d, rows⟩]) sq1 (by rw [hn1]; exact hn)
      (by rw [hn1]; exact fun t ht => hp t (List.mem_cons_of_mem _ ht))
      (fun t h => ht t (List.mem_cons_of_mem _ h))
    refine ⟨sq2, ?_, fun h => h5 (h2 h), ?_⟩
    · rw [show rowInserts (⟨d, rows⟩ :: ts) =
        (rows.map fun row => Sql.insert d.name row) ++ rowInserts ts from rfl, execAll_append]
      rw [show as ++ emptied (⟨d, rows⟩ :: ts) ++ bs = as ++ ⟨d, []⟩ :: (emptied ts ++ bs) by
        simp [emptied], h1]
      rw [hn1] at h4
      simp only [List.nil_append]
      rw [show as ++ ⟨d, rows⟩ :: (emptied ts ++ bs) = as ++ [⟨d, rows⟩] ++ emptied ts ++ bs by simp]
      exact h4
    · intro hc
      have e1 := h3 (hc _ List.mem_cons_self)
      rw [e1] at h6
      exact h6 fun t ht => hc t (List.mem_cons_of_mem _ ht)

/-! ### `sqlite_sequence` -/

theorem insert_sequence (utc) (ts : List Table) : ∀ (s acc : Dict String Int),
    Sql.execAll utc true ⟨ts, some acc⟩ (s.map fun e => .insertSequence e.1 e.2) =
      .ok ⟨ts, some (acc ++ s)⟩ := by
  intro s
  induction s with
  | nil => intro acc; simp [Sql.execAll]
  | cons e s ih =>
    intro acc
    simp only [List.map_cons, Sql.execAll, Sql.exec, ih (acc ++ [(e.1, e.2)])]
    simp

/-! ### The whole dump -/

theorem iterdump_create (before after : List Table) (sq) :
    (iterdump before sq after).filter Sql.startsWithCreateTable =
      ((before ++ after).map (·.schema)).map Sql.createTable := by
  have h1 : ∀ ts : List Table, (ts.flatMap dump_table).filter Sql.startsWithCreateTable =
      (ts.map (·.schema)).map Sql.createTable := by
    intro ts
    induction ts with
    | nil => rfl
    | cons t ts ih =>
      rw [List.flatMap_cons, List.filter_append, ih, dump_table, List.filter_cons_of_pos rfl]
      rw [List.filter_eq_nil_iff.2]
      · rfl
      · intro s hs
        obtain ⟨r, _, rfl⟩ := List.mem_map.1 hs
        simp [Sql.startsWithCreateTable]
  have h2 : (dump_sequence sq).filter Sql.startsWithCreateTable = [] := by
    rw [List.filter_eq_nil_iff]
    intro s hs
    cases sq with
    | none => exact nomatch hs
    | some l =>
      rcases List.mem_cons.1 hs with rfl | hs
      · simp [Sql.startsWithCreateTable]
      · obtain ⟨r, _, rfl⟩ := List.mem_map.1 hs
        simp [Sql.startsWithCreateTable]
  simp only [iterdump, List.cons_append, List.filter_cons_of_neg (p := Sql.startsWithCreateTable)
    (a := .beginTransaction) (by simp [Sql.startsWithCreateTable]), List.filter_append, h1, h2,
    List.append_nil, List.map_append]
  rw [List.filter_cons_of_neg (by simp [Sql.startsWithCreateTable])]
  simp

theorem iterdump_rest (before after : List Table) (sq) :
    ((iterdump before sq after).filter fun s =>
      !(s.startsWithCreateTable || s == .beginTransaction || s == .commit)) =
      rowInserts before ++ dump_sequence sq ++ rowInserts after := by
  have h1 : ∀ ts : List Table, ((ts.flatMap dump_table).filter fun s =>
      !(s.startsWithCreateTable || s == .beginTransaction || s == .commit)) = rowInserts ts := by
    intro ts
    induction ts with
    | nil => rfl
    | cons t ts ih =>
      rw [List.flatMap_cons, List.filter_append, ih, dump_table,
        List.filter_cons_of_neg (by simp [Sql.startsWithCreateTable])]
      rw [List.filter_eq_self.2]
      · rfl
      · intro s hs
        obtain ⟨r, _, rfl⟩ := List.mem_map.1 hs
        rfl
  have h2 : ((dump_sequence sq).filter fun s =>
      !(s.startsWithCreateTable || s == .beginTransaction || s == .commit)) = dump_sequence sq := by
    rw [List.filter_eq_self]
    intro s hs
    cases sq with
    | none => exact nomatch hs
    | some l =>
      rcases List.mem_cons.1 hs with rfl | hs
      · rfl
      · obtain ⟨r, _, rfl⟩ := List.mem_map.1 hs
        rfl
  simp only [iterdump, List.cons_append]
  rw [List.filter_cons_of_neg (by simp), List.filter_append, List.filter_append, List.filter_append, h1,
    h1, h2, List.filter_cons_of_neg (by simp)]
  simp

theorem perm_find {ts us : List Table} (h : ts.Perm us) (hn : (us.map (·.schema.name)).Nodup) (n : String) :
    ts.find? (fun t => t.schema.name == n) = us.find? (fun t => t.schema.name == n) := by
  have hn' : (ts.map (·.schema.name)).Nodup := (h.map _).nodup_iff.2 hn
  cases hf : us.find? (fun t => t.schema.name == n) with
  | none =>
    rw [List.find?_eq_none] at hf ⊢
    intro t ht
    exact hf t (h.mem_iff.1 ht)
  | some u =>
    have hu := List.mem_of_find?_eq_some hf
    have hun := List.find?_some hf
    cases hg : ts.find? (fun t => t.schema.name == n) with
    | none =>
      rw [List.find?_eq_none] at hg
      exact absurd hun (hg u (h.mem_iff.2 hu))
    | some t =>
      have hf' : (Database.mk us none).find n = some u := hf
      have ht := List.mem_of_find?_eq_some hg
      have htn := List.find?_some hg
      rw [find_unique (db := ⟨us, none⟩) hn hf' (h.mem_iff.1 ht) (by simpa using htn)]

theorem wellFormed_foreignOk {src db : Database} (hw : WellFormed src) (hs : SameContents src db) :
    db.foreignOk = true := by
  simp only [Database.foreignOk, List.all_eq_true]
  intro t ht row hrow f hf
  simp only [Database.foreignKeyOk, Bool.or_eq_true, beq_iff_eq]
  rcases hw.foreign t (hs.tables.mem_iff.1 ht) row hrow f hf with h | ⟨p, hp, hpn, r, hr, he⟩
  · exact Or.inl h
  · right
    have hfind : db.find f.parent = some p := by
      have h1 := hs.find f.parent
      have h2 : (src.find f.parent).isSome := by
        simp only [Database.find, List.find?_isSome]
        exact ⟨p, hp, by simpa using hpn⟩
      obtain ⟨q, hq⟩ := Option.isSome_iff_exists.1 h2
      rw [find_unique hw.names hq hp hpn]
      exact h1.trans hq
    simp only [hfind, List.contains_eq_mem, decide_eq_true_eq]
    exact List.mem_map.2 ⟨r, hr, he⟩

/-- Executing a dump in a transaction. -/
theorem recover_dump (utc) (src d0 target : Database) (before after : List Table) (b : Bool)
    (hw : WellFormed src) (hd : Droppable target) (hp : (before ++ after).Perm src.tables) :
    ∃ db', Conn.recover_snapshot utc ⟨d0, some target, b⟩ ((iterdump before src.sequence after).map some) =
        (⟨d0, some db', true⟩, .ok ()) ∧ db'.tables = before ++ after ∧
      (src.sequence.isSome → db'.sequence = src.sequence) := by
  obtain ⟨sq0, h0⟩ := drop_all utc b target.tables target.sequence hd.names hd.rows
  have hn : ((before ++ after).map (·.schema.name)).Nodup := (hp.map _).nodup_iff.2 hw.names
  obtain ⟨sq1, h1, _, h1s⟩ := create_all utc true ((before ++ after).map (·.schema)) [] sq0
    (by simpa [Function.comp_def] using hn) (by
      intro d hd
      obtain ⟨t, ht, rfl⟩ := List.mem_map.1 hd
      exact hw.unreserved t (hp.mem_iff.1 ht))
  have hok : ∀ t ∈ before ++ after, TableOk t := fun t ht => hw.tables t (hp.mem_iff.1 ht)
  have hpar : ∀ t ∈ before ++ after, ∀ f ∈ t.schema.foreign,
      f.parent ∈ (before ++ after).map (·.schema.name) := by
    intro t ht f hf
    obtain ⟨p, hpm, he, _⟩ := hw.parents t (hp.mem_iff.1 ht) f hf
    exact List.mem_map.2 ⟨p, hp.mem_iff.2 hpm, he⟩
  have hcov : ∀ t ∈ before ++ after, Covers src.sequence t := fun t ht c hc =>
    hw.numbers t (hp.mem_iff.1 ht) c hc
  obtain ⟨sq2, h2, h2s, _⟩ := insert_tables utc (emptied after) before [] sq1
    (by simpa [emptied_names] using hn)
    (by
      intro t ht f hf
      have := hpar t (List.mem_append_left _ ht) f hf
      simpa [emptied_names] using this)
    (fun t ht => hok t (List.mem_append_left _ ht))
  have hseq : ∃ sq3, Sql.execAll utc true ⟨before ++ emptied after, sq2⟩ (dump_sequence src.sequence) =
      .ok ⟨before ++ emptied after, sq3⟩ ∧ (src.sequence.isSome → sq3 = src.sequence) := by
    cases hs : src.sequence with
    | none => exact ⟨sq2, rfl, fun h => nomatch h⟩
    | some s =>
      refine ⟨some s, ?_, fun _ => rfl⟩
      obtain ⟨t, ht, c, hc⟩ := hw.sequence s hs
      have hsome : sq2.isSome := h2s (h1s ⟨t.schema,
        List.mem_map.2 ⟨t, hp.mem_iff.2 ht, rfl⟩, c, hc⟩)
      obtain ⟨x, hx⟩ := Option.isSome_iff_exists.1 hsome
      subst hx
      simp only [dump_sequence, Sql.execAll, Sql.exec]
      exact insert_sequence utc _ s []
  obtain ⟨sq3, h3, h3s⟩ := hseq
  obtain ⟨sq4, h4, _, h4s⟩ := insert_tables utc [] after before sq3
    (by simpa using hn)
    (by
      intro t ht f hf
      have := hpar t (List.mem_append_right _ ht) f hf
      simpa using this)
    (fun t ht => hok t (List.mem_append_right _ ht))
  refine ⟨⟨before ++ after, sq4⟩, ?_, rfl, ?_⟩
  · have e0 := executeAll_working utc _ d0 target _ b h0
    rw [← iterdump_create before after src.sequence] at h1
    have e1 := create_tables_eq utc _ d0 _ _ true h1
    have hall : Sql.execAll utc true ⟨before ++ emptied after, sq1⟩ [] = .ok ⟨before ++ emptied after, sq1⟩ := rfl
    have h5 : Sql.execAll utc true ⟨emptied (before ++ after), sq1⟩
        (rowInserts before ++ dump_sequence src.sequence ++ rowInserts after) =
        .ok ⟨before ++ after, sq4⟩ := by
      rw [execAll_append, execAll_append]
      simp only [List.nil_append] at h2
      rw [show emptied (before ++ after) = emptied before ++ emptied after by simp [emptied], h2]
      simp only [Except.bind, h3]
      simpa using h4
    have e2 := executeAll_working utc _ d0 _ _ true h5
    simp only [Conn.recover_snapshot, Conn.current, Option.getD_some, e0, Conn.defer]
    rw [e1, iterdump_rest]
    simp only [List.nil_append, List.map_map]
    exact e2
  · intro hs
    have e3 := h3s hs
    rw [← e3]
    apply h4s
    intro t ht
    rw [e3]
    exact hcov t (List.mem_append_right _ ht)


theorem mem_schemas {db : Database} {v : Nat} (h : OfVersion v db) {t : Table} (ht : t ∈ db.tables) :
    t.schema ∈ schemaAt v := by
  rw [← h.tables]
  exact List.mem_map.2 ⟨t, ht, rfl⟩

/-- A store without vouchers can be dropped. -/
theorem droppable_of_empty {db : Database} (h : OfVersion currentVersion db) (hw : WellFormed db)
    (he : NoVouchers db) : Droppable db := by
  refine ⟨hw.names, ?_⟩
  intro t ht row hrow f hf
  have htok : ∀ d ∈ schemaAt currentVersion, ∀ f ∈ d.foreign, f.parent = "vouchers" := by decide +kernel
  rcases hw.foreign t ht row hrow f hf with h0 | ⟨p, hp, hpn, r, hr, _⟩
  · exact h0
  · rw [htok _ (mem_schemas h ht) f hf] at hpn
    rw [he p hp hpn] at hr
    exact nomatch hr

end ZKAP
