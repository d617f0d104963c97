import Verif.Lemmas.Snapshot

/-! Statements of the store keep a database well-formed. -/
namespace ZKAP
open Spec

theorem index_inj {d : TableDef} {a b : String} {i : Nat} (ha : d.index a = some i)
    (hb : d.index b = some i) : a = b := by
  simp only [TableDef.index, List.findIdx?_eq_some_iff_getElem] at ha hb
  obtain ⟨h1, h2, _⟩ := ha
  obtain ⟨_, h3, _⟩ := hb
  simp only [beq_iff_eq] at h2 h3
  rw [← h2, ← h3]

theorem get_set_other (d : TableDef) (row : Row) (a c : String) (i : Nat) (v : Value)
    (hi : d.index a = some i) (hac : a ≠ c) : d.get (row.set i v) c = d.get row c := by
  simp only [TableDef.get]
  split
  · rfl
  · rename_i j hj
    have hij : i ≠ j := fun e => hac (index_inj (e ▸ hi) hj)
    simp only [List.getD_eq_getElem?_getD, List.getElem?_set, hij, if_false]

theorem get_assign (d : TableDef) (sets : Dict String Value) (c : String) :
    ∀ (row : Row), (∀ e ∈ sets, e.1 ≠ c) → d.get (d.assign sets row) c = d.get row c := by
  unfold TableDef.assign
  induction sets with
  | nil => intro row _; rfl
  | cons e sets ih =>
    intro row h
    rw [List.foldl_cons, ih _ (fun x hx => h x (List.mem_cons_of_mem _ hx))]
    split
    · rfl
    · rename_i i hi
      exact get_set_other d row e.1 c i e.2 hi (h e List.mem_cons_self)

theorem mem_modify {db : Database} {n : String} {f : Table → Table} {u : Table}
    (h : u ∈ (db.modify n f).tables) :
    ∃ t ∈ db.tables, u = if t.schema.name = n then f t else t := by
  obtain ⟨t, ht, rfl⟩ := List.mem_map.1 h
  exact ⟨t, ht, by simp⟩

theorem modify_mem {db : Database} {n : String} {f : Table → Table} {t : Table} (h : t ∈ db.tables) :
    (if t.schema.name = n then f t else t) ∈ (db.modify n f).tables := by
  refine List.mem_map.2 ⟨t, h, ?_⟩
  simp

theorem modify_names (db : Database) (n : String) (f : Table → Table)
    (hf : ∀ t, (f t).schema = t.schema) :
    (db.modify n f).tables.map (·.schema) = db.tables.map (·.schema) := by
  simp only [Database.modify, List.map_map]
  apply List.map_congr_left
  intro t _
  simp only [Function.comp]
  split
  · exact hf t
  · rfl

/-- Changing the rows of one table. -/
theorem Spec.WellFormed.modify {db : Database} (hw : WellFormed db) {n : String} {t : Table}
    (ht : db.find n = some t) (g : List Row) (sq : Option (Dict String Int))
    (htable : TableOk ⟨t.schema, g⟩)
    (hfk : ∀ row ∈ g, ∀ f ∈ t.schema.foreign, t.schema.get row f.column = .null ∨
      ∃ p ∈ ((db.modify n fun t => { t with rows := g }).tables), p.schema.name = f.parent ∧
        ∃ r ∈ p.rows, p.schema.get r f.parentColumn = t.schema.get row f.column)
    (hkeys : ∀ u ∈ db.tables, ∀ row ∈ u.rows, ∀ f ∈ u.schema.foreign, f.parent = n →
      u.schema.name ≠ n → t.schema.key.column = some f.parentColumn →
      (∃ r ∈ t.rows, t.schema.get r f.parentColumn = u.schema.get row f.column) →
      u.schema.get row f.column = .null ∨
      ∃ r ∈ g, t.schema.get r f.parentColumn = u.schema.get row f.column)
    (hsq : ∀ s, sq = some s → (∃ s', db.sequence = some s') ∨ ∃ c, t.schema.key = .autoincrement c)
    (hnum : ∀ c, t.schema.key = .autoincrement c → ∃ s, sq = some s ∧
      ∀ row ∈ g, ∀ k, t.schema.get row c = .int k → ∃ m, s.lookup n = some m ∧ k ≤ m)
    (hother : ∀ s, db.sequence = some s → ∃ s', sq = some s' ∧
      ∀ m, m ≠ n → s'.lookup m = s.lookup m) :
    WellFormed { db.modify n (fun t => { t with rows := g }) with sequence := sq } := by
  have htn := find_name ht
  have htm := find_mem ht
  have hschema := modify_names db n (fun t => { t with rows := g }) (by intro t; rfl)
  have huniq : ∀ u ∈ db.tables, u.schema.name = n → u = t := fun u hu hn =>
    find_unique hw.names ht hu hn
  have hnames : ((db.modify n fun t => { t with rows := g }).tables).map (·.schema.name) =
      db.tables.map (·.schema.name) := by
    have := congrArg (List.map (·.name)) hschema
    simpa [List.map_map, Function.comp_def] using this
  have keep : ∀ p ∈ db.tables, ∃ q ∈ (db.modify n fun t => { t with rows := g }).tables,
      q.schema = p.schema ∧ (p.schema.name ≠ n → q = p) ∧ (p.schema.name = n → q.rows = g) := by
    intro p hp
    refine ⟨_, modify_mem (n := n) (f := fun t => { t with rows := g }) hp, ?_, ?_, ?_⟩
    · split <;> rfl
    · intro h; rw [if_neg h]
    · intro h; rw [if_pos h]
  refine ⟨?_, ?_, ?_, ?_, ?_, ?_, ?_⟩
  · simp only
    rw [hnames]
    exact hw.names
  · intro u hu
    obtain ⟨x, hx, rfl⟩ := mem_modify hu
    split
    · exact hw.unreserved x hx
    · exact hw.unreserved x hx
  · intro u hu
    obtain ⟨x, hx, rfl⟩ := mem_modify hu
    by_cases hxn : x.schema.name = n
    · rw [if_pos hxn]
      rw [huniq x hx hxn]
      exact htable
    · rw [if_neg hxn]
      exact hw.tables x hx
  · intro u hu f hf
    obtain ⟨x, hx, rfl⟩ := mem_modify hu
    have hf' : f ∈ x.schema.foreign := by split at hf <;> exact hf
    obtain ⟨p, hp, h1, h2⟩ := hw.parents x hx f hf'
    obtain ⟨q, hq, hs, _⟩ := keep p hp
    exact ⟨q, hq, by rw [hs]; exact h1, by rw [hs]; exact h2⟩
  · intro u hu row hrow f hf
    obtain ⟨x, hx, rfl⟩ := mem_modify hu
    by_cases hxn : x.schema.name = n
    · rw [if_pos hxn] at hrow hf ⊢
      obtain rfl := huniq x hx hxn
      exact hfk row hrow f hf
    · rw [if_neg hxn] at hrow hf ⊢
      rcases hw.foreign x hx row hrow f hf with h0 | ⟨p, hp, hpn, r, hr, he⟩
      · exact Or.inl h0
      · obtain ⟨q, hq, hs, hq1, hq2⟩ := keep p hp
        by_cases hpn' : p.schema.name = n
        · obtain rfl := huniq p hp hpn'
          obtain ⟨p', hp', h1, h2⟩ := hw.parents x hx f hf
          obtain rfl := huniq p' hp' (by rw [h1, ← hpn]; exact hpn')
          rcases hkeys x hx row hrow f hf (by rw [← hpn]; exact hpn') hxn h2 ⟨r, hr, he⟩ with h0 | ⟨r', hr', he'⟩
          · exact Or.inl h0
          · refine Or.inr ⟨q, hq, by rw [hs]; exact hpn, r', by rw [hq2 hpn']; exact hr', ?_⟩
            rw [hs]
            exact he'
        · obtain rfl := hq1 hpn'
          exact Or.inr ⟨_, hq, hpn, r, hr, he⟩
  · intro s hs
    rcases hsq s hs with ⟨s', hs'⟩ | ⟨c, hc⟩
    · obtain ⟨x, hx, c, hc⟩ := hw.sequence s' hs'
      obtain ⟨q, hq, hqs, _⟩ := keep x hx
      exact ⟨q, hq, c, by rw [hqs]; exact hc⟩
    · obtain ⟨q, hq, hqs, _⟩ := keep t htm
      exact ⟨q, hq, c, by rw [hqs]; exact hc⟩
  · intro u hu c hc
    obtain ⟨x, hx, rfl⟩ := mem_modify hu
    by_cases hxn : x.schema.name = n
    · rw [if_pos hxn] at hc ⊢
      obtain rfl := huniq x hx hxn
      simp only at hc ⊢
      rw [hxn]
      exact hnum c hc
    · rw [if_neg hxn] at hc ⊢
      obtain ⟨s, hs, hrows⟩ := hw.numbers x hx c hc
      obtain ⟨s', hs', hl⟩ := hother s hs
      refine ⟨s', hs', ?_⟩
      intro row hrow k hk
      obtain ⟨m, h1, h2⟩ := hrows row hrow k hk
      exact ⟨m, by rw [hl _ hxn]; exact h1, h2⟩

/-- Inserting a row. -/
theorem Spec.WellFormed.insertRow {db db' : Database} (hw : WellFormed db) {n : String} {row : Row}
    (h : db.insertRow false n row = .ok db') : WellFormed db' := by
  unfold Database.insertRow at h
  cases ht : db.find n with
  | none => rw [ht] at h; exact nomatch h
  | some t =>
    rw [ht] at h
    simp only at h
    split at h
    · exact nomatch h
    · rename_i hlen
      split at h
      · exact nomatch h
      · split at h
        · exact nomatch h
        · rename_i hnn
          split at h
          · exact nomatch h
          · rename_i hkf
            split at h
            · rename_i hfk
              cases h
              generalize hrow' : db.numberRow t row = row' at hnn hkf hfk ⊢
              have hlen' : row'.length = t.schema.columns.length := by
                rw [← hrow', numberRow_length]
                simpa using hlen
              have htn := find_name ht
              have htm := find_mem ht
              have htok := hw.tables t htm
              simp only [Bool.not_eq_true', Bool.not_eq_false, Bool.and_eq_true] at hnn hkf
              have hmod : (db.modify n fun t => { t with rows := t.rows ++ [row'] }) =
                  db.modify n fun u => { u with rows := t.rows ++ [row'] } := by
                unfold Database.modify
                congr 1
                apply List.map_congr_left
                intro u hu
                by_cases hun : u.schema.name = n
                · rw [find_unique hw.names ht hu hun]
                · simp [hun]
              rw [hmod] at hfk ⊢
              apply hw.modify ht
              · refine ⟨?_, ?_, ?_, ?_⟩
                · intro r hr
                  rcases List.mem_append.1 hr with hr | hr
                  · exact htok.rows r hr
                  · rw [List.mem_singleton.1 hr]; exact hlen'
                · intro r hr c hc hcn
                  rcases List.mem_append.1 hr with hr | hr
                  · exact htok.notNull r hr c hc hcn
                  · rw [List.mem_singleton.1 hr]
                    have := hnn.1
                    simp only [TableDef.notNullOk, List.all_eq_true] at this
                    have := this c hc
                    rw [hcn] at this
                    simpa using this
                · intro c hc
                  rw [List.pairwise_append]
                  refine ⟨htok.key c hc, List.pairwise_singleton _ _, ?_⟩
                  intro r hr s hs
                  rw [List.mem_singleton.1 hs]
                  simp only at hc
                  simp only [Table.keyFree, hc, Bool.or_eq_true, beq_iff_eq, Bool.not_eq_true',
                    List.contains_eq_mem, decide_eq_false_iff_not] at hkf
                  rcases hkf with hkf | hkf
                  · exact Or.inl hkf
                  · right
                    intro he
                    exact hkf (List.mem_map.2 ⟨r, hr, he⟩)
                · intro c hc r hr
                  rcases List.mem_append.1 hr with hr | hr
                  · exact htok.number c hc r hr
                  · rw [List.mem_singleton.1 hr]
                    have := hnn.2
                    simp only at hc ⊢
                    rcases hc with hc | hc <;>
                    · simp only [TableDef.keyTyped, hc] at this
                      split at this
                      · rename_i k hk
                        exact ⟨k, hk⟩
                      · exact nomatch this
              · intro r hr f hf
                rcases List.mem_append.1 hr with hr | hr
                · rcases hw.foreign t htm r hr f hf with h0 | ⟨p, hp, hpn, s, hs, he⟩
                  · exact Or.inl h0
                  · refine Or.inr ⟨_, modify_mem (n := n) (f := fun u => { u with rows := t.rows ++ [row'] }) hp, ?_⟩
                    by_cases hpn' : p.schema.name = n
                    · obtain rfl := find_unique hw.names ht hp hpn'
                      rw [if_pos hpn']
                      exact ⟨hpn, s, List.mem_append_left _ hs, he⟩
                    · rw [if_neg hpn']
                      exact ⟨hpn, s, hs, he⟩
                · rw [List.mem_singleton.1 hr]
                  simp only [Bool.false_or, List.all_eq_true] at hfk
                  have := hfk f hf
                  simp only [Database.foreignKeyOk, Bool.or_eq_true, beq_iff_eq] at this
                  rcases this with this | this
                  · exact Or.inl this
                  · right
                    split at this
                    · exact nomatch this
                    · rename_i p hp
                      simp only [List.contains_eq_mem, decide_eq_true_eq] at this
                      obtain ⟨s, hs, he⟩ := List.mem_map.1 this
                      exact ⟨p, find_mem hp, find_name hp, s, hs, he⟩
              · intro u _ r _ f _ _ _ _ ⟨s, hs, he⟩
                exact Or.inr ⟨s, List.mem_append_left _ hs, he⟩
              · intro s hs
                unfold Database.noteNumber at hs
                split at hs
                · rename_i c hc
                  exact Or.inr ⟨c, hc⟩
                · exact Or.inl ⟨s, hs⟩
              · intro c hc
                obtain ⟨s, hs, hrows⟩ := hw.numbers t htm c hc
                have hty := hnn.2
                simp only [TableDef.keyTyped, hc] at hty
                split at hty
                · rename_i k hk
                  refine ⟨_, by simp only [Database.noteNumber, hc, hk]; rfl, ?_⟩
                  intro r hr j hj
                  rw [Dict.lookup_set]
                  simp only [htn, beq_self_eq_true, if_true]
                  refine ⟨_, rfl, ?_⟩
                  rcases List.mem_append.1 hr with hr | hr
                  · obtain ⟨m, h1, h2⟩ := hrows r hr j hj
                    rw [htn] at h1
                    simp only [Database.sequenceOf, hs, Option.getD_some, h1]
                    omega
                  · rw [List.mem_singleton.1 hr, hk] at hj
                    cases hj
                    omega
                · exact nomatch hty
              · intro s hs
                unfold Database.noteNumber
                split
                · split
                  · refine ⟨_, rfl, ?_⟩
                    intro m hm
                    rw [Dict.lookup_set, hs, htn]
                    have : (m == n) = false := by simpa using hm
                    rw [this, if_neg (by simp)]
                    rfl
                  · exact ⟨s, hs, fun _ _ => rfl⟩
                · exact ⟨s, hs, fun _ _ => rfl⟩
            · exact nomatch h

theorem Spec.WellFormed.exec {utc} {db db' : Database} (hw : WellFormed db) {s : Sql}
    (hs : storeStatement s = true) (h : s.exec utc false db = .ok db') : WellFormed db' := by
  cases s with
  | insert n row => exact hw.insertRow h
  | insertNamed n named =>
    simp only [Sql.exec] at h
    split at h
    · exact nomatch h
    · split at h
      · exact nomatch h
      · exact hw.insertRow h
  | insertOrIgnore n named =>
    simp only [Sql.exec] at h
    split at h
    · exact nomatch h
    · split at h
      · exact nomatch h
      · split at h
        · cases h; exact hw
        · exact hw.insertRow h
  | update n sets wheres =>
    simp only [Sql.exec] at h
    cases ht : db.find n with
    | none => rw [ht] at h; exact nomatch h
    | some t =>
      rw [ht] at h
      simp only at h
      split at h
      · exact nomatch h
      · rename_i hc
        split at h
        · rename_i hnn
          cases h
          simp only [Bool.or_eq_true, not_or, Bool.not_eq_true, List.any_eq_false] at hc
          have hkey : ∀ c, t.schema.isKey c = true → ∀ row,
              t.schema.get (if t.schema.selects wheres row = true then t.schema.assign sets row else row) c =
                t.schema.get row c := by
            intro c hk row
            split
            · apply get_assign
              intro e he hec
              have := hc.2 e he
              rw [hec, hk] at this
              exact nomatch this
            · rfl
          have htm := find_mem ht
          have htn := find_name ht
          have htok := hw.tables t htm
          have hkc : ∀ c, t.schema.key.column = some c → t.schema.isKey c = true := by
            intro c hc
            simp [TableDef.isKey, hc]
          have hfc : ∀ f ∈ t.schema.foreign, t.schema.isKey f.column = true := by
            intro f hf
            simp only [TableDef.isKey, Bool.or_eq_true, List.any_eq_true, beq_iff_eq]
            exact Or.inr ⟨f, hf, rfl⟩
          have hself : ∀ c, t.schema.key = .integer c ∨ t.schema.key = .autoincrement c →
              t.schema.key.column = some c := by
            rintro c (hc | hc) <;> rw [hc] <;> rfl
          apply hw.modify ht _ db.sequence
          · refine ⟨?_, ?_, ?_, ?_⟩
            · intro r hr
              obtain ⟨x, hx, rfl⟩ := List.mem_map.1 hr
              split
              · rw [assign_length]; exact htok.rows x hx
              · exact htok.rows x hx
            · intro r hr c hcm hcn
              rw [List.all_eq_true] at hnn
              have := hnn r hr
              simp only [TableDef.notNullOk, List.all_eq_true] at this
              have := this c hcm
              rw [hcn] at this
              simpa using this
            · intro c hcc
              rw [List.pairwise_map]
              refine (htok.key c hcc).imp ?_
              intro a b hab
              simp only at hcc ⊢
              rw [hkey c (hkc c hcc) a, hkey c (hkc c hcc) b]
              exact hab
            · intro c hcc r hr
              obtain ⟨x, hx, rfl⟩ := List.mem_map.1 hr
              simp only at hcc ⊢
              rw [hkey c (hkc c (hself c hcc)) x]
              exact htok.number c hcc x hx
          · intro r hr f hf
            obtain ⟨x, hx, rfl⟩ := List.mem_map.1 hr
            rw [hkey f.column (hfc f hf) x]
            rcases hw.foreign t htm x hx f hf with h0 | ⟨p, hp, hpn, s, hs', he⟩
            · exact Or.inl h0
            · refine Or.inr ⟨_, modify_mem (n := n) (f := fun u => { u with rows := _ }) hp, ?_⟩
              by_cases hpn' : p.schema.name = n
              · obtain rfl := find_unique hw.names ht hp hpn'
                obtain ⟨p', hp', h1, h2⟩ := hw.parents p htm f hf
                obtain rfl := find_unique hw.names ht hp' (by rw [h1, ← hpn]; exact hpn')
                rw [if_pos hpn']
                refine ⟨hpn, _, List.mem_map.2 ⟨s, hs', rfl⟩, ?_⟩
                rw [hkey _ (hkc _ h2) s]
                exact he
              · rw [if_neg hpn']
                exact ⟨hpn, s, hs', he⟩
          · intro u _ row _ f _ _ _ hk ⟨s, hs', he⟩
            exact Or.inr ⟨_, List.mem_map.2 ⟨s, hs', rfl⟩, by rw [hkey _ (hkc _ hk) s]; exact he⟩
          · intro s hs'
            exact Or.inl ⟨s, hs'⟩
          · intro c hcc
            obtain ⟨s, hs', hrows⟩ := hw.numbers t htm c hcc
            refine ⟨s, hs', ?_⟩
            intro r hr k hk
            obtain ⟨x, hx, rfl⟩ := List.mem_map.1 hr
            rw [hkey c (hkc c (hself c (Or.inr hcc))) x] at hk
            rw [← htn]
            exact hrows x hx k hk
          · intro s hs'
            exact ⟨s, hs', fun _ _ => rfl⟩
        · exact nomatch h
  | delete n wheres =>
    simp only [Sql.exec] at h
    cases ht : db.find n with
    | none => rw [ht] at h; exact nomatch h
    | some t =>
      rw [ht] at h
      simp only at h
      split at h
      · exact nomatch h
      · split at h
        · rename_i hfk
          cases h
          simp only [Bool.false_or] at hfk
          have htm := find_mem ht
          have htn := find_name ht
          have htok := hw.tables t htm
          have hmod : (db.modify n fun t => { t with rows := t.rows.filter fun row => !(t.schema.selects wheres row) }) =
              db.modify n fun u => { u with rows := t.rows.filter fun row => !(t.schema.selects wheres row) } := by
            unfold Database.modify
            congr 1
            apply List.map_congr_left
            intro u hu
            by_cases hun : u.schema.name = n
            · rw [find_unique hw.names ht hu hun]
            · simp [hun]
          rw [hmod] at hfk ⊢
          have hall : ∀ u ∈ (db.modify n fun u => { u with rows := t.rows.filter fun row => !(t.schema.selects wheres row) }).tables,
              ∀ row ∈ u.rows, ∀ f ∈ u.schema.foreign, u.schema.get row f.column = .null ∨
              ∃ p ∈ (db.modify n fun u => { u with rows := t.rows.filter fun row => !(t.schema.selects wheres row) }).tables,
                p.schema.name = f.parent ∧ ∃ r ∈ p.rows, p.schema.get r f.parentColumn = u.schema.get row f.column := by
            intro u hu row hrow f hf
            simp only [Database.foreignOk, List.all_eq_true] at hfk
            have := hfk u hu row hrow f hf
            simp only [Database.foreignKeyOk, Bool.or_eq_true, beq_iff_eq] at this
            rcases this with this | this
            · exact Or.inl this
            · right
              split at this
              · exact nomatch this
              · rename_i p hp
                simp only [List.contains_eq_mem, decide_eq_true_eq] at this
                obtain ⟨s, hs', he⟩ := List.mem_map.1 this
                exact ⟨p, find_mem hp, find_name hp, s, hs', he⟩
          have htin : ∀ u ∈ db.tables, (if u.schema.name = n then
              { u with rows := t.rows.filter fun row => !(t.schema.selects wheres row) } else u) ∈
              (db.modify n fun u => { u with rows := t.rows.filter fun row => !(t.schema.selects wheres row) }).tables :=
            fun u hu => modify_mem (n := n)
              (f := fun u => { u with rows := t.rows.filter fun row => !(t.schema.selects wheres row) }) hu
          apply hw.modify ht _ db.sequence
          · refine ⟨?_, ?_, ?_, ?_⟩
            · intro r hr
              exact htok.rows r (List.mem_filter.1 hr).1
            · intro r hr
              exact htok.notNull r (List.mem_filter.1 hr).1
            · intro c hc
              exact (htok.key c hc).sublist List.filter_sublist
            · intro c hc r hr
              exact htok.number c hc r (List.mem_filter.1 hr).1
          · intro r hr f hf
            have h1 := htin t htm
            rw [if_pos htn] at h1
            exact hall _ h1 r hr f hf
          · intro u hu row hrow f hf hfn hun hk _
            have h1 := htin u hu
            rw [if_neg hun] at h1
            rcases hall u h1 row hrow f hf with h0 | ⟨p, hp, hpn, r, hr, he⟩
            · exact Or.inl h0
            · obtain ⟨x, hx, rfl⟩ := mem_modify hp
              have hxn : x.schema.name = n := by
                rw [hfn] at hpn
                split at hpn
                · assumption
                · exact hpn
              obtain rfl := find_unique hw.names ht hx hxn
              rw [if_pos hxn] at hr he
              exact Or.inr ⟨r, hr, he⟩
          · intro s hs'
            exact Or.inl ⟨s, hs'⟩
          · intro c hcc
            obtain ⟨s, hs', hrows⟩ := hw.numbers t htm c hcc
            refine ⟨s, hs', ?_⟩
            intro r hr k hk
            rw [← htn]
            exact hrows r (List.mem_filter.1 hr).1 k hk
          · intro s hs'
            exact ⟨s, hs', fun _ _ => rfl⟩
        · exact nomatch h
  | _ => exact nomatch hs

end ZKAP
