import Verif.Model.StoreConn

/-! Lemmas about methods of the store on the connection. -/
namespace ZKAP

/-- No statement fails for a reason outside the program. -/
def NoFaults (faults : Faults) : Prop := ∀ f ∈ faults, f = none

theorem NoFaults.next {faults : Faults} (h : NoFaults faults) : faults.next = none := by
  cases faults with
  | nil => rfl
  | cons f fs =>
    have := h f List.mem_cons_self
    subst this
    rfl

theorem NoFaults.rest {faults : Faults} (h : NoFaults faults) : NoFaults faults.rest :=
  fun f hf => h f (List.mem_of_mem_tail hf)

theorem NoFaults.nil : NoFaults [] := fun _ h => nomatch h

theorem execute_rows_inside (ss : List Stmt) : ∀ (faults : Faults) (d0 d : StoreDb) (b : Bool),
    ∃ d', (Conn.execute_rows ⟨d0, some d, b⟩ ss faults).2.1 = ⟨d0, some d', b⟩ ∧
      ((Conn.execute_rows ⟨d0, some d, b⟩ ss faults).2.2 = .ok () →
        execMany ss d.tables = .ok d'.tables ∧ d'.events = d.events) ∧
      (NoFaults faults → NoFaults (Conn.execute_rows ⟨d0, some d, b⟩ ss faults).1 ∧
        ∀ e, (Conn.execute_rows ⟨d0, some d, b⟩ ss faults).2.2 = .error e → execMany ss d.tables = .error e) := by
  induction ss with
  | nil =>
    intro faults d0 d b
    exact ⟨d, rfl, fun _ => ⟨rfl, rfl⟩, fun h => ⟨h, fun e he => (nomatch he)⟩⟩
  | cons s ss ih =>
    intro faults d0 d b
    simp only [Conn.execute_rows, Conn.execute_stmt, Conn.execute, stmt_effect]
    cases hf : faults.next with
    | some e =>
      refine ⟨d, rfl, fun h => (nomatch h), fun h => ?_⟩
      rw [h.next] at hf
      exact nomatch hf
    | none =>
      cases he : exec s d.tables with
      | error e =>
        refine ⟨d, rfl, fun h => (nomatch h), fun h => ⟨h.rest, fun e' h' => ?_⟩⟩
        cases h'
        simp only [execMany, he]
      | ok x =>
        obtain ⟨d', h1, h2, h3⟩ := ih faults.rest d0 { d with tables := x.tables } b
        refine ⟨d', h1, fun h => ?_, fun h => ?_⟩
        · simp only [execMany, he]
          exact h2 h
        · simp only [execMany, he]
          exact h3 h.rest

/-- What a method does in a transaction. -/
theorem perform_inside {α} (p : Prog α) : ∀ (faults : Faults) (d0 d : StoreDb) (b rep obs : Bool)
    (ms : List Mutation),
    ∃ d' new, (p.perform faults ⟨⟨d0, some d, b⟩, rep, obs, ms⟩).2.1 =
        ⟨⟨d0, some d', b⟩, rep, obs, if rep then ms ++ new else ms⟩ ∧
      (∀ a, (p.perform faults ⟨⟨d0, some d, b⟩, rep, obs, ms⟩).2.2 = .ok a →
        p.run d.tables = (new, .ok (a, d'.tables)) ∧ d'.events = d.events) ∧
      (NoFaults faults → NoFaults (p.perform faults ⟨⟨d0, some d, b⟩, rep, obs, ms⟩).1 ∧
        ∀ e, (p.perform faults ⟨⟨d0, some d, b⟩, rep, obs, ms⟩).2.2 = .error e →
          p.run d.tables = (new, .error e)) ∧
      new <+: (p.run d.tables).1 := by
  induction p with
  | done a =>
    intro faults d0 d b rep obs ms
    refine ⟨d, [], ?_, ?_, ?_, List.nil_prefix⟩
    · simp [Prog.perform]
    · intro a' h
      cases h
      exact ⟨rfl, rfl⟩
    · intro h
      exact ⟨h, fun e he => (nomatch he)⟩
  | raise e =>
    intro faults d0 d b rep obs ms
    refine ⟨d, [], ?_, ?_, ?_, List.nil_prefix⟩
    · simp [Prog.perform]
    · intro a' h
      exact nomatch h
    · intro h
      refine ⟨h, fun e' he => ?_⟩
      cases he
      rfl
  | query k ih =>
    intro faults d0 d b rep obs ms
    simp only [Prog.perform, Prog.run]
    cases hf : faults.next with
    | some e =>
      refine ⟨d, [], by simp, fun a h => (nomatch h), fun h => ?_, List.nil_prefix⟩
      rw [h.next] at hf
      exact nomatch hf
    | none =>
      obtain ⟨d', new, h1, h2, h3, h4⟩ := ih d.tables faults.rest d0 d b rep obs ms
      exact ⟨d', new, h1, h2, fun h => h3 h.rest, h4⟩
  | execute imp s k ih =>
    intro faults d0 d b rep obs ms
    simp only [Prog.perform, Prog.run, Conn.execute_stmt, Conn.execute, stmt_effect, Conn.current, Option.getD_some]
    cases hf : faults.next with
    | some e =>
      refine ⟨d, [], by simp, fun a h => (nomatch h), fun h => ?_, List.nil_prefix⟩
      rw [h.next] at hf
      exact nomatch hf
    | none =>
      cases he : exec s d.tables with
      | error e =>
        refine ⟨d, [], by simp, fun a h => (nomatch h), fun h => ⟨h.rest, fun e' h' => ?_⟩, List.nil_prefix⟩
        cases h'
        rfl
      | ok x =>
        obtain ⟨d', new, h1, h2, h3, h4⟩ := ih x.rowcount x.lastrowid faults.rest d0 { d with tables := x.tables }
          b rep obs (if rep then ms ++ [⟨imp, [s]⟩] else ms)
        refine ⟨d', ⟨imp, [s]⟩ :: new, ?_, ?_, ?_, ?_⟩
        · simp only [StoreConn.note]
          rw [h1]
          cases rep <;> simp
        · intro a h
          obtain ⟨k1, k2⟩ := h2 a h
          simp only [k1]
          exact ⟨trivial, k2⟩
        · intro h
          refine ⟨(h3 h.rest).1, fun e h' => ?_⟩
          simp only [(h3 h.rest).2 e h']
        · simp only
          exact List.cons_prefix_cons.2 ⟨rfl, h4⟩
  | executemany imp ss k ih =>
    intro faults d0 d b rep obs ms
    simp only [Prog.perform, Prog.run]
    obtain ⟨d1, h1, h2, h3⟩ := execute_rows_inside ss faults d0 d b
    cases hx : Conn.execute_rows ⟨d0, some d, b⟩ ss faults with
    | mk faults' rest =>
      obtain ⟨conn', res⟩ := rest
      rw [hx] at h1 h2 h3
      simp only at h1 h2 h3
      subst h1
      cases res with
      | error e =>
        refine ⟨d1, [], by simp, fun a h => (nomatch h), fun h => ⟨(h3 h).1, fun e' h' => ?_⟩, List.nil_prefix⟩
        cases h'
        simp only [(h3 h).2 e rfl]
      | ok u =>
        obtain ⟨k1, k2⟩ := h2 rfl
        obtain ⟨d', new, j1, j2, j3, j4⟩ := ih faults' d0 d1 b rep obs (if rep then ms ++ [⟨imp, ss⟩] else ms)
        refine ⟨d', ⟨imp, ss⟩ :: new, ?_, ?_, ?_, ?_⟩
        · simp only [StoreConn.note]
          rw [j1]
          cases rep <;> simp
        · intro a h
          obtain ⟨l1, l2⟩ := j2 a h
          simp only [k1, l1]
          exact ⟨trivial, l2.trans k2⟩
        · intro h
          refine ⟨(j3 (h3 h).1).1, fun e h' => ?_⟩
          simp only [k1, (j3 (h3 h).1).2 e h']
        · simp only [k1]
          exact List.cons_prefix_cons.2 ⟨rfl, j4⟩

/-- The transaction that records what was changed. -/
theorem record_closed (faults : Faults) (db : StoreDb) (b rep obs : Bool) (ms : List Mutation) :
    ∃ db', (StoreConn.record faults ⟨⟨db, none, b⟩, rep, obs, ms⟩).1.conn = ⟨db', none, false⟩ ∧
      db'.tables = db.tables ∧
      (db'.events = db.events ∨ (obs = true ∧ db'.events = db.events ++ ms)) ∧
      ((StoreConn.record faults ⟨⟨db, none, b⟩, rep, obs, ms⟩).2 = .ok () →
        db'.events = (if obs then db.events ++ ms else db.events) ∧
        (StoreConn.record faults ⟨⟨db, none, b⟩, rep, obs, ms⟩).1.mutations = []) ∧
      (NoFaults faults → (StoreConn.record faults ⟨⟨db, none, b⟩, rep, obs, ms⟩).2 = .ok ()) ∧
      (StoreConn.record faults ⟨⟨db, none, b⟩, rep, obs, ms⟩).1.replicating = rep ∧
      (StoreConn.record faults ⟨⟨db, none, b⟩, rep, obs, ms⟩).1.observed = obs := by
  simp only [StoreConn.record]
  cases hf : faults.next with
  | some e =>
    refine ⟨db, rfl, rfl, Or.inl rfl, fun h => (nomatch h), fun h => ?_, rfl, rfl⟩
    rw [h.next] at hf
    exact nomatch hf
  | none =>
    simp only [Conn.begin]
    by_cases ho : obs = true ∧ ms ≠ []
    · obtain ⟨rfl, hms⟩ := ho
      rw [if_pos (⟨rfl, hms⟩ : (true = true ∧ ms ≠ []))]
      cases hf2 : faults.rest.next with
      | some e =>
        refine ⟨db, rfl, rfl, Or.inl rfl, fun h => (nomatch h), fun h => ?_, rfl, rfl⟩
        rw [h.rest.next] at hf2
        exact nomatch hf2
      | none =>
        cases hf3 : faults.rest.rest.next with
        | some e =>
          refine ⟨db, rfl, rfl, Or.inl rfl, fun h => (nomatch h), fun h => ?_, rfl, rfl⟩
          rw [h.rest.rest.next] at hf3
          exact nomatch hf3
        | none =>
          exact ⟨{ db with events := db.events ++ ms }, rfl, rfl, Or.inr ⟨rfl, rfl⟩, fun _ => ⟨rfl, rfl⟩,
            fun _ => rfl, rfl, rfl⟩
    · rw [if_neg ho]
      cases hf2 : faults.rest.next with
      | some e =>
        refine ⟨db, rfl, rfl, Or.inl rfl, fun h => (nomatch h), fun h => ?_, rfl, rfl⟩
        rw [h.rest.next] at hf2
        exact nomatch hf2
      | none =>
        refine ⟨db, rfl, rfl, Or.inl rfl, fun _ => ⟨?_, rfl⟩, fun _ => rfl, rfl, rfl⟩
        split
        · rename_i h
          have : ms = [] := by
            apply Classical.byContradiction
            exact fun hms => ho ⟨h, hms⟩
          rw [this, List.append_nil]
        · rfl

/-- The body of a call: either `BEGIN` fails, or a transaction is open afterwards. -/
theorem body_closed {α} (p : Prog α) (faults : Faults) (db : StoreDb) (b rep obs : Bool) (ms : List Mutation) :
    (∃ e, StoreConn.body faults ⟨⟨db, none, b⟩, rep, obs, ms⟩ p = (faults.rest, ⟨⟨db, none, b⟩, rep, obs, ms⟩, .error e) ∧ ¬ NoFaults faults) ∨
    ∃ d' new, (StoreConn.body faults ⟨⟨db, none, b⟩, rep, obs, ms⟩ p).2.1 = ⟨⟨db, some d', false⟩, rep, obs, if rep then ms ++ new else ms⟩ ∧
      (∀ a, (StoreConn.body faults ⟨⟨db, none, b⟩, rep, obs, ms⟩ p).2.2 = .ok a → p.run db.tables = (new, .ok (a, d'.tables)) ∧ d'.events = db.events) ∧
      (NoFaults faults → NoFaults (StoreConn.body faults ⟨⟨db, none, b⟩, rep, obs, ms⟩ p).1 ∧
        ∀ e, (StoreConn.body faults ⟨⟨db, none, b⟩, rep, obs, ms⟩ p).2.2 = .error e → p.run db.tables = (new, .error e)) ∧
      new <+: (p.run db.tables).1 := by
  simp only [StoreConn.body]
  cases hf : faults.next with
  | some e =>
    refine Or.inl ⟨e, rfl, fun h => ?_⟩
    rw [h.next] at hf
    exact nomatch hf
  | none =>
    obtain ⟨d', new, h1, h2, h3, h4⟩ := perform_inside p faults.rest db db false rep obs ms
    exact Or.inr ⟨d', new, h1, h2, fun h => h3 h.rest, h4⟩

/-- A call of a method of the store. -/
theorem with_cursor_closed {α} (p : Prog α) (faults : Faults) (db : StoreDb) (b rep obs : Bool) (ms : List Mutation) :
    ∃ db', (StoreConn.with_cursor faults ⟨⟨db, none, b⟩, rep, obs, ms⟩ p).1.conn = ⟨db', none, false⟩ ∧
      ((db' = db ∧ ∃ e, (StoreConn.with_cursor faults ⟨⟨db, none, b⟩, rep, obs, ms⟩ p).2 = .error e ∧
          (NoFaults faults → (p.run db.tables).2 = .error e)) ∨
        ∃ a new, p.run db.tables = (new, .ok (a, db'.tables)) ∧
          (db'.events = db.events ∨
            (obs = true ∧ db'.events = db.events ++ (if rep then ms ++ new else ms))) ∧
          (∀ a', (StoreConn.with_cursor faults ⟨⟨db, none, b⟩, rep, obs, ms⟩ p).2 = .ok a' → a' = a ∧
            db'.events = (if obs then db.events ++ (if rep then ms ++ new else ms) else db.events) ∧
            (StoreConn.with_cursor faults ⟨⟨db, none, b⟩, rep, obs, ms⟩ p).1.mutations = []) ∧
          (NoFaults faults → (StoreConn.with_cursor faults ⟨⟨db, none, b⟩, rep, obs, ms⟩ p).2 = .ok a) ∧
          ((StoreConn.body faults ⟨⟨db, none, b⟩, rep, obs, ms⟩ p).1.length ≤ 1 →
            (StoreConn.with_cursor faults ⟨⟨db, none, b⟩, rep, obs, ms⟩ p).2 = .ok a)) := by
  rcases body_closed p faults db b rep obs ms with ⟨e, h1, h2⟩ | ⟨d', new, h1, h2, h3, h4⟩
  · refine ⟨db, ?_, Or.inl ⟨rfl, e, ?_, fun h => absurd h h2⟩⟩
    · simp only [StoreConn.with_cursor, h1, StoreConn.exit, Conn.exit_faulty, Conn.exit, Conn.rollback]
    · simp only [StoreConn.with_cursor, h1, StoreConn.exit, Conn.exit_faulty, Conn.exit]
  · simp only [StoreConn.with_cursor]
    cases hx : StoreConn.body faults ⟨⟨db, none, b⟩, rep, obs, ms⟩ p with
    | mk faults' rest =>
      obtain ⟨c', res⟩ := rest
      rw [hx] at h1 h2 h3
      simp only at h1 h2 h3
      subst h1
      cases res with
      | error e =>
        refine ⟨db, rfl, Or.inl ⟨rfl, e, rfl, fun h => ?_⟩⟩
        rw [(h3 h).2 e rfl]
      | ok a =>
        obtain ⟨k1, k2⟩ := h2 a rfl
        simp only [StoreConn.exit]
        cases hf : faults'.next with
        | some e =>
          refine ⟨db, rfl, Or.inl ⟨rfl, e, rfl, fun h => ?_⟩⟩
          rw [(h3 h).1.next] at hf
          exact nomatch hf
        | none =>
          have hex : Conn.exit_faulty none (⟨db, some d', false⟩ : Conn StoreDb) (.ok a : Except PyErr α) =
            (⟨d', none, false⟩, .ok a) := rfl
          simp only [hex]
          obtain ⟨db', j1, j2, j3, j4, j5, _, _⟩ := record_closed faults'.rest d' false rep obs
            (if rep then ms ++ new else ms)
          cases hy : StoreConn.record faults'.rest ⟨⟨d', none, false⟩, rep, obs, if rep then ms ++ new else ms⟩ with
          | mk c2 res2 =>
            rw [hy] at j1 j4 j5
            simp only at j1 j4 j5
            rw [k2] at j3 j4
            cases res2 with
            | error e =>
              refine ⟨db', j1, Or.inr ⟨a, new, by rw [j2]; exact k1, j3, fun a' h => (nomatch h), fun h => ?_, fun h => ?_⟩⟩
              · exact nomatch j5 (h3 h).1.rest
              · have : faults'.rest = [] := by
                  cases faults' with
                  | nil => rfl
                  | cons f fs =>
                    cases fs with
                    | nil => rfl
                    | cons _ _ => simp at h
                rw [this] at j5
                exact nomatch j5 NoFaults.nil
            | ok u =>
              refine ⟨db', j1, Or.inr ⟨a, new, by rw [j2]; exact k1, j3, fun a' h => ?_, fun _ => rfl, fun _ => rfl⟩⟩
              cases h
              exact ⟨rfl, j4 rfl⟩

end ZKAP
