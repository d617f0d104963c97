import Verif.Lemmas.StoreConn

/-!
C37: a method of the store that raises.  Methods are arbitrary programs on a cursor; those of the store
are in `Model/Store.lean`.
-/
namespace ZKAP

/-- C37: whatever fails, if a method of the store raises, the database is as it was. -/
def C37_statement : Prop :=
  ∀ (α : Type) (method : Prog α) (faults : Faults) (c : StoreConn) (e : PyErr),
    c.conn.working = none → (c.with_cursor faults method).2 = .error e →
      (c.with_cursor faults method).1.conn.committed = c.conn.committed

/-- `add` of a voucher with two random tokens. -/
def exStoreAdd : Prog (List String) := store_add Order.natural "2022-01-02 03:04:05+00:00" "v" 2 0 (.ok ["r1", "r2"])

/-- The seventh statement fails: the `BEGIN` of the transaction that records changes. -/
def exLocked : Faults := [none, none, none, none, none, none, some .operationalError]

example : let c : StoreConn := { conn := { committed := {} } }
    (c.with_cursor exLocked exStoreAdd).2.toOption = none ∧
    (c.with_cursor exLocked exStoreAdd).1.conn.committed.tables.app.vouchers.map (·.number) = ["v"] ∧
    (c.with_cursor [] exStoreAdd).2.toOption = some ["r1", "r2"] := by decide +kernel

/-- C37 does not hold: the transaction of the method is committed before the one that records what was
changed, which can fail, even if nothing is to be recorded. -/
theorem C37_fails : ¬ C37_statement := by
  intro h
  have := h _ exStoreAdd exLocked { conn := { committed := {} } } .operationalError rfl (by rfl)
  revert this
  decide +kernel

/-- C37, for failures in the method and its commit: all faults are for these statements.  The
connection has no open transaction afterwards.  Missing: failures of the transaction that records
changes, where it is false. -/
theorem C37_partial {α : Type} (method : Prog α) (faults : Faults) (c : StoreConn) (e : PyErr)
    (hw : c.conn.working = none) (hf : (c.body faults method).1.length ≤ 1)
    (he : (c.with_cursor faults method).2 = .error e) :
    (c.with_cursor faults method).1.conn = { committed := c.conn.committed } := by
  obtain ⟨⟨db, w, b⟩, rep, obs, ms⟩ := c
  simp only at hw
  subst hw
  obtain ⟨db', h1, ⟨rfl, _⟩ | ⟨a, new, h2, h3, h4, h5, h6⟩⟩ := with_cursor_closed method faults db b rep obs ms
  · exact h1
  · rw [h6 hf] at he
    exact nomatch he

example : let c : StoreConn := { conn := { committed := { tables := { app := { tokens := [⟨"r2", "u", 0⟩] } } } } }
    (c.with_cursor [] exStoreAdd).2.toOption = none ∧ (c.body [] exStoreAdd).1 = [] ∧
    (c.with_cursor [none, none, none, some .operationalError] exStoreAdd).2.toOption = none ∧
    (c.body [none, none, none, some .operationalError] exStoreAdd).1 = [] := by decide +kernel

/-- Whatever fails, all changes of a method are made or none.  If it returns, they are made, and what
it returns and changes is what its statements say. -/
theorem C37_all_or_nothing {α : Type} (method : Prog α) (faults : Faults) (c : StoreConn)
    (hw : c.conn.working = none) :
    (c.with_cursor faults method).1.conn.working = none ∧
    (((c.with_cursor faults method).1.conn.committed = c.conn.committed ∧
        ∃ e, (c.with_cursor faults method).2 = .error e) ∨
      ∃ a, transact method c.conn.committed.tables =
          (.ok a, (c.with_cursor faults method).1.conn.committed.tables) ∧
        ∀ a', (c.with_cursor faults method).2 = .ok a' → a' = a) := by
  obtain ⟨⟨db, w, b⟩, rep, obs, ms⟩ := c
  simp only at hw
  subst hw
  obtain ⟨db', h1, ⟨rfl, e, h2, _⟩ | ⟨a, new, h2, h3, h4, h5, h6⟩⟩ := with_cursor_closed method faults db b rep obs ms
  · exact ⟨by rw [h1], Or.inl ⟨by rw [h1], e, h2⟩⟩
  · refine ⟨by rw [h1], Or.inr ⟨a, ?_, fun a' h => (h4 a' h).1⟩⟩
    rw [h1]
    simp only [transact, h2]

/-- If nothing fails from outside, a call is what `transact` says: this is what the other theorems
about the store use. -/
theorem C37_transact {α : Type} (method : Prog α) (faults : Faults) (c : StoreConn)
    (hw : c.conn.working = none) (hf : ∀ f ∈ faults, f = none) :
    ((c.with_cursor faults method).2, (c.with_cursor faults method).1.conn.committed.tables) =
      transact method c.conn.committed.tables := by
  obtain ⟨⟨db, w, b⟩, rep, obs, ms⟩ := c
  simp only at hw
  subst hw
  obtain ⟨db', h1, ⟨rfl, e, h2, h3⟩ | ⟨a, new, h2, h3, h4, h5, h6⟩⟩ := with_cursor_closed method faults db b rep obs ms
  · rw [h1, h2]
    simp only [transact, h3 hf]
  · rw [h1, h5 hf]
    simp only [transact, h2]

/-- A crash: wherever a method stops, nothing of it is in the file. -/
theorem C37_crash {α : Type} (method : Prog α) (faults : Faults) (c : StoreConn) (hw : c.conn.working = none) :
    (c.body faults method).2.1.conn.crash = c.conn.committed := by
  obtain ⟨⟨db, w, b⟩, rep, obs, ms⟩ := c
  simp only at hw
  subst hw
  rcases body_closed method faults db b rep obs ms with ⟨e, h1, _⟩ | ⟨d', new, h1, _⟩
  · rw [h1]; rfl
  · rw [h1]; rfl

example : let c : StoreConn := { conn := { committed := {} } }
    (c.body [none, none, none, none, some .operationalError] exStoreAdd).2.1.conn.current.tables.app.tokens.length = 1 ∧
    (c.body [none, none, none, none, some .operationalError] exStoreAdd).2.1.conn.crash = {} := by decide +kernel

/-- A method that returns on a node with replication is recorded after everything recorded before, with
the statements of calls that failed (C48), in the order of execution. -/
theorem C37_recorded {α : Type} (method : Prog α) (faults : Faults) (c : StoreConn) (a : α)
    (hw : c.conn.working = none) (hr : c.replicating = true) (ho : c.observed = true)
    (ha : (c.with_cursor faults method).2 = .ok a) :
    (c.with_cursor faults method).1.conn.committed.events =
        c.conn.committed.events ++ c.mutations ++ (method.run c.conn.committed.tables).1 ∧
      (c.with_cursor faults method).1.mutations = [] := by
  obtain ⟨⟨db, w, b⟩, rep, obs, ms⟩ := c
  simp only at hw hr ho
  subst hw hr ho
  obtain ⟨db', h1, ⟨rfl, e, h2, h3⟩ | ⟨a', new, h2, h3, h4, h5, h6⟩⟩ := with_cursor_closed method faults db b true true ms
  · rw [h2] at ha
    exact nomatch ha
  · obtain ⟨_, k2, k3⟩ := h4 a ha
    rw [h1, h2]
    refine ⟨?_, k3⟩
    simp only [k2, if_true, List.append_assoc]

end ZKAP
