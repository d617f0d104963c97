import Verif.Lemmas.Generations
import Verif.Props.Replication

/-! A node that is lost and replaced again and again: C144. -/
namespace ZKAP
open Spec

/-- **C144** in full: a node is lost any number of times, each time after everything was uploaded, and
each time replaced by one that recovers the replica, its streams listed in any order.  As long as nothing goes
wrong every recovery succeeds and the last node has the persistent tables of one that was never lost, only started
again. -/
def C144_statement : Prop :=
  ∀ (env : RepEnv) (n : Node) (gs : List Generation), Fresh n →
    EachGeneration (fun n steps => Smooth env n steps ∧ Uploaded (n.run env steps)) env n gs →
    ∃ m, n.lineage env gs = .ok m ∧ m.tables.app = (runStore (allCalls gs) n.tables).app

/-- One node: a voucher is added while the first snapshot is uploaded. -/
def exGenFirst : Generation := ⟨exRepFirst, id, fun _ => List.Perm.refl _⟩

/-- **C144 fails** at the first loss already, for the reason **C46** does: a change made while the first
snapshot of a new node is uploaded is not uploaded. -/
theorem C144_fails : ¬ C144_statement := by
  intro h
  have h2 : (({} : Node).replaced exRepLazy exGenFirst) = .error .integrityError := by rfl
  obtain ⟨m, h1, _⟩ := h exRepLazy {} [exGenFirst] exFresh
    ⟨⟨⟨trivial, trivial, .inl ⟨_, rfl⟩, trivial, trivial, trivial, trivial, trivial, trivial, trivial⟩,
      by decide, by decide⟩, fun m hm => trivial⟩
  simp only [Node.lineage, h2] at h1
  exact nomatch h1

/-- What replaces a lost node: it exists, has the tables, and replication can be set up on it. -/
theorem replaced_ok (env : RepEnv) (n : Node) (g : Generation) (hn : Fresh n)
    (ho : Orderly env n g.steps) (hu : Uploaded (n.run env g.steps)) :
    ∃ m, n.replaced env g = .ok m ∧ Fresh m ∧
      m.tables = runStore (callsIn g.steps ++ [.restart]) n.tables ∧ (n.seq ≠ none → m.seq ≠ none) := by
  have hsnap := C46_idle_has_snapshot env n g.steps hn hu.1
  have hset : ¬ Unsettled (n.run env g.steps).activity := by rw [hu.1]; exact fun h => h
  obtain ⟨t, t', h1, h2, h3⟩ := C46_partial env n g.steps hn ho hset hsnap _ (g.perm _)
  rw [hu.2] at h2
  injection h2 with h2
  subst h2
  cases hs : (n.run env g.steps).replica.snapshot with
  | none => exact absurd hs hsnap
  | some snap =>
    have hr : n.replaced env g = .ok (Node.heir snap t) := by
      unfold Node.replaced
      dsimp only
      unfold Recovers at h1
      rw [h1, hs]
    have ht : (Node.heir snap t).tables = runStore (callsIn g.steps ++ [.restart]) n.tables := by
      rw [runStore_append, ← run_tables (env := env)]
      simp only [Node.heir, runStore, StoreOp.step, h3]
    have hord := (run_inOrder (env := env) (fresh_g hn) (fresh_snaps hn) g.steps).replica _ hs
    refine ⟨_, hr, ⟨rfl, rfl, rfl, ?_, hord.1, hord.2⟩, ht, fun hq => ?_⟩
    · obtain ⟨ops, hops⟩ := hn.tables
      exact ⟨ops ++ (callsIn g.steps ++ [.restart]), by rw [ht, hops, ← runStore_append]⟩
    · exact (run_later (env := env) hq (fresh_snaps hn) g.steps).replica _ hs

theorem lineage_ok (env : RepEnv) (P : Node → List RStep → Prop)
    (hP : ∀ n steps, Fresh n → P n steps → Orderly env n steps ∧ Uploaded (n.run env steps))
    (gs : List Generation) (n : Node) (hn : Fresh n) (h : EachGeneration P env n gs) :
    ∃ m, n.lineage env gs = .ok m ∧ Fresh m ∧ m.tables = runStore (allCalls gs) n.tables := by
  induction gs generalizing n with
  | nil => exact ⟨n, rfl, hn, rfl⟩
  | cons g gs ih =>
    obtain ⟨ho, hu⟩ := hP n g.steps hn h.1
    obtain ⟨m, h1, h2, h3, _⟩ := replaced_ok env n g hn ho hu
    obtain ⟨k, h4, h5, h6⟩ := ih m h2 (h.2 m h1)
    refine ⟨k, by simp only [Node.lineage, h1, h4], h5, ?_⟩
    rw [h6, h3]
    simp only [allCalls, List.flatMap_cons, runStore_append]

/-- **C144**, partial: it holds, restarts and failing uploads included, if in no generation a change is made while
a snapshot taken before the first change ever recorded is being uploaded; and the last node can be replicated
again.  Missing: that case. -/
theorem C144_partial (env : RepEnv) (n : Node) (gs : List Generation) (hn : Fresh n)
    (h : EachGeneration (fun n steps => Orderly env n steps ∧ Uploaded (n.run env steps)) env n gs) :
    ∃ m, n.lineage env gs = .ok m ∧ Fresh m ∧ m.tables.app = (runStore (allCalls gs) n.tables).app := by
  obtain ⟨m, h1, h2, h3⟩ := lineage_ok env _ (fun _ _ _ h => h) gs n hn h
  exact ⟨m, h1, h2, by rw [h3]⟩

/-- **C144** holds in full for a node that has recorded a change: only nodes that never have are affected by
**C144_fails**. -/
theorem C144_recorded (env : RepEnv) (n : Node) (gs : List Generation) (hn : Fresh n)
    (h : EachGeneration (fun n steps => Smooth env n steps ∧ Uploaded (n.run env steps) ∧
      (n.seq = none → Orderly env n steps)) env n gs) :
    ∃ m, n.lineage env gs = .ok m ∧ Fresh m ∧ m.tables.app = (runStore (allCalls gs) n.tables).app := by
  obtain ⟨m, h1, h2, h3⟩ := lineage_ok env _ (fun n steps hn h => ⟨by
    by_cases hs : n.seq = none
    · exact h.2.2 hs
    · exact orderly_of_smooth hs (fresh_snaps hn) steps h.1, h.2.1⟩) gs n hn h
  exact ⟨m, h1, h2, by rw [h3]⟩

/-- A node that recorded a change and uploaded a snapshot after it passes that on to the one that replaces it. -/
theorem C144_recorded_kept (env : RepEnv) (n : Node) (g : Generation) (hn : Fresh n) (hs : n.seq ≠ none)
    (hm : Smooth env n g.steps) (hu : Uploaded (n.run env g.steps)) :
    ∃ m, n.replaced env g = .ok m ∧ m.seq ≠ none := by
  obtain ⟨m, h1, _, _, h4⟩ := replaced_ok env n g hn (orderly_of_smooth hs (fresh_snaps hn) g.steps hm) hu
  exact ⟨m, h1, h4 hs⟩

/-! ### An example -/

/-- A voucher is added; the change is uploaded, then a snapshot. -/
def exGenOne : Generation :=
  ⟨exSetup ++ [.call exAdd, .linked, .uploaded, .listed, .linked, .uploaded, .listed, .unlinked],
    List.reverse, List.reverse_perm⟩

/-- The next node stores tokens and adds a voucher, while its first snapshot is uploaded. -/
def exGenTwo : Generation :=
  ⟨[.enable, .listed, .call exInsert, .call (.add .natural "later" "w" 1 0 (.ok ["c"])), .linked, .uploaded, .listed, .linked, .uploaded, .listed, .linked, .uploaded, .listed,
    .unlinked], id, fun _ => List.Perm.refl _⟩

example : Uploaded (Node.run exRep {} exGenOne.steps) := ⟨by decide, by decide⟩

/-- Both generations meet the hypotheses of **C144_recorded**. -/
example : EachGeneration (fun n steps => Smooth exRep n steps ∧ Uploaded (n.run exRep steps) ∧
    (n.seq = none → Orderly exRep n steps)) exRep {} [exGenOne, exGenTwo] := by
  refine ⟨⟨⟨trivial, trivial, trivial, trivial, trivial, .inl ⟨_, rfl⟩, trivial, trivial, trivial, trivial, trivial,
    trivial, trivial, trivial⟩, ⟨by decide, by decide⟩, fun _ =>
    ⟨trivial, trivial, trivial, trivial, trivial, ⟨.inl ⟨_, rfl⟩, fun h => False.elim h⟩, trivial, trivial, trivial,
      trivial, trivial, trivial, trivial, trivial⟩⟩, fun m hm => ?_⟩
  have h : (({} : Node).replaced exRep exGenOne) = .ok m := hm
  have h' : (({} : Node).replaced exRep exGenOne) = .ok (Node.heir
      ⟨(Node.run exRep {} exGenOne.steps).tables.app,
        ((Node.run exRep {} exGenOne.steps).replica.snapshot.map (·.events)).getD [], some 3⟩
      (Node.run exRep {} exGenOne.steps).tables) := by rfl
  rw [h'] at h
  injection h with h
  subst h
  refine ⟨⟨⟨trivial, trivial, .inl ⟨_, rfl⟩, .inl ⟨_, rfl⟩, trivial, trivial, trivial, trivial, trivial, trivial, trivial, trivial,
    trivial, trivial, trivial⟩, ⟨by decide, by decide⟩, fun h => nomatch h⟩, fun _ _ => trivial⟩

/-- The tokens are there after two losses. -/
example : ∃ m, ({} : Node).lineage exRep [exGenOne, exGenTwo] = .ok m ∧
    m.tables.app.unblinded.map (·.token) = ["A", "B"] := ⟨_, rfl, by decide⟩

end ZKAP
