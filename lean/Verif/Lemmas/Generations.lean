import Verif.Spec.Generations
import Verif.Lemmas.ReplicationProps
import Verif.Lemmas.ReplicationAll

/-! Lemmas about nodes that are lost and replaced. -/
namespace ZKAP
open Spec

/-! ### The snapshots there are -/

theorem run_jobs_took {n : Node} {js : List Job} {snap : Snapshot} {k : Nat} {l : Bool}
    (h : (n.run_jobs js).activity = .snapshotUploading snap k l) : snap = n.snapshot := by
  rcases run_jobs_activity n js with ⟨h1, _⟩ | ⟨j, a, h1, h2⟩
  · rw [h1] at h; exact nomatch h
  · rw [h2] at h
    subst h
    cases j <;> simp only [Node.begin] at h1
    · exact nomatch h1
    · split at h1
      · exact nomatch h1
      · exact nomatch h1
    · injection h1 with h1; injection h1 with h1; exact h1.symm
    · exact nomatch h1

theorem SameCore.snap {n m : Node} (h : SameCore n m) : m.snapshot = n.snapshot := by
  unfold Node.snapshot
  rw [h.tables, h.events, h.seq]

theorem next_snap {n : Node} {snap : Snapshot} {k : Nat} {l : Bool}
    (h : n.next.activity = .snapshotUploading snap k l) : snap = n.next.snapshot := by
  exact (run_jobs_took h).trans (run_jobs_data n n.jobs).core.snap.symm

/-- A snapshot that is being uploaded was being uploaded before, or has just been taken. -/
theorem step_uploading {env : RepEnv} {n : Node} (s : RStep) {snap : Snapshot} {k : Nat} {l : Bool}
    (h : (n.step env s).activity = .snapshotUploading snap k l) :
    (∃ l', n.activity = .snapshotUploading snap k l') ∨ snap = (n.step env s).snapshot := by
  have restart : ∀ {m : Node}, (m.restart env).activity = .snapshotUploading snap k l → False := by
    intro m hm
    unfold Node.restart at hm
    dsimp only at hm
    split at hm
    · rename_i h1
      rw [h1] at hm; exact nomatch hm
    · exact nomatch hm
  cases s with
  | enable =>
    simp only [Node.step] at h ⊢
    split at h
    · exact nomatch h
    · exact .inl ⟨l, h⟩
  | call op =>
    simp only [Node.step] at h ⊢
    unfold Node.call at h ⊢
    dsimp only at h ⊢
    split at h
    · exact .inl ⟨l, h⟩
    · rename_i a t hr
      obtain ⟨c, ha⟩ := signal_core env { n with tables := t, mutations := [] }
        (if n.activity = .off then n.mutations else n.mutations ++ (op.prog.run n.tables).1)
      rcases ha with ha | ⟨_, m, hm, ha⟩
      · left
        exact ⟨l, ha.symm.trans h⟩
      · right
        exact (run_jobs_took (ha.symm.trans h)).trans (hm.snap.trans c.snap.symm)
  | restart => exact (restart h).elim
  | crashedCall op =>
    simp only [Node.step, Node.crashed_call] at h
    split at h
    · exact (restart h).elim
    · exact (restart h).elim
  | listed =>
    simp only [Node.step, Node.listed] at h ⊢
    split at h
    · exact .inr (next_snap h)
    · split at h
      · exact .inr (next_snap h)
      · exact nomatch h
    · exact .inr (next_snap h)
    · exact .inl ⟨l, h⟩
  | linked =>
    simp only [Node.step, Node.linked] at h ⊢
    split at h
    · rename_i snap' k' ha
      injection h with h1 h2
      subst h1; subst h2
      exact .inl ⟨_, ha⟩
    · exact nomatch h
    · exact .inl ⟨l, h⟩
  | uploaded =>
    simp only [Node.step, Node.uploaded] at h ⊢
    split at h
    · exact nomatch h
    · exact .inr (next_snap h)
    · exact .inl ⟨l, h⟩
  | unlinked =>
    simp only [Node.step, Node.unlinked] at h ⊢
    split at h
    · split at h
      · exact .inr (next_snap h)
      · exact nomatch h
    · exact .inl ⟨l, h⟩
  | failed =>
    simp only [Node.step, Node.failed] at h ⊢
    split at h
    · exact .inl ⟨l, h⟩
    · exact .inl ⟨l, h⟩
    · exact .inl ⟨l, h⟩
    · exact nomatch h

/-- A snapshot in the replica was there before, or was being uploaded. -/
theorem step_replica {env : RepEnv} {n : Node} (s : RStep) {snap : Snapshot}
    (h : (n.step env s).replica.snapshot = some snap) :
    n.replica.snapshot = some snap ∨ ∃ k l, n.activity = .snapshotUploading snap k l := by
  have restart : ∀ {m : Node}, (m.restart env).replica = m.replica := by
    intro m
    unfold Node.restart
    dsimp only
    split <;> rfl
  have next : ∀ {m : Node}, m.next.replica = m.replica := fun {m} => (run_jobs_data m m.jobs).core.replica
  have queue : ∀ {m : Node} {j : Job}, (m.queue_job j).replica = m.replica :=
    fun {m j} => (queue_job_data m j).core.replica
  cases s with
  | enable =>
    simp only [Node.step] at h
    split at h
    · exact .inl h
    · exact .inl h
  | call op =>
    simp only [Node.step] at h
    unfold Node.call at h
    dsimp only at h
    split at h
    · exact .inl h
    · rw [(signal_core env _ _).1.replica] at h
      exact .inl h
  | restart => simp only [Node.step, restart] at h; exact .inl h
  | crashedCall op =>
    simp only [Node.step, Node.crashed_call] at h
    split at h
    · rw [restart] at h; exact .inl h
    · rw [restart] at h; exact .inl h
  | listed =>
    simp only [Node.step, Node.listed] at h
    split at h
    · rw [next] at h
      split at h
      · rw [queue] at h; exact .inl h
      · split at h
        · rw [queue] at h; exact .inl h
        · exact .inl h
    · split at h
      · rw [next] at h; exact .inl h
      · exact .inl h
    · rw [next] at h
      split at h
      · rw [queue] at h; exact .inl h
      · exact .inl h
    · exact .inl h
  | linked =>
    simp only [Node.step, Node.linked] at h
    split at h
    · rename_i snap' k ha
      injection h with h
      subst h
      exact .inr ⟨k, false, ha⟩
    · exact .inl h
    · exact .inl h
  | uploaded =>
    simp only [Node.step, Node.uploaded] at h
    split at h
    · exact .inl h
    · rw [next, queue] at h; exact .inl h
    · exact .inl h
  | unlinked =>
    simp only [Node.step, Node.unlinked] at h
    split at h
    · split at h
      · rw [next] at h; exact .inl h
      · exact .inl h
    · exact .inl h
  | failed =>
    simp only [Node.step, Node.failed] at h
    split at h <;> exact .inl h

/-- Every snapshot in the replica or on its way there has this. -/
structure Snaps (Q : Snapshot → Prop) (n : Node) : Prop where
  replica : ∀ snap, n.replica.snapshot = some snap → Q snap
  uploading : ∀ snap k l, n.activity = .snapshotUploading snap k l → Q snap

theorem snaps_step {env : RepEnv} {Q : Snapshot → Prop} {n : Node} (h : Snaps Q n) (s : RStep)
    (hq : Q (n.step env s).snapshot) : Snaps Q (n.step env s) := by
  refine ⟨fun snap hs => ?_, fun snap k l ha => ?_⟩
  · rcases step_replica s hs with h1 | ⟨k, l, h1⟩
    · exact h.replica _ h1
    · exact h.uploading _ _ _ h1
  · rcases step_uploading s ha with ⟨l', h1⟩ | h1
    · exact h.uploading _ _ _ h1
    · rw [h1]; exact hq

theorem fresh_snaps {Q : Snapshot → Prop} {n : Node} (h : Fresh n) : Snaps Q n := by
  refine ⟨fun snap hs => ?_, fun snap k l ha => ?_⟩
  · rw [h.replica] at hs; exact nomatch hs
  · rw [h.off] at ha; exact nomatch ha

/-- The recorded changes are numbered in order, up to the last number given. -/
def InOrder (snap : Snapshot) : Prop :=
  snap.events.Pairwise (fun a b => a.sequence < b.sequence) ∧
  ∀ e ∈ snap.events, 1 ≤ e.sequence ∧ e.sequence ≤ snap.seq.getD 0

theorem run_inOrder {env : RepEnv} {n : Node} (hg : GInv n) (h : Snaps InOrder n) (steps : List RStep) :
    Snaps InOrder (n.run env steps) := by
  induction steps generalizing n with
  | nil => exact h
  | cons s ss ih =>
    have hg' := step_g (env := env) hg s
    exact ih hg' (snaps_step h s ⟨hg'.num.inc, hg'.num.le⟩)

/-! ### The tables -/

theorem next_tables {m : Node} : m.next.tables = m.tables := (run_jobs_data m m.jobs).core.tables

theorem queue_tables {m : Node} {j : Job} : (m.queue_job j).tables = m.tables :=
  (queue_job_data m j).core.tables

theorem restart_tables {env : RepEnv} {m : Node} : (m.restart env).tables = { m.tables with temp := {} } := by
  unfold Node.restart
  dsimp only
  split <;> rfl

theorem step_eq_transact (t : Tables) {op : StoreOp} (ho : op ≠ .restart) :
    (op.step t).2 = (transact op.prog t).2 := by
  cases op <;> first | rfl | exact absurd rfl ho

/-- A call that leaves the process running does to the tables what the store does. -/
theorem call_tables {env : RepEnv} (n : Node) {op : StoreOp} (ho : op ≠ .restart) :
    (n.call env op).2.tables = (op.step n.tables).2 := by
  rw [step_eq_transact n.tables ho]
  unfold Node.call transact
  dsimp only
  split
  · rename_i e he
    simp only [he]
  · rename_i a t he
    rw [signal_tables]
    simp only [he]

theorem crashed_tables {env : RepEnv} (n : Node) {op : StoreOp} (ho : op ≠ .restart) :
    (n.crashed_call env op).tables = { (op.step n.tables).2 with temp := {} } := by
  rw [step_eq_transact n.tables ho]
  unfold Node.crashed_call transact
  dsimp only
  split
  · rename_i e he
    simp only [he, restart_tables]
  · rename_i a t he
    simp only [he, restart_tables]

/-- Replication changes nothing in the tables. -/
theorem service_tables {env : RepEnv} (n : Node) (s : RStep)
    (h : match s with | .enable | .listed | .linked | .uploaded | .unlinked | .failed => True | _ => False) :
    (n.step env s).tables = n.tables := by
  cases s with
  | enable => simp only [Node.step]; split <;> rfl
  | listed =>
    simp only [Node.step, Node.listed]
    split
    · rw [next_tables]
      split
      · exact queue_tables
      · split
        · exact queue_tables
        · rfl
    · split
      · exact next_tables
      · rfl
    · rw [next_tables]
      split
      · exact queue_tables
      · rfl
    · rfl
  | linked => simp only [Node.step, Node.linked]; split <;> rfl
  | uploaded =>
    simp only [Node.step, Node.uploaded]
    split
    · rfl
    · rw [next_tables, queue_tables]; rfl
    · rfl
  | unlinked =>
    simp only [Node.step, Node.unlinked]
    split
    · split
      · exact next_tables
      · rfl
    · rfl
  | failed => simp only [Node.step, Node.failed]; split <;> rfl
  | call _ => exact h.elim
  | restart => exact h.elim
  | crashedCall _ => exact h.elim

/-- The tables after any history. -/
theorem run_tables {env : RepEnv} (steps : List RStep) (n : Node) :
    (n.run env steps).tables = runStore (callsIn steps) n.tables := by
  induction steps generalizing n with
  | nil => rfl
  | cons s ss ih =>
    change ((n.step env s).run env ss).tables = _
    rw [ih]
    cases s with
    | call op =>
      by_cases ho : op = .restart
      · subst ho
        have : ((n.step env (.call .restart))).tables = n.tables := by
          simp only [Node.step, Node.call, StoreOp.prog, Prog.run, signal_tables]
        rw [this]; rfl
      · have : (n.step env (.call op)).tables = (op.step n.tables).2 := call_tables n ho
        rw [this]
        cases op <;> first | rfl | exact absurd rfl ho
    | restart => simp only [Node.step, restart_tables]; rfl
    | crashedCall op =>
      by_cases ho : op = .restart
      · subst ho
        have : ((n.step env (.crashedCall .restart))).tables = { n.tables with temp := {} } := by
          simp only [Node.step, Node.crashed_call, StoreOp.prog, Prog.run, restart_tables]
        rw [this]; rfl
      · have : (n.step env (.crashedCall op)).tables = { (op.step n.tables).2 with temp := {} } :=
          crashed_tables n ho
        rw [this]
        cases op <;> first | rfl | exact absurd rfl ho
    | enable => rw [service_tables n _ trivial]; rfl
    | listed => rw [service_tables n _ trivial]; rfl
    | linked => rw [service_tables n _ trivial]; rfl
    | uploaded => rw [service_tables n _ trivial]; rfl
    | unlinked => rw [service_tables n _ trivial]; rfl
    | failed => rw [service_tables n _ trivial]; rfl

/-! ### A node that has recorded changes -/

theorem recorded_seq {m : Node} (ms : List Mutation) (h : m.seq ≠ none) : (m.recorded ms).seq ≠ none := by
  simp only [Node.recorded, Node.add_events]
  split
  · exact h
  · exact nofun

/-- The last number given is never forgotten. -/
theorem step_seq {env : RepEnv} {n : Node} (h : n.seq ≠ none) (s : RStep) : (n.step env s).seq ≠ none := by
  have restart : ∀ {m : Node}, (m.restart env).seq = m.seq := by
    intro m
    unfold Node.restart
    dsimp only
    split <;> rfl
  have next : ∀ {m : Node}, m.next.seq = m.seq := fun {m} => (run_jobs_data m m.jobs).core.seq
  have queue : ∀ {m : Node} {j : Job}, (m.queue_job j).seq = m.seq :=
    fun {m j} => (queue_job_data m j).core.seq
  cases s with
  | enable => simp only [Node.step]; split <;> exact h
  | call op =>
    simp only [Node.step]
    unfold Node.call
    dsimp only
    split
    · exact h
    · rw [(signal_core env _ _).1.seq]
      exact recorded_seq _ h
  | restart => simp only [Node.step, restart]; exact h
  | crashedCall op =>
    simp only [Node.step, Node.crashed_call]
    split
    · rw [restart]; exact h
    · rw [restart]; exact h
  | listed =>
    simp only [Node.step, Node.listed]
    split
    · rw [next]
      split
      · rw [queue]; exact h
      · split
        · rw [queue]; exact h
        · exact h
    · split
      · rw [next]; exact h
      · exact h
    · rw [next]
      split
      · rw [queue]; exact h
      · exact h
    · exact h
  | linked => simp only [Node.step, Node.linked]; split <;> exact h
  | uploaded =>
    simp only [Node.step, Node.uploaded]
    split
    · exact h
    · rw [next, queue]; exact h
    · exact h
  | unlinked =>
    simp only [Node.step, Node.unlinked]
    split
    · split
      · rw [next]; exact h
      · exact h
    · exact h
  | failed => simp only [Node.step, Node.failed]; split <;> exact h

theorem run_later {env : RepEnv} {n : Node} (hs : n.seq ≠ none) (h : Snaps (fun s => s.seq ≠ none) n)
    (steps : List RStep) : Snaps (fun s => s.seq ≠ none) (n.run env steps) := by
  induction steps generalizing n with
  | nil => exact h
  | cons s ss ih => exact ih (step_seq hs s) (snaps_step h s (step_seq hs s))

/-- A node that has ever recorded a change uploads no snapshot from before the first change. -/
theorem orderly_of_smooth {env : RepEnv} {n : Node} (hs : n.seq ≠ none)
    (h : Snaps (fun s => s.seq ≠ none) n) (steps : List RStep) (hm : Smooth env n steps) :
    Orderly env n steps := by
  induction steps generalizing n with
  | nil => trivial
  | cons s ss ih =>
    refine ⟨?_, ih (step_seq hs s) (snaps_step h s (step_seq hs s)) hm.2⟩
    have h1 := hm.1
    cases s with
    | call op =>
      refine ⟨h1, fun hu => ?_⟩
      cases ha : n.activity with
      | snapshotUploading snap k l =>
        rw [ha] at hu
        exact absurd hu (h.uploading _ _ _ ha)
      | _ => rw [ha] at hu; exact hu.elim
    | restart => exact h1.elim
    | crashedCall _ => exact h1.elim
    | failed => exact h1.elim
    | _ => trivial

end ZKAP
