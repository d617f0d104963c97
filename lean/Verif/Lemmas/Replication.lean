import Verif.Lemmas.Replay
import Verif.Lemmas.Dict
import Verif.Spec.Replication

/-! Invariants of replication. -/
namespace ZKAP
open Spec

/-! ### Jobs change only the service -/

/-- Everything but the jobs and the activity. -/
structure SameData (n m : Node) : Prop where
  tables : m.tables = n.tables
  events : m.events = n.events
  seq : m.seq = n.seq
  mutations : m.mutations = n.mutations
  important : m.important = n.important
  size : m.size = n.size
  replica : m.replica = n.replica

theorem sameData_refl (n : Node) : SameData n n := ⟨rfl, rfl, rfl, rfl, rfl, rfl, rfl⟩

theorem run_jobs_data (n : Node) (js : List Job) : SameData n (n.run_jobs js) := by
  induction js with
  | nil => exact ⟨rfl, rfl, rfl, rfl, rfl, rfl, rfl⟩
  | cons j js ih =>
    simp only [Node.run_jobs]
    split
    · exact ⟨rfl, rfl, rfl, rfl, rfl, rfl, rfl⟩
    · exact ih

/-- After taking jobs the service is idle or at the start of a job. -/
theorem run_jobs_activity (n : Node) (js : List Job) :
    ((n.run_jobs js).activity = .idle ∧ (n.run_jobs js).jobs = []) ∨
    ∃ j, ∃ a, n.begin j = some a ∧ (n.run_jobs js).activity = a := by
  induction js with
  | nil => exact .inl ⟨rfl, rfl⟩
  | cons j js ih =>
    simp only [Node.run_jobs]
    split
    · rename_i a ha; exact .inr ⟨j, a, ha, rfl⟩
    · exact ih

theorem queue_job_data (n : Node) (j : Job) : SameData n (n.queue_job j) := by
  unfold Node.queue_job
  split
  · exact sameData_refl n
  · split
    · exact run_jobs_data n _
    · exact ⟨rfl, rfl, rfl, rfl, rfl, rfl, rfl⟩

theorem queue_job_activity (n : Node) (j : Job) :
    (n.queue_job j).activity = n.activity ∨
      n.activity = .idle ∧ n.queue_job j = n.run_jobs [j] := by
  unfold Node.queue_job
  split
  · exact .inl rfl
  · split
    · rename_i h; exact .inr ⟨h, rfl⟩
    · exact .inl rfl

/-! ### Numbers -/

structure Numbered (n : Node) : Prop where
  inc : Increasing n.events
  le : ∀ e ∈ n.events, 1 ≤ e.sequence ∧ e.sequence ≤ n.seq.getD 0
  keys : ∀ kv ∈ n.replica.streams, kv.1 ≤ n.seq.getD 0
  base : ∀ snap, n.replica.snapshot = some snap → snap.seq.getD 0 ≤ n.seq.getD 0

theorem Numbered.of_same {n m : Node} (h : Numbered n) (he : m.events = n.events)
    (hs : m.seq = n.seq) (hr : m.replica = n.replica) : Numbered m :=
  ⟨by rw [he]; exact h.inc, by rw [he, hs]; exact h.le, by rw [hr, hs]; exact h.keys,
    by rw [hr, hs]; exact h.base⟩

theorem Numbered.seq_none {n : Node} (h : Numbered n) (hs : n.seq = none) : n.events = [] := by
  match he : n.events with
  | [] => rfl
  | e :: es =>
    have := h.le e (by simp [he])
    simp [hs] at this
    omega

theorem add_events_seq (n : Node) (ss : List Stmt) (i : Bool) :
    (n.add_events ss i).seq.getD 0 = n.seq.getD 0 + ss.length := by
  cases ss <;> simp [Node.add_events]

theorem Numbered.add_events {n : Node} (h : Numbered n) (ss : List Stmt) (i : Bool) :
    Numbered (n.add_events ss i) := by
  refine ⟨?_, ?_, ?_, ?_⟩
  · show Increasing (n.events ++ numbered (n.seq.getD 0) i ss)
    unfold Increasing
    rw [List.pairwise_append]
    refine ⟨h.inc, numbered_increasing _ _ _, ?_⟩
    intro a ha b hb
    have h1 := (h.le a ha).2
    have h2 := (numbered_mem hb).1
    omega
  · intro e he
    rw [add_events_seq]
    change e ∈ n.events ++ numbered (n.seq.getD 0) i ss at he
    rcases List.mem_append.mp he with he | he
    · have := h.le e he; omega
    · have := numbered_mem he
      exact ⟨by omega, this.2.1⟩
  · intro kv hkv
    rw [add_events_seq]
    have := h.keys kv hkv
    omega
  · intro snap hs
    rw [add_events_seq]
    have := h.base snap hs
    omega

theorem Numbered.prune {n : Node} (h : Numbered n) (k : Nat) : Numbered (n.prune_events_to k) :=
  ⟨h.inc.sublist List.filter_sublist, fun e he => h.le e (List.mem_filter.mp he).1, h.keys, h.base⟩

theorem mem_set {α} {d : Dict Nat α} {k : Nat} {v : α} {kv : Nat × α} (h : kv ∈ Dict.set d k v) :
    kv ∈ d ∨ kv = (k, v) := by
  induction d with
  | nil => simp [Dict.set] at h; exact .inr h
  | cons x xs ih =>
    obtain ⟨a, b⟩ := x
    simp only [Dict.set] at h
    split at h
    · rename_i hak
      rcases List.mem_cons.mp h with h | h
      · right
        rw [h, eq_of_beq hak]
      · left; simp [h]
    · rcases List.mem_cons.mp h with h | h
      · left; simp [h]
      · rcases ih h with h | h
        · left; simp [h]
        · exact .inr h

/-- The database and the replica. -/
structure SameCore (n m : Node) : Prop where
  tables : m.tables = n.tables
  events : m.events = n.events
  seq : m.seq = n.seq
  mutations : m.mutations = n.mutations
  replica : m.replica = n.replica

theorem SameData.core {n m : Node} (h : SameData n m) : SameCore n m :=
  ⟨h.tables, h.events, h.seq, h.mutations, h.replica⟩

theorem sameCore_trans {a b c : Node} (h : SameCore a b) (g : SameCore b c) : SameCore a c :=
  ⟨g.tables.trans h.tables, g.events.trans h.events, g.seq.trans h.seq,
    g.mutations.trans h.mutations, g.replica.trans h.replica⟩

/-- The node with the statements of `ms` recorded. -/
def Node.recorded (n : Node) (ms : List Mutation) : Node :=
  n.add_events (ms.flatMap (·.stmts)) (ms.any (·.important))

theorem signal_core (env : RepEnv) (n : Node) (ms : List Mutation) :
    SameCore (n.recorded ms) (n.signal env ms) ∧
    ((n.signal env ms).activity = n.activity ∨
      n.activity = .idle ∧ ∃ m, SameCore (n.recorded ms) m ∧
        (n.signal env ms).activity = (m.run_jobs [.event_stream]).activity) := by
  unfold Node.signal
  by_cases hms : ms.isEmpty = true
  · rw [if_pos hms]
    have : ms = [] := List.isEmpty_iff.mp hms
    subst this
    exact ⟨⟨rfl, by simp [Node.recorded, Node.add_events, numbered],
      by simp [Node.recorded, Node.add_events], rfl, rfl⟩, .inl rfl⟩
  · rw [if_neg hms]
    dsimp only
    split
    · refine ⟨?_, ?_⟩
      · have h := (queue_job_data { (n.recorded ms) with
            important := n.important || ms.any (·.important)
            size := n.size + ((ms.flatMap (·.stmts)).map env.stmt_size).sum } .event_stream)
        exact ⟨h.tables, h.events, h.seq, h.mutations, h.replica⟩
      · rcases queue_job_activity { (n.recorded ms) with
            important := n.important || ms.any (·.important)
            size := n.size + ((ms.flatMap (·.stmts)).map env.stmt_size).sum } .event_stream
          with h | ⟨h1, h2⟩
        · exact .inl h
        · have h3 := congrArg Node.activity h2
          exact .inr ⟨h1, { (n.recorded ms) with
            important := n.important || ms.any (·.important)
            size := n.size + ((ms.flatMap (·.stmts)).map env.stmt_size).sum },
            ⟨rfl, rfl, rfl, rfl, rfl⟩, h3⟩
    · exact ⟨⟨rfl, rfl, rfl, rfl, rfl⟩, .inl rfl⟩

end ZKAP
