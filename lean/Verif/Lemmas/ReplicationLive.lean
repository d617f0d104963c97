import Verif.Lemmas.ReplicationProps

/-! If the grid answers, the replication service comes to rest. -/
namespace ZKAP
open Spec

def jobWeight : Job → Nat
  | .startup => 60
  | .event_stream => 40
  | .consider_snapshot => 20
  | .snapshot => 10

def actWeight : Activity → Nat
  | .off | .idle | .dead => 0
  | .startupListing => 55
  | .snapshotUploading _ _ false => 8
  | .snapshotUploading _ _ true => 7
  | .pruneListing _ => 6
  | .pruning _ _ => 5
  | .eventUploading _ _ false => 38
  | .eventUploading _ _ true => 37
  | .considerListing _ => 15

def jobsWeight (js : List Job) : Nat := (js.map jobWeight).sum

def nodeWeight (n : Node) : Nat := jobsWeight n.jobs + actWeight n.activity

theorem begin_weight {n : Node} {j : Job} {a : Activity} (h : n.begin j = some a) :
    actWeight a ≤ jobWeight j ∧ Running { n with activity := a } := by
  cases j <;> simp only [Node.begin] at h
  · injection h with h; subst h; exact ⟨by decide, by simp, by simp⟩
  · split at h
    · exact nomatch h
    · injection h with h; subst h; exact ⟨by simp [actWeight, jobWeight], by simp, by simp⟩
  · injection h with h; subst h; exact ⟨by simp [actWeight, jobWeight], by simp, by simp⟩
  · injection h with h; subst h; exact ⟨by simp [actWeight, jobWeight], by simp, by simp⟩

theorem run_jobs_weight (n : Node) (js : List Job) :
    nodeWeight (n.run_jobs js) ≤ jobsWeight js ∧ Running (n.run_jobs js) := by
  induction js with
  | nil => exact ⟨by simp [Node.run_jobs, nodeWeight, jobsWeight, actWeight], by simp [Node.run_jobs], by simp [Node.run_jobs]⟩
  | cons j js ih =>
    simp only [Node.run_jobs]
    split
    · rename_i a ha
      obtain ⟨h1, h2⟩ := begin_weight ha
      refine ⟨?_, h2⟩
      simp only [nodeWeight, jobsWeight, List.map_cons, List.sum_cons]
      omega
    · have hj : jobsWeight (j :: js) = jobWeight j + jobsWeight js := by simp [jobsWeight]
      exact ⟨by omega, ih.2⟩

theorem queue_jobs_weight (n : Node) (j : Job) (h : n.activity ≠ .idle) :
    jobsWeight (n.queue_job j).jobs ≤ jobsWeight n.jobs + jobWeight j := by
  unfold Node.queue_job
  split
  · omega
  · simp [jobsWeight]

theorem prune_done (env : RepEnv) (n : Node) (seqnum : Nat) (names : List Nat) (hne : names ≠ [])
    (ha : n.activity = .pruning seqnum names) :
    ∃ more, (∀ s ∈ more, IsAnswer s) ∧ nodeWeight (n.run env more) ≤ jobsWeight n.jobs ∧
      Running (n.run env more) ∧ ∀ k ns, (n.run env more).activity ≠ .pruning k ns := by
  induction names generalizing n with
  | nil => exact absurd rfl hne
  | cons k ks ih =>
    cases ks with
    | nil =>
      refine ⟨[.unlinked], by simp [IsAnswer], ?_⟩
      have : n.run env [.unlinked] = ({ n with replica := { n.replica with
          streams := n.replica.streams.filter (fun kv => kv.1 != k) } } : Node).next := by
        simp only [Node.run, List.foldl_cons, List.foldl_nil, Node.step, Node.unlinked, ha]
      rw [this]
      refine ⟨(run_jobs_weight _ _).1, (run_jobs_weight _ _).2, fun k' ns h => ?_⟩
      exact run_jobs_not_pruning _ _ (.inr ⟨k', ns, h⟩)
    | cons k2 ks =>
      have hstep : n.step env .unlinked = { n with
          replica := { n.replica with streams := n.replica.streams.filter (fun kv => kv.1 != k) }
          activity := .pruning seqnum (k2 :: ks) } := by
        simp only [Node.step, Node.unlinked, ha]
      obtain ⟨more, h1, h2, h3⟩ := ih (n.step env .unlinked) (by simp) (by rw [hstep])
      refine ⟨.unlinked :: more, ?_, ?_⟩
      · intro s hs
        rcases List.mem_cons.mp hs with rfl | hs
        · trivial
        · exact h1 s hs
      · have : n.run env (.unlinked :: more) = (n.step env .unlinked).run env more := rfl
        rw [this]
        rw [hstep] at h2 h3 ⊢
        exact ⟨h2, h3⟩

/-- Pruning always has something left to unlink. -/
def PruneOK (n : Node) : Prop := ∀ k, n.activity ≠ .pruning k []

theorem begin_prune {n : Node} (js : List Job) : PruneOK (n.run_jobs js) :=
  fun k h => run_jobs_not_pruning n js (.inr ⟨k, [], h⟩)

theorem signal_prune {env : RepEnv} {n : Node} (h : PruneOK n) (ms : List Mutation) :
    PruneOK (n.signal env ms) := by
  obtain ⟨_, ha⟩ := signal_core env n ms
  intro k
  rcases ha with ha | ⟨_, m, _, ha⟩
  · rw [ha]; exact h k
  · rw [ha]; exact begin_prune _ k

theorem step_prune {env : RepEnv} {n : Node} (h : PruneOK n) (s : RStep) : PruneOK (n.step env s) := by
  have hrestart : ∀ m : Node, PruneOK (m.restart env) := by
    intro m
    unfold Node.restart
    dsimp only
    split
    · rename_i h1
      intro k hk
      rw [show _ = Activity.off from h1] at hk
      exact nomatch hk
    · intro k hk; exact nomatch hk
  cases s with
  | enable =>
    simp only [Node.step]
    split
    · intro k hk; exact nomatch hk
    · exact h
  | call op =>
    simp only [Node.step, Node.call]
    split
    · exact h
    · exact signal_prune (n := { n with tables := _, mutations := [] }) h _
  | restart => exact hrestart n
  | crashedCall op =>
    simp only [Node.step, Node.crashed_call]
    split <;> exact hrestart _
  | listed =>
    simp only [Node.step, Node.listed]
    split
    · exact begin_prune _
    · split
      · exact begin_prune _
      · rename_i hne
        intro k hk
        injection hk with _ hk
        exact hne hk
    · exact begin_prune _
    · exact h
  | linked =>
    simp only [Node.step, Node.linked]
    split
    · intro k hk; exact nomatch hk
    · intro k hk; exact nomatch hk
    · exact h
  | uploaded =>
    simp only [Node.step, Node.uploaded]
    split
    · intro k hk; exact nomatch hk
    · exact begin_prune _
    · exact h
  | unlinked =>
    simp only [Node.step, Node.unlinked]
    split
    · split
      · exact begin_prune _
      · rename_i hne
        intro k hk
        injection hk with _ hk
        exact hne hk
    · exact h
  | failed =>
    simp only [Node.step, Node.failed]
    split
    · exact h
    · exact h
    · exact h
    · intro k hk; exact nomatch hk

theorem run_prune {env : RepEnv} {n : Node} (h : PruneOK n) (steps : List RStep) : PruneOK (n.run env steps) := by
  induction steps generalizing n with
  | nil => exact h
  | cons s ss ih => exact ih (step_prune h s)

/-- Some answers make progress. -/
theorem progress (env : RepEnv) (n : Node) (hr : Running n) (hp : PruneOK n) (hi : n.activity ≠ .idle) :
    ∃ more, (∀ s ∈ more, IsAnswer s) ∧ nodeWeight (n.run env more) < nodeWeight n ∧ Running (n.run env more) := by
  have one : ∀ s, IsAnswer s → nodeWeight (n.step env s) < nodeWeight n ∧ Running (n.step env s) →
      ∃ more, (∀ s ∈ more, IsAnswer s) ∧ nodeWeight (n.run env more) < nodeWeight n ∧ Running (n.run env more) := by
    intro s hs h
    exact ⟨[s], by simpa using hs, h⟩
  have hnext : ∀ (m : Node) (w : Nat), jobsWeight m.jobs ≤ w → w < nodeWeight n →
      nodeWeight m.next < nodeWeight n ∧ Running m.next := by
    intro m w h1 h2
    have := run_jobs_weight m m.jobs
    exact ⟨by have := this.1; unfold Node.next; omega, this.2⟩
  match ha : n.activity with
  | .off => exact absurd ha hr.1
  | .dead => exact absurd ha hr.2
  | .idle => exact absurd ha hi
  | .startupListing =>
    refine one .listed trivial ?_
    simp only [Node.step, Node.listed, ha]
    have hw : nodeWeight n = jobsWeight n.jobs + 55 := by simp [nodeWeight, ha, actWeight]
    split
    · exact hnext _ _ (queue_jobs_weight n _ hi) (by simp only [jobWeight]; omega)
    · split
      · exact hnext _ _ (queue_jobs_weight n _ hi) (by simp only [jobWeight]; omega)
      · exact hnext _ _ (Nat.le_refl _) (by omega)
  | .snapshotUploading snap k false =>
    refine one .linked trivial ?_
    simp only [Node.step, Node.linked, ha]
    exact ⟨by simp [nodeWeight, ha, actWeight], by simp, by simp⟩
  | .snapshotUploading snap k true =>
    refine one .uploaded trivial ?_
    simp only [Node.step, Node.uploaded, ha]
    exact ⟨by simp [nodeWeight, ha, actWeight, Node.prune_events_to], by simp, by simp⟩
  | .pruneListing k =>
    refine one .listed trivial ?_
    simp only [Node.step, Node.listed, ha]
    have hw : nodeWeight n = jobsWeight n.jobs + 6 := by simp [nodeWeight, ha, actWeight]
    split
    · exact hnext _ _ (Nat.le_refl _) (by omega)
    · refine ⟨?_, by simp, by simp⟩
      rw [hw]
      simp only [nodeWeight, actWeight]
      omega
  | .pruning k names =>
    obtain ⟨more, h1, h2, h3, _⟩ := prune_done env n k names (fun h => hp k (by rw [ha, h])) ha
    exact ⟨more, h1, by simp only [nodeWeight, ha, actWeight] at h2 ⊢; omega, h3⟩
  | .eventUploading evs high false =>
    refine one .linked trivial ?_
    simp only [Node.step, Node.linked, ha]
    exact ⟨by simp [nodeWeight, ha, actWeight], by simp, by simp⟩
  | .eventUploading evs high true =>
    refine one .uploaded trivial ?_
    simp only [Node.step, Node.uploaded, ha]
    have hw : nodeWeight n = jobsWeight n.jobs + 37 := by simp [nodeWeight, ha, actWeight]
    exact hnext _ _ (queue_jobs_weight (n.prune_events_to high) _ hi)
      (by simp only [jobWeight, Node.prune_events_to]; omega)
  | .considerListing snap =>
    refine one .listed trivial ?_
    simp only [Node.step, Node.listed, ha]
    have hw : nodeWeight n = jobsWeight n.jobs + 15 := by simp [nodeWeight, ha, actWeight]
    split
    · exact hnext _ _ (queue_jobs_weight n _ hi) (by simp only [jobWeight]; omega)
    · exact hnext _ _ (Nat.le_refl _) (by omega)

theorem comes_to_rest (env : RepEnv) (w : Nat) : ∀ (n : Node), nodeWeight n ≤ w → Running n → PruneOK n →
    ∃ more, (∀ s ∈ more, IsAnswer s) ∧ (n.run env more).activity = .idle := by
  induction w with
  | zero =>
    intro n hw hr hp
    by_cases hi : n.activity = .idle
    · exact ⟨[], by simp, hi⟩
    · obtain ⟨_, _, h, _⟩ := progress env n hr hp hi
      omega
  | succ w ih =>
    intro n hw hr hp
    by_cases hi : n.activity = .idle
    · exact ⟨[], by simp, hi⟩
    · obtain ⟨more, h1, h2, h3⟩ := progress env n hr hp hi
      obtain ⟨more', h4, h5⟩ := ih (n.run env more) (by omega) h3 (run_prune hp more)
      refine ⟨more ++ more', ?_, by rw [run_two]; exact h5⟩
      intro s hs
      rcases List.mem_append.mp hs with hs | hs
      · exact h1 s hs
      · exact h4 s hs

/-- An ended service stays ended until the process is started again. -/
theorem dead_stays {env : RepEnv} {n : Node} (h : n.activity = .dead) (s : RStep)
    (hs : s ≠ .restart) (hc : ∀ op, s ≠ .crashedCall op) :
    (n.step env s).activity = .dead ∧ ∀ e ∈ n.events, e ∈ (n.step env s).events := by
  refine ⟨?_, ?_⟩
  · cases s with
    | restart => exact absurd rfl hs
    | crashedCall op => exact absurd rfl (hc op)
    | call op =>
      simp only [Node.step, Node.call]
      split
      · exact h
      · rename_i t' _
        obtain ⟨_, ha⟩ := signal_core env { n with tables := t', mutations := [] }
          (if n.activity = .off then n.mutations else n.mutations ++ (op.prog.run n.tables).1)
        rcases ha with ha | ⟨ha, _⟩
        · exact ha.trans h
        · rw [h] at ha; exact nomatch ha
    | enable => simp [Node.step, h]
    | listed => simp [Node.step, Node.listed, h]
    | linked => simp [Node.step, Node.linked, h]
    | uploaded => simp [Node.step, Node.uploaded, h]
    | unlinked => simp [Node.step, Node.unlinked, h]
    | failed => simp [Node.step, Node.failed, h]
  · intro e he
    rcases step_grows env n s with ⟨i, ss, h1, _⟩ | rfl
    · rw [h1]; exact List.mem_append_left _ he
    · simp only [Node.step, Node.uploaded, h]; exact he

end ZKAP
