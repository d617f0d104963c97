import Verif.Lemmas.ReplicationAll

/-! What the queue of the replication service guarantees. -/
namespace ZKAP
open Spec

/-- `e` is covered by an upload that is queued or running, or will be by the start-up check. -/
def Covered (n : Node) (e : Change) : Prop :=
  .event_stream ∈ n.jobs ∨ .snapshot ∈ n.jobs ∨
  (InUpload e n.activity ∧ ∀ snap k l, n.activity = .snapshotUploading snap k l → e.sequence ≤ k) ∨
  (n.activity = .startupListing ∧ n.important = true)

structure CInv (n : Node) : Prop where
  g : GInv n
  cov : n.activity = .off ∨ n.activity = .dead ∨ ∀ e ∈ n.events, e.important = true → Covered n e
  snap : n.replica.snapshot = none → n.activity = .off ∨ n.activity = .startupListing ∨
    n.activity = .dead ∨ .snapshot ∈ n.jobs ∨ ∃ s k, n.activity = .snapshotUploading s k false
  pr : (∃ k, n.activity = .pruneListing k) ∨ (∃ k ns, n.activity = .pruning k ns) →
    n.replica.snapshot ≠ none
  idle : n.activity = .idle → n.jobs = []

theorem run_jobs_cover {n : Node} (h : Numbered n) (js : List Job)
    (hj : .event_stream ∈ js ∨ .snapshot ∈ js) : ∀ e ∈ n.events, Covered (n.run_jobs js) e := by
  induction js with
  | nil => simp at hj
  | cons j js ih =>
    intro e he
    cases j with
    | startup =>
      have hj' : Job.event_stream ∈ js ∨ Job.snapshot ∈ js := by simpa using hj
      simp only [Node.run_jobs, Node.begin]
      exact hj'.elim .inl (fun h => .inr (.inl h))
    | consider_snapshot =>
      have hj' : Job.event_stream ∈ js ∨ Job.snapshot ∈ js := by simpa using hj
      simp only [Node.run_jobs, Node.begin]
      exact hj'.elim .inl (fun h => .inr (.inl h))
    | snapshot =>
      simp only [Node.run_jobs, Node.begin]
      refine .inr (.inr (.inl ⟨he, ?_⟩))
      intro snap k l hs
      injection hs with _ hk _
      have h2 := (h.le e he).2
      rw [← hk]
      cases hseq : n.seq <;> simp [hseq] at h2 ⊢ <;> omega
    | event_stream =>
      simp only [Node.run_jobs, Node.begin]
      cases hh : highest_sequence n.events with
      | none => rw [highest_none hh] at he; simp at he
      | some high =>
        simp only
        refine .inr (.inr (.inl ⟨he, ?_⟩))
        intro snap k l hs
        exact nomatch hs

theorem run_jobs_snap (n : Node) (js : List Job) (hj : .snapshot ∈ js) :
    .snapshot ∈ (n.run_jobs js).jobs ∨ ∃ s k, (n.run_jobs js).activity = .snapshotUploading s k false := by
  induction js with
  | nil => simp at hj
  | cons j js ih =>
    cases j with
    | startup =>
      have hj' : Job.snapshot ∈ js := by simpa using hj
      simp only [Node.run_jobs, Node.begin]
      exact .inl hj'
    | consider_snapshot =>
      have hj' : Job.snapshot ∈ js := by simpa using hj
      simp only [Node.run_jobs, Node.begin]
      exact .inl hj'
    | snapshot => simp only [Node.run_jobs, Node.begin]; exact .inr ⟨_, _, rfl⟩
    | event_stream =>
      have hj' : Job.snapshot ∈ js := by simpa using hj
      simp only [Node.run_jobs, Node.begin]
      cases hh : highest_sequence n.events with
      | none => exact ih hj'
      | some high => exact .inl hj'

theorem run_jobs_not_pruning (n : Node) (js : List Job) :
    ¬ ((∃ k, (n.run_jobs js).activity = .pruneListing k) ∨
      (∃ k ns, (n.run_jobs js).activity = .pruning k ns)) := by
  rcases run_jobs_activity n js with ⟨h1, _⟩ | ⟨j, a, h1, h2⟩
  · rw [h1]; simp
  · rw [h2]
    cases j <;> simp only [Node.begin] at h1
    · injection h1 with h1; subst h1; simp
    · split at h1
      · exact nomatch h1
      · injection h1 with h1; subst h1; simp
    · injection h1 with h1; subst h1; simp
    · injection h1 with h1; subst h1; simp

theorem run_jobs_idle (n : Node) (js : List Job) (h : (n.run_jobs js).activity = .idle) :
    (n.run_jobs js).jobs = [] := by
  rcases run_jobs_activity n js with ⟨_, h2⟩ | ⟨j, a, h1, h2⟩
  · exact h2
  · rw [h2] at h
    subst h
    cases j <;> simp only [Node.begin] at h1
    · exact nomatch h1
    · split at h1 <;> exact nomatch h1
    · exact nomatch h1
    · exact nomatch h1

theorem run_event_activity (n : Node) :
    (n.run_jobs [.event_stream]).activity = .idle ∨
    ∃ evs high, (n.run_jobs [.event_stream]).activity = .eventUploading evs high false := by
  simp only [Node.run_jobs, Node.begin]
  cases highest_sequence n.events with
  | none => exact .inl rfl
  | some high => exact .inr ⟨_, _, rfl⟩

/-- Taking jobs when something that includes every important event is queued, and a snapshot
is queued if there is none. -/
theorem run_jobs_c {n : Node} (h : Numbered n) (js : List Job)
    (hc : (.event_stream ∈ js ∨ .snapshot ∈ js) ∨ ∀ e ∈ n.events, e.important = false)
    (hs : n.replica.snapshot = none → .snapshot ∈ js) : CInv (n.run_jobs js) := by
  have c := run_jobs_data n js
  refine ⟨run_jobs_g h js, .inr (.inr ?_), ?_, fun hp => absurd hp (run_jobs_not_pruning n js),
    run_jobs_idle n js⟩
  · intro e he hi
    rw [c.events] at he
    rcases hc with hc | hc
    · exact run_jobs_cover h js hc e he
    · rw [hc e he] at hi; exact absurd hi (by simp)
  · intro hn
    rw [c.replica] at hn
    rcases run_jobs_snap n js (hs hn) with h1 | h1
    · exact .inr (.inr (.inr (.inl h1)))
    · exact .inr (.inr (.inr (.inr h1)))

theorem mem_queue (n : Node) (j : Job) (h : n.activity ≠ .idle) : j ∈ (n.queue_job j).jobs := by
  unfold Node.queue_job
  split
  · assumption
  · simp [h]

theorem queue_not_idle (n : Node) (j : Job) (h : n.activity ≠ .idle) :
    (n.queue_job j).activity = n.activity := by
  rcases queue_job_activity n j with h1 | ⟨h1, _⟩
  · exact h1
  · exact absurd h1 h

theorem queue_mono (n : Node) (j i : Job) (h : n.activity ≠ .idle) (hi : i ∈ n.jobs) :
    i ∈ (n.queue_job j).jobs := by
  unfold Node.queue_job
  split
  · exact hi
  · simp [h, hi]

/-- Replacing the tables or the mutations does not matter. -/
theorem CInv.same {n m : Node} (h : CInv n) (he : m.events = n.events) (hs : m.seq = n.seq)
    (hr : m.replica = n.replica) (ha : m.activity = n.activity) (hj : m.jobs = n.jobs)
    (hi : m.important = n.important) : CInv m := by
  refine ⟨⟨h.g.num.of_same he hs hr, ?_⟩, ?_, ?_, ?_, by rw [ha, hj]; exact h.idle⟩
  · have := h.g.act
    rw [ha]
    cases hac : n.activity <;> simp only [hac, ActG] at this ⊢ <;> simpa only [he, hs, hr] using this
  · simpa only [Covered, ha, hj, hi, he] using h.cov
  · simpa only [hr, ha, hj] using h.snap
  · simpa only [hr, ha] using h.pr

theorem signal_c {env : RepEnv} {n : Node} (h : CInv n) (hoff : n.activity ≠ .off ∨ ms = []) : CInv (n.signal env ms) := by
  unfold Node.signal
  by_cases hms : ms.isEmpty = true
  · rw [if_pos hms]; exact h
  · rw [if_neg hms]
    have hoff : n.activity ≠ .off := by
      rcases hoff with h1 | h1
      · exact h1
      · subst h1; exact absurd rfl hms
    dsimp only
    have hnum : Numbered (n.recorded ms) := h.g.num.add_events _ _
    generalize hn1 : ({ n.add_events (ms.flatMap (·.stmts)) (ms.any (·.important)) with
      important := (n.add_events (ms.flatMap (·.stmts)) (ms.any (·.important))).important || ms.any (·.important)
      size := (n.add_events (ms.flatMap (·.stmts)) (ms.any (·.important))).size +
        ((ms.flatMap (·.stmts)).map env.stmt_size).sum } : Node) = n1
    have e1 : n1.events = n.events ++ numbered (n.seq.getD 0) (ms.any (·.important)) (ms.flatMap (·.stmts)) := by
      subst hn1; rfl
    have e2 : n1.replica = n.replica := by subst hn1; rfl
    have e3 : n1.activity = n.activity := by subst hn1; rfl
    have e4 : n1.jobs = n.jobs := by subst hn1; rfl
    have e5 : n1.important = (n.important || ms.any (·.important)) := by subst hn1; rfl
    have hcore : SameCore (n.recorded ms) n1 := by subst hn1; exact ⟨rfl, rfl, rfl, rfl, rfl⟩
    have hnum1 : Numbered n1 := hnum.core hcore
    have hg1 : GInv n1 := ⟨hnum1, by rw [e3]; exact (recorded_actG h.g.act h.g.num ms).core hcore⟩
    have hsnap1 : n1.replica.snapshot = none → n1.activity = .off ∨ n1.activity = .startupListing ∨
        n1.activity = .dead ∨ .snapshot ∈ n1.jobs ∨ ∃ s k, n1.activity = .snapshotUploading s k false := by
      simpa only [e2, e3, e4] using h.snap
    split
    · -- an upload is queued
      by_cases hidle : n1.activity = .idle
      · have hjobs : n1.jobs = [] := by rw [e4]; exact h.idle (e3 ▸ hidle)
        have hne : n1.replica.snapshot ≠ none := by
          intro hn
          have := hsnap1 hn
          rw [hidle, hjobs] at this
          simp at this
        have hq : n1.queue_job .event_stream = n1.run_jobs [.event_stream] := by
          unfold Node.queue_job; rw [if_neg (by simp [hjobs]), if_pos hidle]
        rw [hq]
        have hg := run_jobs_g hnum1 [.event_stream]
        have hcov := run_jobs_cover hnum1 [.event_stream] (.inl (by simp))
        have hd := run_jobs_data n1 [.event_stream]
        have hact := run_event_activity n1
        refine ⟨⟨hg.num.of_same rfl rfl rfl, ?_⟩, .inr (.inr ?_), ?_, ?_, run_jobs_idle n1 _⟩
        · rcases hact with ha | ⟨evs, high, ha⟩
          · show ActG _ (n1.run_jobs [.event_stream]).activity
            rw [ha]; trivial
          · have := hg.act
            refine ActG.core this ?_
            exact ⟨rfl, rfl, rfl, rfl, rfl⟩
        · intro e he _
          have he : e ∈ (n1.run_jobs [.event_stream]).events := he
          rw [hd.events] at he
          rcases hcov e he with h1 | h1 | h1 | h1
          · exact .inl h1
          · exact .inr (.inl h1)
          · exact .inr (.inr (.inl h1))
          · rcases hact with ha | ⟨evs, high, ha⟩ <;> rw [ha] at h1 <;> exact nomatch h1.1
        · intro hn
          have hn : (n1.run_jobs [.event_stream]).replica.snapshot = none := hn
          rw [hd.replica] at hn
          exact absurd hn hne
        · intro hp
          exact absurd hp (run_jobs_not_pruning n1 _)
      · have hd := queue_job_data n1 .event_stream
        have hact := queue_not_idle n1 .event_stream hidle
        have hmem := mem_queue n1 .event_stream hidle
        refine ⟨⟨(queue_job_g hg1 _).num.of_same rfl rfl rfl, ?_⟩,
          .inr (.inr fun e _ _ => .inl hmem), ?_, ?_, ?_⟩
        · exact ActG.core (queue_job_g hg1 _).act ⟨rfl, rfl, rfl, rfl, rfl⟩
        · show (n1.queue_job .event_stream).replica.snapshot = none →
            (n1.queue_job .event_stream).activity = .off ∨ (n1.queue_job .event_stream).activity = .startupListing ∨
            (n1.queue_job .event_stream).activity = .dead ∨ .snapshot ∈ (n1.queue_job .event_stream).jobs ∨
            ∃ s k, (n1.queue_job .event_stream).activity = .snapshotUploading s k false
          rw [hd.replica, hact]
          intro hn
          rcases hsnap1 hn with h1 | h1 | h1 | h1 | h1
          · exact .inl h1
          · exact .inr (.inl h1)
          · exact .inr (.inr (.inl h1))
          · exact .inr (.inr (.inr (.inl (queue_mono n1 _ _ hidle h1))))
          · exact .inr (.inr (.inr (.inr h1)))
        · show (∃ k, (n1.queue_job .event_stream).activity = .pruneListing k) ∨
            (∃ k ns, (n1.queue_job .event_stream).activity = .pruning k ns) →
            (n1.queue_job .event_stream).replica.snapshot ≠ none
          rw [hd.replica, hact, e2, e3]
          exact h.pr
        · show (n1.queue_job .event_stream).activity = .idle → _
          rw [hact]
          exact fun hc => absurd hc hidle
    · -- nothing important, not much
      rename_i hsh
      have hsh : ¬ should_upload_eventstream n1.important n1.size = true := by subst hn1; exact hsh
      have himp : n1.important = false := by
        cases hi : n1.important with
        | false => rfl
        | true => rw [hi] at hsh; exact absurd rfl hsh
      rw [e5] at himp
      have himp' : n.important = false ∧ ms.any (·.important) = false := by
        simpa using himp
      refine ⟨hg1, ?_, hsnap1, by rw [e2, e3]; exact h.pr, by rw [e3, e4]; exact h.idle⟩
      rw [e3]
      rcases h.cov with h1 | h1 | h1
      · exact .inl h1
      · exact .inr (.inl h1)
      · refine .inr (.inr ?_)
        intro e he hi
        rw [e1] at he
        rcases List.mem_append.mp he with he | he
        · have := h1 e he hi
          unfold Covered at this ⊢
          rw [e3, e4]
          rcases this with h2 | h2 | h2 | h2
          · exact .inl h2
          · exact .inr (.inl h2)
          · exact .inr (.inr (.inl h2))
          · rw [himp'.1] at h2; exact absurd h2.2 (by simp)
        · have := (numbered_mem he).2.2
          rw [himp'.2] at this
          rw [this] at hi; exact absurd hi (by simp)

theorem call_c {env : RepEnv} {n : Node} (h : CInv n) (op : StoreOp)
    (hm : n.activity = .off → n.mutations = []) : CInv (n.call env op).2 := by
  unfold Node.call
  dsimp only
  split
  · exact h.same rfl rfl rfl rfl rfl rfl
  · apply signal_c (n := { n with tables := _, mutations := [] }) (h.same rfl rfl rfl rfl rfl rfl)
    by_cases hoff : n.activity = .off
    · right; rw [if_pos hoff]; exact hm hoff
    · exact .inl hoff

theorem start_c {env : RepEnv} {n : Node} (h : Numbered n) : CInv (n.start_service env) := by
  refine ⟨start_g h, .inr (.inr ?_), fun _ => .inr (.inl rfl), by simp [Node.start_service], by simp [Node.start_service]⟩
  intro e he hi
  refine .inr (.inr (.inr ⟨rfl, ?_⟩))
  show n.events.any (·.important) = true
  rw [List.any_eq_true]
  exact ⟨e, he, hi⟩

theorem restart_c {env : RepEnv} {n : Node} (h : CInv n) : CInv (n.restart env) := by
  unfold Node.restart
  dsimp only
  split
  · exact h.same rfl rfl rfl rfl rfl rfl
  · exact start_c (h.g.num.of_same rfl rfl rfl)

/-- The end of a job of which nothing is left to do. -/
theorem next_c {n : Node} (h : Numbered n)
    (hc : ∀ e ∈ n.events, e.important = true → .event_stream ∈ n.jobs ∨ .snapshot ∈ n.jobs)
    (hs : n.replica.snapshot = none → .snapshot ∈ n.jobs) : CInv n.next := by
  apply run_jobs_c h _ _ hs
  by_cases h1 : ∃ e ∈ n.events, e.important = true
  · obtain ⟨e, he, hi⟩ := h1
    exact .inl (hc e he hi)
  · right
    intro e he
    cases hi : e.important with
    | false => rfl
    | true => exact absurd ⟨e, he, hi⟩ h1

theorem listed_c {env : RepEnv} {n : Node} (h : CInv n) : CInv (n.listed env) := by
  unfold Node.listed
  split
  · rename_i ha
    have hni : n.activity ≠ .idle := by rw [ha]; simp
    split
    · rename_i hnone
      have hd := queue_job_data n .snapshot
      have hmem := mem_queue n .snapshot hni
      exact next_c (queue_job_g h.g _).num (fun e _ _ => .inr hmem) (fun _ => hmem)
    · rename_i hsome
      split
      · have hd := queue_job_data n .event_stream
        have hmem := mem_queue n .event_stream hni
        exact next_c (queue_job_g h.g _).num (fun e _ _ => .inl hmem)
          (fun hn => absurd (hd.replica ▸ hn) hsome)
      · rename_i hsh
        refine next_c h.g.num ?_ (fun hn => absurd hn hsome)
        intro e he hi
        rcases h.cov with h1 | h1 | h1
        · rw [ha] at h1; exact nomatch h1
        · rw [ha] at h1; exact nomatch h1
        · rcases h1 e he hi with h2 | h2 | h2 | h2
          · exact .inl h2
          · exact .inr h2
          · rw [ha] at h2; exact h2.1.elim
          · rw [h2.2] at hsh; exact absurd rfl hsh
  · rename_i k ha
    have hsome := h.pr (.inl ⟨k, ha⟩)
    have hc : ∀ e ∈ n.events, e.important = true → .event_stream ∈ n.jobs ∨ .snapshot ∈ n.jobs := by
      intro e he hi
      rcases h.cov with h1 | h1 | h1
      · rw [ha] at h1; exact nomatch h1
      · rw [ha] at h1; exact nomatch h1
      · rcases h1 e he hi with h2 | h2 | h2 | h2
        · exact .inl h2
        · exact .inr h2
        · rw [ha] at h2; exact h2.1.elim
        · rw [ha] at h2; exact nomatch h2.1
    split
    · exact next_c h.g.num hc (fun hn => absurd hn hsome)
    · refine ⟨⟨h.g.num.of_same rfl rfl rfl, trivial⟩, .inr (.inr ?_), fun hn => absurd hn hsome, fun _ => hsome, by simp⟩
      intro e he hi
      exact (hc e he hi).elim .inl (fun x => .inr (.inl x))
  · rename_i snap ha
    have hni : n.activity ≠ .idle := by rw [ha]; simp
    have hc : ∀ e ∈ n.events, e.important = true → .event_stream ∈ n.jobs ∨ .snapshot ∈ n.jobs := by
      intro e he hi
      rcases h.cov with h1 | h1 | h1
      · rw [ha] at h1; exact nomatch h1
      · rw [ha] at h1; exact nomatch h1
      · rcases h1 e he hi with h2 | h2 | h2 | h2
        · exact .inl h2
        · exact .inr h2
        · rw [ha] at h2; exact h2.1.elim
        · rw [ha] at h2; exact nomatch h2.1
    split
    · have hd := queue_job_data n .snapshot
      have hmem := mem_queue n .snapshot hni
      exact next_c (queue_job_g h.g _).num (fun e _ _ => .inr hmem) (fun _ => hmem)
    · refine next_c h.g.num hc (fun hn => ?_)
      have := h.snap hn
      rw [ha] at this
      simpa using this
  · exact h

theorem linked_c {env : RepEnv} {n : Node} (h : CInv n) : CInv n.linked := by
  have hg : GInv n.linked := step_g (env := env) h.g .linked
  unfold Node.linked at hg ⊢
  split
  · rename_i snap k ha
    simp only [ha] at hg
    refine ⟨hg, .inr (.inr ?_), ?_, by simp, by simp⟩
    · intro e he hi
      rcases h.cov with h1 | h1 | h1
      · rw [ha] at h1; exact nomatch h1
      · rw [ha] at h1; exact nomatch h1
      · rcases h1 e he hi with h2 | h2 | h2 | h2
        · exact .inl h2
        · exact .inr (.inl h2)
        · rw [ha] at h2
          refine .inr (.inr (.inl ⟨h2.1, ?_⟩))
          intro s k' l hs
          injection hs with _ hk _
          rw [← hk]; exact h2.2 snap k false rfl
        · rw [ha] at h2; exact nomatch h2.1
    · intro hn; exact nomatch hn
  · rename_i evs high ha
    simp only [ha] at hg
    refine ⟨hg, .inr (.inr ?_), ?_, by simp, by simp⟩
    · intro e he hi
      rcases h.cov with h1 | h1 | h1
      · rw [ha] at h1; exact nomatch h1
      · rw [ha] at h1; exact nomatch h1
      · rcases h1 e he hi with h2 | h2 | h2 | h2
        · exact .inl h2
        · exact .inr (.inl h2)
        · rw [ha] at h2
          refine .inr (.inr (.inl ⟨h2.1, ?_⟩))
          intro s k' l hs
          exact nomatch hs
        · rw [ha] at h2; exact nomatch h2.1
    · intro hn
      have hn : n.replica.snapshot = none := hn
      have := h.snap hn
      rw [ha] at this
      refine .inr (.inr (.inr (.inl ?_)))
      simpa using this
  · exact h

theorem uploaded_c {n : Node} (h : CInv n) : CInv n.uploaded := by
  unfold Node.uploaded
  split
  · rename_i snap k ha
    have hact := h.g.act
    rw [ha] at hact
    have hsome : n.replica.snapshot ≠ none := by rw [hact.2.2.2 rfl]; simp
    refine ⟨⟨(h.g.num.prune _).of_same rfl rfl rfl, trivial⟩, .inr (.inr ?_), fun hn => absurd hn hsome,
      fun _ => hsome, by simp⟩
    intro e he hi
    have he : e ∈ n.events.filter (fun e => decide (k < e.sequence)) := he
    rw [List.mem_filter] at he
    have hlt : k < e.sequence := by simpa using he.2
    rcases h.cov with h1 | h1 | h1
    · rw [ha] at h1; exact nomatch h1
    · rw [ha] at h1; exact nomatch h1
    · rcases h1 e he.1 hi with h2 | h2 | h2 | h2
      · exact .inl h2
      · exact .inr (.inl h2)
      · have := h2.2 snap k true ha; omega
      · rw [ha] at h2; exact nomatch h2.1
  · rename_i evs high ha
    have hact := h.g.act
    rw [ha] at hact
    have hni : (n.prune_events_to high).activity ≠ .idle := by
      show n.activity ≠ .idle
      rw [ha]; simp
    have hd := queue_job_data (n.prune_events_to high) .consider_snapshot
    refine next_c ((h.g.num.prune _).core hd.core) ?_ ?_
    · intro e he hi
      rw [hd.events] at he
      have he : e ∈ n.events.filter (fun e => decide (high < e.sequence)) := he
      rw [List.mem_filter] at he
      have hlt : high < e.sequence := by simpa using he.2
      rcases h.cov with h1 | h1 | h1
      · rw [ha] at h1; exact nomatch h1
      · rw [ha] at h1; exact nomatch h1
      · rcases h1 e he.1 hi with h2 | h2 | h2 | h2
        · exact .inl (queue_mono _ _ _ hni h2)
        · exact .inr (queue_mono _ _ _ hni h2)
        · have h3 := h2.1
          rw [ha] at h3
          have := (highest_some hact.1).2.1 e h3
          omega
        · rw [ha] at h2; exact nomatch h2.1
    · intro hn
      rw [hd.replica] at hn
      have hn : n.replica.snapshot = none := hn
      have := h.snap hn
      rw [ha] at this
      have h5 : Job.snapshot ∈ n.jobs := by simpa using this
      exact queue_mono _ _ _ hni h5
  · exact h

theorem unlinked_c {n : Node} (h : CInv n) : CInv n.unlinked := by
  unfold Node.unlinked
  split
  · rename_i seqnum k ks ha
    have hsome := h.pr (.inr ⟨_, _, ha⟩)
    have hnum : Numbered { n with replica := { n.replica with streams := n.replica.streams.filter (fun kv => kv.1 != k) } } :=
      ⟨h.g.num.inc, h.g.num.le, fun kv hkv => h.g.num.keys kv (List.mem_filter.mp hkv).1, h.g.num.base⟩
    have hc : ∀ e ∈ n.events, e.important = true → .event_stream ∈ n.jobs ∨ .snapshot ∈ n.jobs := by
      intro e he hi
      rcases h.cov with h1 | h1 | h1
      · rw [ha] at h1; exact nomatch h1
      · rw [ha] at h1; exact nomatch h1
      · rcases h1 e he hi with h2 | h2 | h2 | h2
        · exact .inl h2
        · exact .inr h2
        · rw [ha] at h2; exact h2.1.elim
        · rw [ha] at h2; exact nomatch h2.1
    dsimp only
    split
    · exact next_c hnum hc (fun hn => absurd hn hsome)
    · exact ⟨⟨hnum.of_same rfl rfl rfl, trivial⟩,
        .inr (.inr fun e he hi => (hc e he hi).elim .inl (fun x => .inr (.inl x))),
        fun hn => absurd hn hsome, fun _ => hsome, by simp⟩
  · exact h

theorem failed_c {n : Node} (h : CInv n) : CInv n.failed := by
  unfold Node.failed
  split
  · exact h
  · exact h
  · exact h
  · exact ⟨⟨h.g.num.of_same rfl rfl rfl, trivial⟩, .inr (.inl rfl), fun _ => .inr (.inr (.inl rfl)), by simp, by simp⟩

/-- Nothing is recorded while replication is off. -/
def OffClean (n : Node) : Prop := n.activity = .off → n.mutations = []

theorem run_jobs_not_off (n : Node) (js : List Job) : (n.run_jobs js).activity ≠ .off := by
  rcases run_jobs_activity n js with ⟨h1, _⟩ | ⟨j, a, h1, h2⟩
  · rw [h1]; simp
  · rw [h2]
    cases j <;> simp only [Node.begin] at h1
    · injection h1 with h1; subst h1; simp
    · split at h1
      · exact nomatch h1
      · injection h1 with h1; subst h1; simp
    · injection h1 with h1; subst h1; simp
    · injection h1 with h1; subst h1; simp

theorem step_off {env : RepEnv} {n : Node} (s : RStep) (h : (n.step env s).activity = .off) :
    n.activity = .off := by
  by_cases hoff : n.activity = .off
  · exact hoff
  · exfalso
    cases s with
    | enable => simp only [Node.step, if_neg hoff] at h; exact hoff h
    | call op =>
      simp only [Node.step, Node.call] at h
      split at h
      · exact hoff h
      · obtain ⟨_, ha⟩ := signal_core env { n with tables := _, mutations := [] }
          (if n.activity = .off then n.mutations else n.mutations ++ (op.prog.run n.tables).1)
        rcases ha with ha | ⟨_, m, _, ha⟩
        · exact hoff (ha.symm.trans h)
        · exact run_jobs_not_off m _ (ha.symm.trans h)
    | restart =>
      simp only [Node.step, Node.restart, if_neg hoff, Node.start_service] at h
      exact nomatch h
    | crashedCall op =>
      simp only [Node.step, Node.crashed_call] at h
      split at h <;> simp only [Node.restart, if_neg hoff, Node.start_service] at h <;> exact nomatch h
    | listed =>
      simp only [Node.step, Node.listed] at h
      split at h
      · exact run_jobs_not_off _ _ h
      · split at h
        · exact run_jobs_not_off _ _ h
        · exact nomatch h
      · exact run_jobs_not_off _ _ h
      · exact hoff h
    | linked =>
      simp only [Node.step, Node.linked] at h
      split at h
      · exact nomatch h
      · exact nomatch h
      · exact hoff h
    | uploaded =>
      simp only [Node.step, Node.uploaded] at h
      split at h
      · exact nomatch h
      · exact run_jobs_not_off _ _ h
      · exact hoff h
    | unlinked =>
      simp only [Node.step, Node.unlinked] at h
      split at h
      · split at h
        · exact run_jobs_not_off _ _ h
        · exact nomatch h
      · exact hoff h
    | failed =>
      simp only [Node.step, Node.failed] at h
      split at h
      · exact hoff h
      · exact hoff h
      · exact hoff h
      · exact nomatch h

theorem offClean_step {env : RepEnv} {n : Node} (h : OffClean n) (s : RStep) :
    OffClean (n.step env s) := by
  intro hoff
  have hn := step_off s hoff
  have hm := h hn
  cases s with
  | enable => simp only [Node.step, if_pos hn, Node.start_service] at hoff; exact nomatch hoff
  | call op =>
    simp only [Node.step, Node.call]
    split
    · simp [hn, hm]
    · rw [(signal_core env _ _).1.mutations]; rfl
  | restart => simp only [Node.step, Node.restart, if_pos hn]
  | crashedCall op =>
    simp only [Node.step, Node.crashed_call]
    split <;> simp only [Node.restart, if_pos hn]
  | listed => simp only [Node.step, Node.listed, hn]; exact hm
  | linked => simp only [Node.step, Node.linked, hn]; exact hm
  | uploaded => simp only [Node.step, Node.uploaded, hn]; exact hm
  | unlinked => simp only [Node.step, Node.unlinked, hn]; exact hm
  | failed => simp only [Node.step, Node.failed, hn]; exact hm

theorem step_c {env : RepEnv} {n : Node} (h : CInv n) (ho : OffClean n) (s : RStep) :
    CInv (n.step env s) := by
  cases s with
  | enable =>
    simp only [Node.step]
    split
    · exact start_c h.g.num
    · exact h
  | call op => exact call_c h op ho
  | restart => exact restart_c h
  | crashedCall op =>
    simp only [Node.step, Node.crashed_call]
    split
    · exact restart_c h
    · exact restart_c (h.same rfl rfl rfl rfl rfl rfl)
  | listed => exact listed_c h
  | linked => exact linked_c (env := env) h
  | uploaded => exact uploaded_c h
  | unlinked => exact unlinked_c h
  | failed => exact failed_c h

theorem fresh_c {n : Node} (h : Fresh n) : CInv n :=
  ⟨fresh_g h, .inl h.off, fun _ => .inl h.off, by rw [h.off]; simp, by rw [h.off]; simp⟩

theorem run_c {env : RepEnv} {n : Node} (h : CInv n) (ho : OffClean n) (steps : List RStep) :
    CInv (n.run env steps) := by
  induction steps generalizing n with
  | nil => exact h
  | cons s ss ih => exact ih (step_c h ho s) (offClean_step ho s)

end ZKAP
