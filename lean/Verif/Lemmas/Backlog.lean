import Verif.Spec.Backlog
import Verif.Lemmas.ReplicationJobs

/-! The amount of changes that wait without an upload being on its way is bounded. -/
namespace ZKAP
open Spec

theorem sum_sublist {l r : List Nat} (h : List.Sublist l r) : l.sum ≤ r.sum := by
  induction h with
  | slnil => exact Nat.le_refl _
  | cons a _ ih => simp only [List.sum_cons]; omega
  | cons_cons a _ ih => simp only [List.sum_cons]; omega

theorem textLength_sublist (env : RepEnv) {l r : List Change} (h : List.Sublist l r) :
    textLength env l ≤ textLength env r := sum_sublist (h.map _)

theorem textLength_append (env : RepEnv) (l r : List Change) :
    textLength env (l ++ r) = textLength env l + textLength env r := by
  simp only [textLength, List.map_append, List.sum_append]

theorem textLength_numbered (env : RepEnv) (start : Nat) (i : Bool) (ss : List Stmt) :
    textLength env (numbered start i ss) = (ss.map env.stmt_size).sum := by
  induction ss generalizing start with
  | nil => rfl
  | cons s ss ih =>
    have := ih (start + 1)
    simp only [textLength] at this
    simp only [numbered, textLength, List.map_cons, List.sum_cons, this]

/-- What waits is at most what has been counted, and that is not much. -/
def Small (env : RepEnv) (n : Node) : Prop :=
  textLength env (unsent n) ≤ n.size ∧
    (n.size < 570000 ∨ n.activity = .startupListing ∨ textLength env (unsent n) = 0)

/-- The invariant. -/
structure BInv (env : RepEnv) (n : Node) : Prop where
  g : GInv n
  /-- A snapshot has no changes with larger numbers than the one it is named after. -/
  snap : ∀ s k l, n.activity = .snapshotUploading s k l → ∀ e ∈ s.events, e.sequence ≤ k
  bound : n.activity = .off ∨ n.activity = .dead ∨ .event_stream ∈ n.jobs ∨ .snapshot ∈ n.jobs ∨ Small env n
  idle : n.activity = .idle → n.jobs = []

theorem unsent_le (env : RepEnv) (n : Node) : textLength env (unsent n) ≤ textLength env n.events :=
  textLength_sublist env List.filter_sublist

theorem unsent_all {n : Node} (h : sending n.activity = n.events) : unsent n = [] := by
  unfold unsent
  rw [h, List.filter_eq_nil_iff]
  intro e he
  simpa using he

theorem unsent_none {n : Node} (h : sending n.activity = []) : unsent n = n.events := by
  unfold unsent
  rw [h, List.filter_eq_self]
  intro e _
  rfl

theorem run_jobs_size (n : Node) (js : List Job) : (n.run_jobs js).size = n.size := by
  induction js with
  | nil => rfl
  | cons j js ih =>
    simp only [Node.run_jobs]
    cases n.begin j with
    | none => exact ih
    | some a => rfl

/-- What taking jobs leaves. -/
theorem run_jobs_b {env : RepEnv} {n : Node} (h : Numbered n) (js : List Job)
    (hb : .event_stream ∈ js ∨ .snapshot ∈ js ∨
      (textLength env n.events ≤ n.size ∧ (n.size < 570000 ∨ textLength env n.events = 0))) :
    BInv env (n.run_jobs js) := by
  refine ⟨run_jobs_g h js, ?_, .inr (.inr ?_), run_jobs_idle n js⟩
  · intro s k l ha
    rcases run_jobs_activity n js with ⟨h1, _⟩ | ⟨j, a, h1, h2⟩
    · rw [h1] at ha; exact nomatch ha
    · rw [h2] at ha
      subst ha
      cases j <;> simp only [Node.begin] at h1
      · exact nomatch h1
      · split at h1 <;> exact nomatch h1
      · injection h1 with h1
        injection h1 with e1 e2 e3
        subst e1 e2
        intro e he
        have h2 := (h.le e he).2
        cases hseq : n.seq <;> simp [hseq] at h2 ⊢ <;> omega
      · exact nomatch h1
  · induction js with
    | nil =>
      rcases hb with hb | hb | hb
      · exact nomatch hb
      · exact nomatch hb
      · refine .inr (.inr ?_)
        have : unsent (n.run_jobs []) = n.events := unsent_none rfl
        unfold Small
        rw [this]
        exact ⟨hb.1, hb.2.imp id .inr⟩
    | cons j js ih =>
      cases hj : n.begin j with
      | none =>
        have hj' : j = .event_stream ∧ n.events = [] := by
          cases j <;> simp only [Node.begin] at hj
          · exact nomatch hj
          · split at hj
            · rename_i hh; exact ⟨rfl, highest_none hh⟩
            · exact nomatch hj
          · exact nomatch hj
          · exact nomatch hj
        simp only [Node.run_jobs, hj]
        apply ih
        refine .inr (.inr ?_)
        have : textLength env n.events = 0 := by rw [hj'.2]; rfl
        exact ⟨by omega, .inr this⟩
      | some a =>
        simp only [Node.run_jobs, hj]
        have hz : sending a = n.events → Small env { n with jobs := js, activity := a } := by
          intro hs
          have := unsent_all (n := { n with jobs := js, activity := a }) hs
          unfold Small
          rw [this]
          exact ⟨Nat.zero_le _, .inr (.inr rfl)⟩
        have hkeep : j ≠ .event_stream → j ≠ .snapshot → sending a = [] →
            Job.event_stream ∈ js ∨ Job.snapshot ∈ js ∨ Small env { n with jobs := js, activity := a } := by
          intro h1 h2 h3
          rcases hb with hb | hb | hb
          · rcases List.mem_cons.1 hb with hb | hb
            · exact absurd hb.symm h1
            · exact .inl hb
          · rcases List.mem_cons.1 hb with hb | hb
            · exact absurd hb.symm h2
            · exact .inr (.inl hb)
          · refine .inr (.inr ?_)
            have := unsent_none (n := { n with jobs := js, activity := a }) h3
            unfold Small
            rw [this]
            exact ⟨hb.1, hb.2.imp id .inr⟩
        cases j <;> simp only [Node.begin] at hj
        · injection hj with hj; subst hj; exact hkeep (by simp) (by simp) rfl
        · split at hj
          · exact nomatch hj
          · injection hj with hj; subst hj; exact .inr (.inr (hz rfl))
        · injection hj with hj; subst hj; exact .inr (.inr (hz rfl))
        · injection hj with hj; subst hj; exact hkeep (by simp) (by simp) rfl

theorem BInv.same {env : RepEnv} {n m : Node} (h : BInv env n) (he : m.events = n.events) (hs : m.seq = n.seq)
    (hr : m.replica = n.replica) (ha : m.activity = n.activity) (hj : m.jobs = n.jobs)
    (hz : m.size = n.size) : BInv env m := by
  refine ⟨⟨h.g.num.of_same he hs hr, ?_⟩, by rw [ha]; exact h.snap, ?_, by rw [ha, hj]; exact h.idle⟩
  · have := h.g.act
    rw [ha]
    cases hac : n.activity <;> simp only [hac, ActG] at this ⊢ <;> simpa only [he, hs, hr] using this
  · simpa only [Small, unsent, ha, hj, he, hz] using h.bound

theorem signal_b {env : RepEnv} {n : Node} (h : BInv env n) (ms : List Mutation)
    (hoff : n.activity ≠ .off ∨ ms = []) : BInv env (n.signal env ms) := by
  unfold Node.signal
  by_cases hms : ms.isEmpty = true
  · rw [if_pos hms]; exact h
  · rw [if_neg hms]
    have hoff : n.activity ≠ .off := by
      rcases hoff with h1 | h1
      · exact h1
      · subst h1; exact absurd rfl hms
    dsimp only
    have hnum : Numbered (n.recorded ms) := h.g.num.add_events _ _
    generalize hn1 : ({ n.add_events (ms.flatMap (·.stmts)) (ms.any (·.important)) with
      important := (n.add_events (ms.flatMap (·.stmts)) (ms.any (·.important))).important || ms.any (·.important)
      size := (n.add_events (ms.flatMap (·.stmts)) (ms.any (·.important))).size +
        ((ms.flatMap (·.stmts)).map env.stmt_size).sum } : Node) = n1
    have e1 : n1.events = n.events ++ numbered (n.seq.getD 0) (ms.any (·.important)) (ms.flatMap (·.stmts)) := by
      subst hn1; rfl
    have e2 : n1.replica = n.replica := by subst hn1; rfl
    have e3 : n1.activity = n.activity := by subst hn1; rfl
    have e4 : n1.jobs = n.jobs := by subst hn1; rfl
    have e5 : n1.size = n.size + ((ms.flatMap (·.stmts)).map env.stmt_size).sum := by subst hn1; rfl
    have hcore : SameCore (n.recorded ms) n1 := by subst hn1; exact ⟨rfl, rfl, rfl, rfl, rfl⟩
    have hnum1 : Numbered n1 := hnum.core hcore
    have hg1 : GInv n1 := ⟨hnum1, by rw [e3]; exact (recorded_actG h.g.act h.g.num ms).core hcore⟩
    have hle : textLength env (unsent n1) ≤ textLength env (unsent n) + ((ms.flatMap (·.stmts)).map env.stmt_size).sum := by
      unfold unsent
      rw [e1, e3, List.filter_append, textLength_append,
        ← textLength_numbered env (n.seq.getD 0) (ms.any (·.important)) (ms.flatMap (·.stmts))]
      exact Nat.add_le_add_left (textLength_sublist env List.filter_sublist) _
    split
    · by_cases hidle : n1.activity = .idle
      · have hjobs : n1.jobs = [] := by rw [e4]; exact h.idle (e3 ▸ hidle)
        have hq : n1.queue_job .event_stream = n1.run_jobs [.event_stream] := by
          unfold Node.queue_job; rw [if_neg (by simp [hjobs]), if_pos hidle]
        rw [hq]
        have hb : BInv env (n1.run_jobs [.event_stream]) := run_jobs_b hnum1 _ (.inl (by simp))
        refine ⟨⟨hb.g.num.of_same rfl rfl rfl, ActG.core hb.g.act ⟨rfl, rfl, rfl, rfl, rfl⟩⟩, hb.snap, ?_, hb.idle⟩
        refine .inr (.inr (.inr (.inr ?_)))
        have hu : unsent (n1.run_jobs [.event_stream]) = [] := by
          have hd := (run_jobs_data n1 [.event_stream]).events
          simp only [Node.run_jobs, Node.begin] at hd ⊢
          cases hh : highest_sequence n1.events with
          | none =>
            rw [unsent_none rfl]
            exact highest_none hh
          | some high => exact unsent_all rfl
        have hu : textLength env (unsent { n1.run_jobs [.event_stream] with important := false, size := 0 }) = 0 := by
          show textLength env (unsent (n1.run_jobs [.event_stream])) = 0
          rw [hu]; rfl
        exact ⟨by rw [hu]; exact Nat.zero_le _, .inr (.inr hu)⟩
      · have hd := queue_job_data n1 .event_stream
        have hact := queue_not_idle n1 .event_stream hidle
        have hmem := mem_queue n1 .event_stream hidle
        have hq := queue_job_g hg1 .event_stream
        refine ⟨⟨hq.num.of_same rfl rfl rfl, ActG.core hq.act ⟨rfl, rfl, rfl, rfl, rfl⟩⟩, ?_,
          .inr (.inr (.inl hmem)), ?_⟩
        · show ∀ s k l, (n1.queue_job .event_stream).activity = _ → _
          rw [hact, e3]; exact h.snap
        · show (n1.queue_job .event_stream).activity = .idle → _
          rw [hact]
          exact fun hc => absurd hc hidle
    · rename_i hsh
      have hsh : ¬ should_upload_eventstream n1.important n1.size = true := by subst hn1; exact hsh
      have hsz : n1.size < 570000 := by
        unfold should_upload_eventstream at hsh
        simp only [Bool.or_eq_true, decide_eq_true_eq, not_or] at hsh
        omega
      refine ⟨hg1, by rw [e3]; exact h.snap, ?_, by rw [e3, e4]; exact h.idle⟩
      rw [e3, e4]
      rcases h.bound with h1 | h1 | h1 | h1 | h1
      · exact .inl h1
      · exact .inr (.inl h1)
      · exact .inr (.inr (.inl h1))
      · exact .inr (.inr (.inr (.inl h1)))
      · refine .inr (.inr (.inr (.inr ⟨?_, .inl hsz⟩)))
        have := h1.1
        rw [e5]
        omega

theorem call_b {env : RepEnv} {n : Node} (h : BInv env n) (op : StoreOp)
    (hm : n.activity = .off → n.mutations = []) : BInv env (n.call env op).2 := by
  unfold Node.call
  dsimp only
  split
  · exact h.same rfl rfl rfl rfl rfl rfl
  · apply signal_b (n := { n with tables := _, mutations := [] }) (h.same rfl rfl rfl rfl rfl rfl)
    by_cases hoff : n.activity = .off
    · right; rw [if_pos hoff]; exact hm hoff
    · exact .inl hoff

theorem start_b {env : RepEnv} {n : Node} (ht : TextCounted env) (h : Numbered n) : BInv env (n.start_service env) := by
  refine ⟨start_g h, ?_, .inr (.inr (.inr (.inr ?_))), by simp [Node.start_service]⟩
  · intro s k l ha; exact nomatch ha
  · refine ⟨?_, .inr (.inl rfl)⟩
    exact Nat.le_trans (unsent_le env _) (ht n.events)

theorem restart_b {env : RepEnv} {n : Node} (ht : TextCounted env) (h : BInv env n) : BInv env (n.restart env) := by
  unfold Node.restart
  dsimp only
  split
  · exact h.same rfl rfl rfl rfl rfl rfl
  · exact start_b ht (h.g.num.of_same rfl rfl rfl)

/-- The end of a job. -/
theorem next_b {env : RepEnv} {n : Node} (h : Numbered n)
    (hb : .event_stream ∈ n.jobs ∨ .snapshot ∈ n.jobs ∨
      (textLength env n.events ≤ n.size ∧ (n.size < 570000 ∨ textLength env n.events = 0))) :
    BInv env n.next := run_jobs_b h _ hb

/-- What the invariant says while nothing is being sent. -/
theorem bound_quiet {env : RepEnv} {n : Node} (h : BInv env n) (h1 : n.activity ≠ .off) (h2 : n.activity ≠ .dead)
    (h3 : n.activity ≠ .startupListing) (h4 : sending n.activity = []) :
    .event_stream ∈ n.jobs ∨ .snapshot ∈ n.jobs ∨
      (textLength env n.events ≤ n.size ∧ (n.size < 570000 ∨ textLength env n.events = 0)) := by
  rcases h.bound with h5 | h5 | h5 | h5 | h5
  · exact absurd h5 h1
  · exact absurd h5 h2
  · exact .inl h5
  · exact .inr (.inl h5)
  · unfold Small at h5
    rw [unsent_none h4] at h5
    refine .inr (.inr ⟨h5.1, ?_⟩)
    rcases h5.2 with h6 | h6 | h6
    · exact .inl h6
    · exact absurd h6 h3
    · exact .inr h6

theorem listed_b {env : RepEnv} {n : Node} (h : BInv env n) : BInv env (n.listed env) := by
  unfold Node.listed
  split
  · rename_i ha
    have hni : n.activity ≠ .idle := by rw [ha]; simp
    split
    · exact next_b (queue_job_g h.g _).num (.inr (.inl (mem_queue n .snapshot hni)))
    · split
      · exact next_b (queue_job_g h.g _).num (.inl (mem_queue n .event_stream hni))
      · rename_i hsh
        apply next_b h.g.num
        have hsz : n.size < 570000 := by
          unfold should_upload_eventstream at hsh
          simp only [Bool.or_eq_true, decide_eq_true_eq, not_or] at hsh
          omega
        rcases h.bound with h5 | h5 | h5 | h5 | h5
        · rw [ha] at h5; exact nomatch h5
        · rw [ha] at h5; exact nomatch h5
        · exact .inl h5
        · exact .inr (.inl h5)
        · unfold Small at h5
          rw [unsent_none (by rw [ha]; rfl)] at h5
          exact .inr (.inr ⟨h5.1, .inl hsz⟩)
  · rename_i k ha
    have hq := bound_quiet h (by rw [ha]; simp) (by rw [ha]; simp) (by rw [ha]; simp) (by rw [ha]; rfl)
    split
    · exact next_b h.g.num hq
    · rename_i names _
      refine ⟨⟨h.g.num.of_same rfl rfl rfl, trivial⟩, fun _ _ _ hc => (nomatch hc), .inr (.inr ?_), fun hc => (nomatch hc)⟩
      rcases hq with hq | hq | hq
      · exact .inl hq
      · exact .inr (.inl hq)
      · refine .inr (.inr ?_)
        unfold Small
        rw [unsent_none rfl]
        exact ⟨hq.1, hq.2.imp id .inr⟩
  · rename_i snap ha
    have hni : n.activity ≠ .idle := by rw [ha]; simp
    have hq := bound_quiet h (by rw [ha]; simp) (by rw [ha]; simp) (by rw [ha]; simp) (by rw [ha]; rfl)
    split
    · exact next_b (queue_job_g h.g _).num (.inr (.inl (mem_queue n .snapshot hni)))
    · exact next_b h.g.num hq
  · exact h

theorem linked_b {env : RepEnv} {n : Node} (h : BInv env n) : BInv env n.linked := by
  have hg : GInv n.linked := step_g (env := env) h.g .linked
  unfold Node.linked at hg ⊢
  split
  · rename_i snap k ha
    simp only [ha] at hg
    refine ⟨hg, ?_, ?_, fun hc => (nomatch hc)⟩
    · intro s k' l hs
      injection hs with e1 e2 _
      subst e1 e2
      exact h.snap _ _ _ ha
    · have := h.bound
      rw [ha] at this
      rcases this with h5 | h5 | h5 | h5 | h5
      · exact nomatch h5
      · exact nomatch h5
      · exact .inr (.inr (.inl h5))
      · exact .inr (.inr (.inr (.inl h5)))
      · refine .inr (.inr (.inr (.inr ?_)))
        unfold Small unsent at h5 ⊢
        rw [ha] at h5
        refine ⟨h5.1, ?_⟩
        rcases h5.2 with h6 | h6 | h6
        · exact .inl h6
        · exact nomatch h6
        · exact .inr (.inr h6)
  · rename_i evs high ha
    simp only [ha] at hg
    refine ⟨hg, fun _ _ _ hc => (nomatch hc), ?_, fun hc => (nomatch hc)⟩
    have := h.bound
    rw [ha] at this
    rcases this with h5 | h5 | h5 | h5 | h5
    · exact nomatch h5
    · exact nomatch h5
    · exact .inr (.inr (.inl h5))
    · exact .inr (.inr (.inr (.inl h5)))
    · refine .inr (.inr (.inr (.inr ?_)))
      unfold Small unsent at h5 ⊢
      rw [ha] at h5
      refine ⟨h5.1, ?_⟩
      rcases h5.2 with h6 | h6 | h6
      · exact .inl h6
      · exact nomatch h6
      · exact .inr (.inr h6)
  · exact h

theorem filter_sublist_of_imp {p q : Change → Bool} (l : List Change) (h : ∀ e, p e = true → q e = true) :
    List.Sublist (l.filter p) (l.filter q) := by
  induction l with
  | nil => exact .slnil
  | cons a l ih =>
    cases hp : p a with
    | true => rw [List.filter_cons_of_pos hp, List.filter_cons_of_pos (h a hp)]; exact ih.cons_cons a
    | false =>
      rw [List.filter_cons_of_neg (by simp [hp])]
      cases hq : q a with
      | true => rw [List.filter_cons_of_pos hq]; exact ih.cons a
      | false => rw [List.filter_cons_of_neg (by simp [hq])]; exact ih

/-- What is left after pruning was not being sent. -/
theorem prune_unsent (env : RepEnv) {n : Node} {k : Nat} (h : ∀ e ∈ sending n.activity, e.sequence ≤ k) :
    textLength env (n.prune_events_to k).events ≤ textLength env (unsent n) := by
  apply textLength_sublist
  show List.Sublist (n.events.filter _) (n.events.filter _)
  apply filter_sublist_of_imp
  intro e he
  simp only [decide_eq_true_eq] at he
  simp only [Bool.not_eq_true', List.contains_eq_mem, decide_eq_false_iff_not]
  intro hc
  have := h e hc
  omega

theorem uploaded_b {env : RepEnv} {n : Node} (h : BInv env n) : BInv env n.uploaded := by
  unfold Node.uploaded
  split
  · rename_i snap k ha
    have hp := prune_unsent env (n := n) (k := k) (by rw [ha]; exact h.snap _ _ _ ha)
    refine ⟨⟨(h.g.num.prune _).of_same rfl rfl rfl, trivial⟩, fun _ _ _ hc => (nomatch hc), .inr (.inr ?_),
      fun hc => (nomatch hc)⟩
    have := h.bound
    rw [ha] at this
    rcases this with h5 | h5 | h5 | h5 | h5
    · exact nomatch h5
    · exact nomatch h5
    · exact .inl h5
    · exact .inr (.inl h5)
    · refine .inr (.inr ?_)
      unfold Small at h5 ⊢
      rw [unsent_none rfl]
      rw [ha] at h5
      refine ⟨Nat.le_trans hp h5.1, ?_⟩
      rcases h5.2 with h6 | h6 | h6
      · exact .inl h6
      · exact nomatch h6
      · exact .inr (.inr (by have : textLength env (n.prune_events_to k).events = 0 := by omega
                             exact this))
  · rename_i evs high ha
    have hact := h.g.act
    rw [ha] at hact
    have hp := prune_unsent env (n := n) (k := high) (by
      rw [ha]; exact fun e he => (highest_some hact.1).2.1 e he)
    have hni : (n.prune_events_to high).activity ≠ .idle := by
      show n.activity ≠ .idle
      rw [ha]; simp
    have hd := queue_job_data (n.prune_events_to high) .consider_snapshot
    apply next_b ((h.g.num.prune _).core hd.core)
    have hs : ((n.prune_events_to high).queue_job .consider_snapshot).size = n.size := by
      unfold Node.queue_job
      split
      · rfl
      · first | rfl | (rw [if_neg hni]; rfl)
    rw [hd.events, hs]
    have := h.bound
    rw [ha] at this
    rcases this with h5 | h5 | h5 | h5 | h5
    · exact nomatch h5
    · exact nomatch h5
    · exact .inl (queue_mono _ _ _ hni h5)
    · exact .inr (.inl (queue_mono _ _ _ hni h5))
    · unfold Small at h5
      rw [ha] at h5
      refine .inr (.inr ⟨Nat.le_trans hp h5.1, ?_⟩)
      rcases h5.2 with h6 | h6 | h6
      · exact .inl h6
      · exact nomatch h6
      · exact .inr (by omega)
  · exact h

theorem unlinked_b {env : RepEnv} {n : Node} (h : BInv env n) : BInv env n.unlinked := by
  unfold Node.unlinked
  split
  · rename_i seqnum k ks ha
    have hnum : Numbered { n with replica := { n.replica with streams := n.replica.streams.filter (fun kv => kv.1 != k) } } :=
      ⟨h.g.num.inc, h.g.num.le, fun kv hkv => h.g.num.keys kv (List.mem_filter.mp hkv).1, h.g.num.base⟩
    have hq := bound_quiet h (by rw [ha]; simp) (by rw [ha]; simp) (by rw [ha]; simp) (by rw [ha]; rfl)
    dsimp only
    split
    · exact next_b hnum hq
    · refine ⟨⟨hnum.of_same rfl rfl rfl, trivial⟩, fun _ _ _ hc => (nomatch hc), .inr (.inr ?_), fun hc => (nomatch hc)⟩
      rcases hq with hq | hq | hq
      · exact .inl hq
      · exact .inr (.inl hq)
      · refine .inr (.inr ?_)
        unfold Small
        rw [unsent_none rfl]
        exact ⟨hq.1, hq.2.imp id .inr⟩
  · exact h

theorem failed_b {env : RepEnv} {n : Node} (h : BInv env n) : BInv env n.failed := by
  unfold Node.failed
  split
  · exact h
  · exact h
  · exact h
  · exact ⟨⟨h.g.num.of_same rfl rfl rfl, trivial⟩, fun _ _ _ hc => (nomatch hc), .inr (.inl rfl), fun hc => (nomatch hc)⟩

theorem step_b {env : RepEnv} {n : Node} (ht : TextCounted env) (h : BInv env n) (ho : OffClean n) (s : RStep) :
    BInv env (n.step env s) := by
  cases s with
  | enable =>
    simp only [Node.step]
    split
    · exact start_b ht h.g.num
    · exact h
  | call op => exact call_b h op ho
  | restart => exact restart_b ht h
  | crashedCall op =>
    simp only [Node.step, Node.crashed_call]
    split
    · exact restart_b ht h
    · exact restart_b ht (h.same rfl rfl rfl rfl rfl rfl)
  | listed => exact listed_b h
  | linked => exact linked_b h
  | uploaded => exact uploaded_b h
  | unlinked => exact unlinked_b h
  | failed => exact failed_b h

theorem run_b {env : RepEnv} {n : Node} (ht : TextCounted env) (h : BInv env n) (ho : OffClean n)
    (steps : List RStep) : BInv env (n.run env steps) := by
  induction steps generalizing n with
  | nil => exact h
  | cons s ss ih => exact ih (step_b ht h ho s) (offClean_step ho s)

/-- No statement of the method is marked as important. -/
def QuietProg {α} : Prog α → Prop
  | .done _ | .raise _ => True
  | .query k => ∀ t, QuietProg (k t)
  | .execute i _ k => i = false ∧ ∀ r l, QuietProg (k r l)
  | .executemany i _ k => i = false ∧ QuietProg k

theorem quiet_map {α β} (f : α → β) {p : Prog α} (h : QuietProg p) : QuietProg (p.map f) := by
  induction p with
  | done a => trivial
  | raise e => trivial
  | query k ih => exact fun t => ih t (h t)
  | execute i s k ih => exact ⟨h.1, fun r l => ih r l (h.2 r l)⟩
  | executemany i ss k ih => exact ⟨h.1, ih h.2⟩

theorem quiet_run {α} {p : Prog α} (h : QuietProg p) (t : Tables) : ∀ m ∈ (p.run t).1, m.important = false := by
  induction p generalizing t with
  | done a => intro m hm; exact nomatch hm
  | raise e => intro m hm; exact nomatch hm
  | query k ih => exact ih _ (h t) t
  | execute i s k ih =>
    intro m hm
    simp only [Prog.run] at hm
    cases he : exec s t with
    | error e => rw [he] at hm; exact nomatch hm
    | ok x =>
      rw [he] at hm
      rcases List.mem_cons.1 hm with hm | hm
      · subst hm; exact h.1
      · exact ih _ _ (h.2 _ _) _ m hm
  | executemany i ss k ih =>
    intro m hm
    simp only [Prog.run] at hm
    cases he : execMany ss t with
    | error e => rw [he] at hm; exact nomatch hm
    | ok x =>
      rw [he] at hm
      rcases List.mem_cons.1 hm with hm | hm
      · subst hm; exact h.1
      · exact ih h.2 _ m hm

theorem quiet_op {op : StoreOp} (h : recordsVoucher op = false) : QuietProg op.prog := by
  cases op with
  | add o now v e c ts => exact nomatch h
  | insert now v pk ts c s =>
    refine quiet_map _ ⟨rfl, fun _ _ => ⟨rfl, fun r _ => ?_⟩⟩
    dsimp only
    split
    · trivial
    · intro t
      dsimp only
      split
      · trivial
      · exact ⟨rfl, rfl, fun _ _ => trivial⟩
  | doubleSpent now v =>
    refine quiet_map _ ⟨rfl, fun r _ => ?_⟩
    dsimp only
    split <;> trivial
  | getTokens o n =>
    refine quiet_map _ ?_
    unfold store_get_unblinded_tokens
    split
    · trivial
    · intro t
      dsimp only
      split
      · trivial
      · exact ⟨rfl, trivial⟩
  | discard ts => exact quiet_map _ ⟨rfl, rfl, fun _ _ => ⟨rfl, fun _ _ => ⟨rfl, fun _ _ => trivial⟩⟩⟩
  | invalidate r ts => exact quiet_map _ ⟨rfl, rfl, fun _ _ => ⟨rfl, fun _ _ => trivial⟩⟩
  | reset ts => exact quiet_map _ ⟨rfl, rfl, fun _ _ => ⟨rfl, fun _ _ => trivial⟩⟩
  | maintStart now m =>
    refine quiet_map _ ?_
    unfold maint_start
    split
    · trivial
    · exact ⟨rfl, fun _ _ => trivial⟩
  | maintObserve pv sizes m =>
    refine quiet_map _ ?_
    unfold maint_observe
    split
    · trivial
    · exact ⟨rfl, fun _ _ => trivial⟩
  | maintFinish now m => exact quiet_map _ ⟨rfl, fun _ _ => trivial⟩
  | restart => trivial

theorem fresh_b {env : RepEnv} {n : Node} (h : Fresh n) : BInv env n :=
  ⟨fresh_g h, (by rw [h.off]; simp), .inl h.off, (by rw [h.off]; simp)⟩

end ZKAP
