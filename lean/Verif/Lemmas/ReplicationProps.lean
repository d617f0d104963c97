import Verif.Lemmas.ReplicationStep
import Verif.Lemmas.ReplicationJobs
import Verif.Lemmas.Decimal
import Verif.Lemmas.LeaseMaintenance

/-! Facts about histories of a replicating node used by the properties. -/
namespace ZKAP
open Spec

theorem moments_head (env : RepEnv) (n : Node) (steps : List RStep) :
    ∃ m ∈ moments env n steps, m.tables.app = n.tables.app := by
  cases steps <;> exact ⟨n, by simp [moments], rfl⟩

theorem RepInv.noStale {P} {n : Node} (h : RepInv P n) {snap : Snapshot} (hs : n.replica.snapshot = some snap)
    (hst : NoStale n.replica) : ∃ ev tb, Stable P snap n.replica.streams ev tb := by
  have hnil : KeysUpTo n snap → n.replica.streams = [] := by
    intro hk
    cases hstr : n.replica.streams with
    | nil => rfl
    | cons kv _ =>
      have h1 := hst snap hs kv (by simp [hstr])
      have h2 := hk kv (by simp [hstr])
      omega
  by_cases hu : Unsettled n.activity
  · have ha := h.act
    match hact : n.activity with
    | .off | .idle | .startupListing | .considerListing _ | .dead | .snapshotUploading _ _ false
    | .eventUploading _ _ false => rw [hact] at hu; exact hu.elim
    | .snapshotUploading snap' k true =>
      rw [hact] at ha
      have := ha.2.1 rfl
      rw [hs] at this
      injection this with this; subst this
      rw [hnil ha.2.2.2.2]
      exact ⟨_, _, ha.2.2.1.stable⟩
    | .pruneListing k | .pruning k _ =>
      rw [hact] at ha
      obtain ⟨snap', h1, h2, h3, _⟩ := ha
      rw [hs] at h1
      injection h1 with h1; subst h1
      rw [hnil h3]
      exact ⟨_, _, h2.stable⟩
    | .eventUploading evs high true =>
      rw [hact] at ha
      obtain ⟨_, rest, _, h3⟩ := ha
      exact ⟨_, _, by simpa using h3 snap hs⟩
  · exact ⟨_, _, h.settled hu snap hs⟩

/-- A step other than the end of an upload keeps the events and adds new ones after them. -/
theorem step_grows (env : RepEnv) (n : Node) (s : RStep) :
    (∃ i ss, (n.step env s).events = n.events ++ numbered (n.seq.getD 0) i ss ∧
      (n.step env s).seq.getD 0 = n.seq.getD 0 + ss.length) ∨ s = .uploaded := by
  have hsame : ∀ m : Node, SameData n m → ∃ i ss, m.events = n.events ++ numbered (n.seq.getD 0) i ss ∧
      m.seq.getD 0 = n.seq.getD 0 + ss.length :=
    fun m d => ⟨false, [], by simp [numbered, d.events], by simp [d.seq]⟩
  have hstart : ∀ m : Node, m.events = n.events → m.seq = n.seq →
      ∃ i ss, m.events = n.events ++ numbered (n.seq.getD 0) i ss ∧
      m.seq.getD 0 = n.seq.getD 0 + ss.length :=
    fun m h1 h2 => ⟨false, [], by simp [numbered, h1], by simp [h2]⟩
  have hrestart : ∀ m : Node, (m.restart env).events = m.events ∧ (m.restart env).seq = m.seq := by
    intro m
    unfold Node.restart
    dsimp only
    split <;> exact ⟨rfl, rfl⟩
  cases s with
  | enable =>
    left
    simp only [Node.step]
    split <;> exact hstart _ rfl rfl
  | call op =>
    left
    simp only [Node.step, Node.call]
    split
    · exact hstart _ rfl rfl
    · rename_i t' _
      obtain ⟨c, _⟩ := signal_core env { n with tables := t', mutations := [] }
        (if n.activity = .off then n.mutations else n.mutations ++ (op.prog.run n.tables).1)
      exact ⟨_, _, c.events, (congrArg (fun s => s.getD 0) c.seq).trans (add_events_seq _ _ _)⟩
  | restart => exact .inl (hstart _ (hrestart n).1 (hrestart n).2)
  | crashedCall op =>
    left
    simp only [Node.step, Node.crashed_call]
    split
    · exact hstart _ (hrestart n).1 (hrestart n).2
    · exact hstart _ (hrestart _).1 (hrestart _).2
  | listed =>
    left
    have hnext : ∀ m : Node, m.next.events = m.events ∧ m.next.seq = m.seq :=
      fun m => ⟨(run_jobs_data m _).events, (run_jobs_data m _).seq⟩
    have hq : ∀ j, (n.queue_job j).events = n.events ∧ (n.queue_job j).seq = n.seq :=
      fun j => ⟨(queue_job_data n j).events, (queue_job_data n j).seq⟩
    simp only [Node.step, Node.listed]
    split
    · split
      · exact hstart _ ((hnext _).1.trans (hq _).1) ((hnext _).2.trans (hq _).2)
      · split
        · exact hstart _ ((hnext _).1.trans (hq _).1) ((hnext _).2.trans (hq _).2)
        · exact hstart _ (hnext _).1 (hnext _).2
    · split
      · exact hstart _ (hnext _).1 (hnext _).2
      · exact hstart _ rfl rfl
    · split
      · exact hstart _ ((hnext _).1.trans (hq _).1) ((hnext _).2.trans (hq _).2)
      · exact hstart _ (hnext _).1 (hnext _).2
    · exact hstart _ rfl rfl
  | linked =>
    left
    simp only [Node.step, Node.linked]
    split <;> exact hstart _ rfl rfl
  | uploaded => exact .inr rfl
  | unlinked =>
    left
    simp only [Node.step, Node.unlinked]
    split
    · split
      · exact hstart _ (run_jobs_data _ _).events (run_jobs_data _ _).seq
      · exact hstart _ rfl rfl
    · exact hstart _ rfl rfl
  | failed =>
    left
    simp only [Node.step, Node.failed]
    split <;> exact hstart _ rfl rfl

/-- The end of an upload prunes. -/
theorem uploaded_shape (n : Node) :
    (n.uploaded = n) ∨
    (∃ snap k, n.activity = .snapshotUploading snap k true ∧
      n.uploaded.events = (n.prune_events_to k).events ∧ n.uploaded.seq = n.seq ∧
      n.uploaded.replica = n.replica) ∨
    (∃ evs high, n.activity = .eventUploading evs high true ∧
      n.uploaded.events = (n.prune_events_to high).events ∧ n.uploaded.seq = n.seq ∧
      n.uploaded.replica = n.replica) := by
  unfold Node.uploaded
  split
  · rename_i snap k ha
    exact .inr (.inl ⟨snap, k, ha, rfl, rfl, rfl⟩)
  · rename_i evs high ha
    have d := (queue_job_data (n.prune_events_to high) .consider_snapshot)
    have d' := run_jobs_data ((n.prune_events_to high).queue_job .consider_snapshot)
      ((n.prune_events_to high).queue_job .consider_snapshot).jobs
    exact .inr (.inr ⟨evs, high, ha, d'.events.trans d.events, d'.seq.trans d.seq, d'.replica.trans d.replica⟩)
  · exact .inl rfl

theorem removed_kept {env : RepEnv} {n : Node} (hg : GInv n) (hu : ¬ UploadingFirst n.activity) (s : RStep)
    {e : Change} (h1 : e ∈ n.events) (h2 : e ∉ (n.step env s).events) :
    InReplica (n.step env s).replica e := by
  rcases step_grows env n s with ⟨i, ss, h3, _⟩ | rfl
  · rw [h3] at h2
    exact absurd (List.mem_append_left _ h1) h2
  · change e ∉ n.uploaded.events at h2
    change InReplica n.uploaded.replica e
    have hact := hg.act
    have hle : ∀ k, n.uploaded.events = (n.prune_events_to k).events → e.sequence ≤ k := by
      intro k hk
      rw [hk] at h2
      refine Nat.le_of_not_lt fun hlt => h2 ?_
      exact List.mem_filter.mpr ⟨h1, by simpa using hlt⟩
    rcases uploaded_shape n with h | ⟨snap, k, ha, he, _, hr⟩ | ⟨evs, high, ha, he, _, hr⟩
    · rw [h] at h2; exact absurd h1 h2
    · rw [ha] at hact hu
      rw [hr]
      have h3 := hle k he
      refine .inr ⟨snap, hact.2.2.2 rfl, hact.2.2.1 e h1 ?_⟩
      have hk := hact.1
      cases hs : snap.seq with
      | none => exact absurd hs hu
      | some j => rw [hs] at hk; simp at hk ⊢; omega
    · rw [ha] at hact
      rw [hr]
      exact .inl ⟨(high, evs), mem_of_lookup_some (hact.2.2.2 rfl), hact.2.2.1 e h1 (hle high he)⟩

theorem step_new {env : RepEnv} {n : Node} (s : RStep) :
    n.seq.getD 0 ≤ (n.step env s).seq.getD 0 ∧
    ∀ e ∈ (n.step env s).events, e ∈ n.events ∨ n.seq.getD 0 < e.sequence := by
  rcases step_grows env n s with ⟨i, ss, h1, h2⟩ | rfl
  · refine ⟨by omega, fun e he => ?_⟩
    rw [h1] at he
    rcases List.mem_append.mp he with he | he
    · exact .inl he
    · exact .inr (numbered_mem he).1
  · change n.seq.getD 0 ≤ n.uploaded.seq.getD 0 ∧ ∀ e ∈ n.uploaded.events, _
    rcases uploaded_shape n with h | ⟨snap, k, _, he, hs, _⟩ | ⟨evs, high, _, he, hs, _⟩
    · rw [h]; exact ⟨Nat.le_refl _, fun e he => .inl he⟩
    · rw [hs, he]
      exact ⟨Nat.le_refl _, fun e he => .inl (List.mem_filter.mp he).1⟩
    · rw [hs, he]
      exact ⟨Nat.le_refl _, fun e he => .inl (List.mem_filter.mp he).1⟩

theorem run_new {env : RepEnv} {n : Node} (steps : List RStep) :
    n.seq.getD 0 ≤ (n.run env steps).seq.getD 0 ∧
    ∀ e ∈ (n.run env steps).events, e ∈ n.events ∨ n.seq.getD 0 < e.sequence := by
  induction steps generalizing n with
  | nil => exact ⟨Nat.le_refl _, fun e he => .inl he⟩
  | cons s ss ih =>
    obtain ⟨h1, h2⟩ := ih (n := n.step env s)
    obtain ⟨h3, h4⟩ := step_new (env := env) (n := n) s
    refine ⟨Nat.le_trans h3 h1, fun e he => ?_⟩
    rcases h2 e he with h | h
    · exact h4 e h
    · exact .inr (by omega)

theorem run_two (env : RepEnv) (n : Node) (a b : List RStep) :
    n.run env (a ++ b) = (n.run env a).run env b := by
  unfold Node.run; rw [List.foldl_append]

theorem numbered_has {start : Nat} {i : Bool} {ss : List Stmt} {s : Stmt} (h : s ∈ ss) :
    ∃ e ∈ numbered start i ss, e.stmt = s := by
  rw [← numbered_stmts start i ss] at h
  obtain ⟨e, he, rfl⟩ := List.mem_map.mp h
  exact ⟨e, he, rfl⟩

/-! ### Names -/

theorem digits_decimal (k : Nat) : (decimal k).takeWhile (fun c => (digit_value c).isSome) = decimal k := by
  have : ∀ c ∈ decimal k, (digit_value c).isSome = true := by
    fun_induction decimal k with
    | case1 n h => simp [digit_value_digit h]
    | case2 n h ih =>
      intro c hc
      rcases List.mem_append.mp hc with hc | hc
      · exact ih c hc
      · simp only [List.mem_singleton] at hc
        rw [hc, digit_value_digit (by omega)]
        rfl
  revert this
  generalize decimal k = l
  intro h
  induction l with
  | nil => rfl
  | cons c cs ih =>
    rw [List.takeWhile_cons, if_pos (h c (by simp)), ih (fun d hd => h d (by simp [hd]))]

theorem stream_number_name (k : Nat) : stream_number (event_stream_name k) = some (.ok k) := by
  unfold stream_number event_stream_name
  simp only [String.toList_ofList]
  rw [if_pos (by simp), List.drop_left, digits_decimal]
  rw [if_neg (by simpa using decimal_ne_nil k), read_digits_decimal]
  simp

/-! ### Order -/

theorem pieces_sorted (pieces : List (List Change)) (hi : Increasing pieces.flatten)
    (hne : ∀ s ∈ pieces, s ≠ []) : pieces.Pairwise (fun a b => skey a < skey b) := by
  induction pieces with
  | nil => exact List.Pairwise.nil
  | cons p ps ih =>
    rw [List.flatten_cons] at hi
    unfold Increasing at hi
    rw [List.pairwise_append] at hi
    rw [List.pairwise_cons]
    refine ⟨fun q hq => ?_, ih hi.2.1 (fun s hs => hne s (by simp [hs]))⟩
    have key : ∀ s, s ≠ [] → ∃ c ∈ s, c.sequence = skey s := by
      intro s hs
      cases hh : highest_sequence s with
      | none => exact absurd (highest_none hh) hs
      | some k =>
        obtain ⟨_, _, c, hc, h3⟩ := highest_some hh
        exact ⟨c, hc, by simp [skey, hh, h3]⟩
    obtain ⟨a, ha, ha'⟩ := key p (hne p (by simp))
    obtain ⟨b, hb, hb'⟩ := key q (hne q (by simp [hq]))
    have := hi.2.2 a ha b (List.mem_flatten.mpr ⟨q, hq, hb⟩)
    omega

theorem flatten_filter (l : List (List Change)) : (l.filter (fun s => !s.isEmpty)).flatten = l.flatten := by
  induction l with
  | nil => rfl
  | cons s ss ih => cases s <;> simp [ih]

theorem order_restored {events : List Change} (hi : Increasing events) {pieces : List (List Change)}
    (hp : pieces.flatten = events) {l : List (List Change)} (hl : l.Perm pieces) :
    (sorted_event_streams l).flatten = events := by
  obtain ⟨h1, h2⟩ := sorted_streams l
  have h3 : (pieces.filter (fun s => !s.isEmpty)).Pairwise (fun a b => skey a < skey b) := by
    refine pieces_sorted _ ?_ ?_
    · rw [flatten_filter, hp]; exact hi
    · intro s hs
      simpa using (List.mem_filter.mp hs).2
  rw [sorted_unique _ _ h3 h1 (h2.trans (hl.filter _)), flatten_filter, hp]

end ZKAP
