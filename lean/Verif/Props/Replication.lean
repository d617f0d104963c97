import Verif.Lemmas.ReplicationLive

/-! Replication and the replay of a replica: C45-C51, C53, C79, C80. -/
namespace ZKAP
open Spec

/-! ### Examples -/

/-- Every stream upload asks for a new snapshot. -/
def exRep : RepEnv := { stmt_size := fun _ => 100, stream_size := List.length, should_snapshot := fun _ _ => true }

/-- No stream upload asks for a new snapshot. -/
def exRepLazy : RepEnv := { exRep with should_snapshot := fun _ _ => false }

/-- Adding a voucher with two random tokens. -/
def exAdd : StoreOp := .add .natural "now" "v" 2 0 (.ok ["a", "b"])

/-- Storing two unblinded tokens for it. -/
def exInsert : StoreOp := .insert "now" "v" "key" ["A", "B"] true true

/-- Replication set up on a new node and the first snapshot uploaded. -/
def exSetup : List RStep := [.enable, .listed, .linked, .uploaded, .listed]

theorem exFresh : Fresh {} :=
  ⟨rfl, rfl, rfl, ⟨[], rfl⟩, List.Pairwise.nil, by simp⟩

/-! ### C45 -/

theorem call_ok {env : RepEnv} {n : Node} {op : StoreOp} {a : Answer}
    (h : (n.call env op).1 = .ok a) : ∃ t', (op.prog.run n.tables).2 = .ok (a, t') := by
  unfold Node.call at h
  dsimp only at h
  split at h
  · exact nomatch h
  · rename_i a' t' hr
    injection h with h; subst h
    exact ⟨t', hr⟩

theorem call_recorded {env : RepEnv} {n : Node} (hr : n.activity ≠ .off) (hm : n.mutations = [])
    {op : StoreOp} {a : Answer} {t' : Tables} (h : (op.prog.run n.tables).2 = .ok (a, t')) :
    SameCore (({ n with tables := t', mutations := [] } : Node).recorded (op.prog.run n.tables).1) (n.call env op).2 ∧
    (n.call env op).1 = .ok a ∧ (n.call env op).2.activity ≠ .off := by
  have hcall : n.call env op = (.ok a, ({ n with tables := t', mutations := [] }).signal env
      (op.prog.run n.tables).1) := by
    unfold Node.call
    simp only [h, hm, List.nil_append, if_neg hr]
  rw [hcall]
  obtain ⟨c, ha⟩ := signal_core env { n with tables := t', mutations := [] } (op.prog.run n.tables).1
  refine ⟨c, rfl, ?_⟩
  rcases ha with ha | ⟨_, m, _, ha⟩
  · show (Node.signal env _ _).activity ≠ _
    rw [ha]; exact hr
  · show (Node.signal env _ _).activity ≠ _
    rw [ha]; exact run_jobs_not_off m _

theorem call_clean_error {env : RepEnv} {n : Node} (hm : n.mutations = []) {op : StoreOp} {e : PyErr}
    (h : (op.prog.run n.tables).2 = .error e) (hc : CleanCall n op) :
    n.call env op = (.error e, n) := by
  have hrec : (op.prog.run n.tables).1 = [] := by
    rcases hc with ⟨r, hr⟩ | hr
    · rw [h] at hr; exact nomatch hr
    · exact hr
  unfold Node.call
  simp only [h, hrec, List.append_nil, ite_self]

theorem calls_lead {env : RepEnv} (ops : List StoreOp) {n : Node} (hr : n.activity ≠ .off)
    (hm : n.mutations = []) (hc : AllClean env n ops) :
    ∃ new, (calls env n ops).events = n.events ++ new ∧
      Leads n.tables new (calls env n ops).tables ∧
      new.map (·.stmt) = committed env n ops ∧
      (calls env n ops).mutations = [] ∧ (calls env n ops).activity ≠ .off ∧
      (StoreWF n.tables → StoreWF (calls env n ops).tables) := by
  induction ops generalizing n with
  | nil => exact ⟨[], by simp [calls], leads_nil, rfl, hm, hr, id⟩
  | cons op ops ih =>
    cases hres : (op.prog.run n.tables).2 with
    | error e =>
      have := call_clean_error (env := env) hm hres hc.1
      simp only [calls, committed, this]
      have h2 := hc.2
      rw [this] at h2
      obtain ⟨new, h⟩ := ih hr hm h2
      exact ⟨new, by simpa using h⟩
    | ok r =>
      obtain ⟨a, t'⟩ := r
      obtain ⟨c, h1, h2⟩ := call_recorded (env := env) hr hm hres
      obtain ⟨new, h3, h4, h5, h6, h7, h8⟩ := ih h2 (by rw [c.mutations]; rfl) hc.2
      refine ⟨numbered (n.seq.getD 0) ((op.prog.run n.tables).1.any (·.important))
        ((op.prog.run n.tables).1.flatMap (·.stmts)) ++ new, ?_, ?_, ?_, h6, h7, ?_⟩
      · simp only [calls]
        rw [h3, c.events]
        simp only [Node.recorded, Node.add_events, List.append_assoc]
      · simp only [calls]
        rw [c.tables] at h4
        exact leads_append (run_leads _ hres _ _) h4
      · simp only [committed, h1, List.map_append, numbered_stmts, h5]
      · intro hw
        simp only [calls]
        apply h8
        rw [c.tables]
        exact prog_wf hw hres

theorem allClean_of_return {env : RepEnv} (ops : List StoreOp) {n : Node} (h : AllReturn env n ops) :
    AllClean env n ops := by
  induction ops generalizing n with
  | nil => trivial
  | cons op ops ih =>
    obtain ⟨⟨a, ha⟩, h2⟩ := h
    obtain ⟨t', ht⟩ := call_ok ha
    exact ⟨.inl ⟨_, ht⟩, ih h2⟩

/-- **C45**: the events recorded for calls that return, replayed in order against the same tables, or in a
new process against the same persistent tables, give the same persistent tables. -/
theorem C45_replay (env : RepEnv) (n : Node) (hn : Recording n) (ops : List StoreOp)
    (h : AllReturn env n ops) :
    ∃ new, (calls env n ops).events = n.events ++ new ∧
      (∃ t, recover_event_stream new n.tables = .ok t ∧ t.app = (calls env n ops).tables.app) ∧
      (∃ t, recover_event_stream new { app := n.tables.app } = .ok t ∧
        t.app = (calls env n ops).tables.app) := by
  obtain ⟨new, h1, h2, _⟩ := calls_lead ops hn.on hn.mutations (allClean_of_return ops h)
  obtain ⟨o, ho⟩ := hn.tables
  have hw : StoreWF n.tables := by rw [ho]; exact run_wf_store o wf_empty
  obtain ⟨t, ht, hs⟩ := h2 _ (sim_refl _)
  obtain ⟨t', ht', hs'⟩ := h2 _ (sim_fresh hw)
  exact ⟨new, h1, ⟨t, ht, hs.app⟩, ⟨t', ht', hs'.app⟩⟩

example : Recording (Node.run exRep {} exSetup) := ⟨by decide, by decide, ⟨[], by decide⟩⟩

example : AllReturn exRep (Node.run exRep {} exSetup) [exAdd, exInsert, .getTokens .natural 1, .discard ["A"]] :=
  ⟨⟨_, rfl⟩, ⟨_, rfl⟩, ⟨_, rfl⟩, ⟨_, rfl⟩, trivial⟩

/-- The example stores rows and records thirteen statements. -/
example :
    (calls exRep (Node.run exRep {} exSetup) [exAdd, exInsert, .getTokens .natural 1, .discard ["A"]]).events.length = 13 ∧
    (calls exRep (Node.run exRep {} exSetup) [exAdd, exInsert, .getTokens .natural 1, .discard ["A"]]).tables.app.unblinded
      = [⟨"B", 1⟩] := by decide

/-! ### C46, C47: what a replica restores -/

/-- **C46** in full: after any smooth history that leaves the service idle, recovering from the
replica, its streams listed in any order, and then applying the local events gives the
persistent tables of the source. -/
def C46_statement : Prop :=
  ∀ (env : RepEnv) (n : Node) (steps : List RStep), Fresh n → Smooth env n steps →
    (n.run env steps).activity = .idle →
    ∀ l, Listing (n.run env steps).replica l →
      ∃ t t', Recovers (n.run env steps).replica l t ∧
        recover_event_stream (n.run env steps).events t = .ok t' ∧
        t'.app = (n.run env steps).tables.app

/-- A voucher added while the first snapshot is being uploaded. -/
def exRepFirst : List RStep :=
  [.enable, .listed, .call exAdd, .linked, .uploaded, .listed, .linked, .uploaded, .listed]

/-- **C46 fails**: a snapshot taken before the first change is treated as if it had change number
1.  The first change made while it is uploaded is pruned without having been uploaded: the
random tokens of the new voucher are restored without the voucher, which the database refuses. -/
theorem C46_fails : ¬ C46_statement := by
  intro h
  obtain ⟨t, t', h1, _⟩ := h exRepLazy {} exRepFirst exFresh
    ⟨trivial, trivial, .inl ⟨_, rfl⟩, trivial, trivial, trivial, trivial, trivial, trivial, trivial⟩
    (by decide) _ (List.Perm.refl _)
  have h2 : recover (Node.run exRepLazy {} exRepFirst).replica.snapshot
      ((Node.run exRepLazy {} exRepFirst).replica.streams.map (·.2)) = .error .integrityError := by rfl
  unfold Recovers at h1
  rw [h2] at h1
  exact nomatch h1

/-- **C46**, partial: it holds whenever nothing is unsettled (in particular when the service is idle), in
histories with restarts and failing uploads, if no change is made while a
snapshot taken before the first change is being uploaded.  Missing: that case. -/
theorem C46_partial (env : RepEnv) (n : Node) (steps : List RStep) (hn : Fresh n)
    (ho : Orderly env n steps) (hu : ¬ Unsettled (n.run env steps).activity)
    (hsnap : (n.run env steps).replica.snapshot ≠ none)
    (l : List (List Change)) (hl : Listing (n.run env steps).replica l) :
    ∃ t t', Recovers (n.run env steps).replica l t ∧
      recover_event_stream (n.run env steps).events t = .ok t' ∧
      t'.app = (n.run env steps).tables.app := by
  have hinv := run_inv (P := fun _ => True) (fresh_inv hn trivial) steps ho (fun _ _ => trivial)
  have hs := hinv.settled hu
  cases hsn : (n.run env steps).replica.snapshot with
  | none => exact absurd hsn hsnap
  | some snap =>
    obtain ⟨t, h1, _, t', h2, h3⟩ := stable_recovers hsn (hs snap hsn) hl
    exact ⟨t, t', h1, h2, h3.app⟩

/-- An idle service has uploaded a snapshot: **C46_partial** applies to every idle state. -/
theorem C46_idle_has_snapshot (env : RepEnv) (n : Node) (steps : List RStep) (hn : Fresh n)
    (hi : (n.run env steps).activity = .idle) : (n.run env steps).replica.snapshot ≠ none := by
  intro hnone
  have h := run_c (env := env) (fresh_c hn) (fun _ => hn.mutations) steps
  have := h.snap hnone
  rw [hi, h.idle hi] at this
  simp at this

/-- Two vouchers, tokens, a second snapshot; and an upload under way when it ends. -/
def exLong : List RStep :=
  exSetup ++ [.call exAdd, .linked, .uploaded, .listed, .linked, .uploaded, .listed, .unlinked,
    .call exInsert, .call (.getTokens .natural 1), .call (.discard ["A"]), .restart, .listed,
    .call (.add .natural "later" "w" 1 0 (.ok ["c"])), .linked, .uploaded, .listed, .failed]

theorem exLongOrderly : Orderly exRep {} exLong := by
  refine ⟨trivial, trivial, trivial, trivial, trivial, ⟨.inl ⟨_, rfl⟩, fun h => False.elim h⟩, trivial,
    trivial, trivial, trivial, trivial, trivial, trivial, ⟨.inl ⟨_, rfl⟩, fun h => False.elim h⟩,
    ⟨.inl ⟨_, rfl⟩, fun h => False.elim h⟩, ⟨.inl ⟨_, rfl⟩, fun h => False.elim h⟩,
    ⟨by decide, fun h => h⟩, trivial, ⟨.inl ⟨_, rfl⟩, fun h => False.elim h⟩,
    trivial, trivial, trivial, fun h => h, trivial⟩

/-- The example ends with a snapshot, a stream of twelve statements and two vouchers. -/
example : ¬ Unsettled (Node.run exRep {} exLong).activity ∧
    (Node.run exRep {} exLong).replica.snapshot ≠ none ∧
    (Node.run exRep {} exLong).replica.streams.map (fun kv => (kv.1, kv.2.length)) = [(15, 12)] ∧
    (Node.run exRep {} exLong).tables.app.vouchers.map (·.number) = ["v", "w"] :=
  ⟨fun h => False.elim h, by decide, by decide, by decide⟩

/-- **C47** in full: whenever a node that has uploaded a snapshot disappears, what its replica restores
is a state its database was in. -/
def C47_statement : Prop :=
  ∀ (env : RepEnv) (n : Node) (steps : List RStep), Fresh n →
    (n.run env steps).replica.snapshot ≠ none →
    ∀ l, Listing (n.run env steps).replica l →
      ∃ t, Recovers (n.run env steps).replica l t ∧
        ∃ m ∈ moments env n steps, m.tables.app = t.app

/-- A second snapshot has replaced the first; the stream it makes obsolete is still there. -/
def exStale : List RStep :=
  exSetup ++ [.call exAdd, .linked, .uploaded, .listed, .linked]

/-- **C47 fails**: an event stream that a new snapshot makes obsolete is replayed on top of it, if
the node disappears before it is unlinked.  Here the voucher of the snapshot is inserted again
and the recovery fails. -/
theorem C47_fails : ¬ C47_statement := by
  intro h
  obtain ⟨t, h1, _⟩ := h exRep {} exStale exFresh (by decide) _ (List.Perm.refl _)
  have h2 : recover (Node.run exRep {} exStale).replica.snapshot
      ((Node.run exRep {} exStale).replica.streams.map (·.2)) = .error .integrityError := by rfl
  unfold Recovers at h1
  rw [h2] at h1
  exact nomatch h1

/-- The history of **C47_fails** has no failing call, restart or failing upload. -/
example : Smooth exRep {} exStale :=
  ⟨trivial, trivial, trivial, trivial, trivial, .inl ⟨_, rfl⟩, trivial, trivial, trivial, trivial, trivial⟩

/-- The node stops after an event stream is linked and before it has learned that; started again, it
uploads the same events in a longer stream. -/
def exOverlap : List RStep :=
  exSetup ++ [.call exAdd, .linked, .restart, .call (.add .natural "later" "w" 1 0 (.ok ["c"])),
    .listed, .linked, .uploaded, .listed]

/-- **C47 fails** after a restart, with an idle service: two streams with the same events. -/
theorem C47_overlap_fails :
    (Node.run exRepLazy {} exOverlap).activity = .idle ∧
    (Node.run exRepLazy {} exOverlap).replica.snapshot ≠ none ∧
    recover (Node.run exRepLazy {} exOverlap).replica.snapshot
      ((Node.run exRepLazy {} exOverlap).replica.streams.map (·.2)) = .error .integrityError :=
  ⟨by decide, by decide, by rfl⟩

/-- The node stops between the transaction of a call and the one that records its statements. -/
def exRepLost : List RStep :=
  exSetup ++ [.crashedCall exAdd, .listed, .call exInsert,
    .call (.add .natural "later" "w" 1 0 (.ok ["c"])), .linked, .uploaded, .listed]

/-- **C47 fails** after such a crash, with an idle service: the voucher is not in the replica and never will
be; what is restored has the tokens of a voucher that is not there. -/
theorem C47_lost_fails :
    (Node.run exRepLazy {} exRepLost).activity = .idle ∧
    (Node.run exRepLazy {} exRepLost).events = [] ∧
    (Node.run exRepLazy {} exRepLost).tables.app.vouchers.map (·.number) = ["v", "w"] ∧
    (recover (Node.run exRepLazy {} exRepLost).replica.snapshot
      ((Node.run exRepLazy {} exRepLost).replica.streams.map (·.2))).toOption.map
        (fun t => t.app.vouchers.map (·.number)) = some ["w"] :=
  ⟨by decide, by decide, by decide, by rfl⟩

/-- **C47**, partial: in an orderly history, if no stream of the replica is older than its snapshot, what it restores is a state
the database was in.  Missing: see the failures above. -/
theorem C47_partial (env : RepEnv) (n : Node) (steps : List RStep) (hn : Fresh n)
    (ho : Orderly env n steps) (hsnap : (n.run env steps).replica.snapshot ≠ none)
    (hst : NoStale (n.run env steps).replica)
    (l : List (List Change)) (hl : Listing (n.run env steps).replica l) :
    ∃ t, Recovers (n.run env steps).replica l t ∧ ∃ m ∈ moments env n steps, m.tables.app = t.app := by
  have hinv := run_inv (P := fun a => ∃ m ∈ moments env n steps, m.tables.app = a)
    (fresh_inv hn (moments_head env n steps)) steps ho (fun m hm => ⟨m, hm, rfl⟩)
  cases hsn : (n.run env steps).replica.snapshot with
  | none => exact absurd hsn hsnap
  | some snap =>
    obtain ⟨ev, tb, hs⟩ := hinv.noStale hsn hst
    obtain ⟨t, h1, h2, _⟩ := stable_recovers hsn hs hl
    exact ⟨t, h1, h2⟩

/-- A stream older than the snapshot is in the replica only between the upload of a new snapshot and
the end of the pruning that follows. -/
theorem C47_window (env : RepEnv) (n : Node) (steps : List RStep) (hn : Fresh n)
    (ho : Orderly env n steps) (h : ¬ Unsettled (n.run env steps).activity) :
    NoStale (n.run env steps).replica := by
  have hinv := run_inv (P := fun _ => True) (fresh_inv hn trivial) steps ho (fun _ _ => trivial)
  intro snap hs kv hkv
  obtain ⟨_, _, st⟩ := hinv.settled h snap hs
  exact (st.good kv hkv).2

/-- The history **C46_partial** is applied to also meets the hypotheses of **C47_partial**. -/
example : NoStale (Node.run exRep {} exLong).replica :=
  C47_window exRep {} exLong exFresh exLongOrderly (fun h => False.elim h)

/-! ### C48: what is recorded -/

/-- **C48** in full: the statements recorded are those of the transactions that were committed, in
the order of the commits. -/
def C48_statement : Prop :=
  ∀ (env : RepEnv) (n : Node) (ops : List StoreOp), Recording n →
    (calls env n ops).events.map (·.stmt) = n.events.map (·.stmt) ++ committed env n ops

/-- A node that records changes, with replication set up. -/
theorem exRecording : Recording (Node.run exRep {} exSetup) := ⟨by decide, by decide, ⟨[], by decide⟩⟩

/-- **C48 fails**: the statements of a call that was rolled back are recorded with those of the next
call that returns.  Here the first call is refused because the same random token
occurs twice. -/
theorem C48_fails : ¬ C48_statement := by
  intro h
  have := h exRep (Node.run exRep {} exSetup)
    [.add .natural "now" "v" 2 0 (.ok ["a", "a"]), .add .natural "later" "w" 1 0 (.ok ["c"])] exRecording
  revert this
  decide

/-- **C48**, partial: it holds if every call returns or raises before it has executed a statement.
Missing: calls that raise later. -/
theorem C48_partial (env : RepEnv) (n : Node) (ops : List StoreOp) (hn : Recording n)
    (hc : AllClean env n ops) :
    (calls env n ops).events.map (·.stmt) = n.events.map (·.stmt) ++ committed env n ops := by
  obtain ⟨new, h1, _, h3, _⟩ := calls_lead ops hn.on hn.mutations hc
  rw [h1, List.map_append, h3]

/-- With failing calls: nothing that was committed is missing, and nothing recorded is dropped or changed. -/
theorem C48_nothing_lost (env : RepEnv) (n : Node) (ops : List StoreOp) (hn : n.activity ≠ .off) :
    ∃ new, (calls env n ops).events = n.events ++ new ∧
      (committed env n ops).Sublist (new.map (·.stmt)) := by
  induction ops generalizing n with
  | nil => exact ⟨[], by simp [calls], by simp [committed]⟩
  | cons op ops ih =>
    simp only [calls, committed]
    cases hres : (op.prog.run n.tables).2 with
    | error e =>
      have hcall : n.call env op = (.error e, { n with mutations := n.mutations ++ (op.prog.run n.tables).1 }) := by
        unfold Node.call
        simp only [hres, if_neg hn]
      rw [hcall]
      obtain ⟨new, h1, h2⟩ := ih _ (show ({ n with mutations := n.mutations ++ (op.prog.run n.tables).1 } : Node).activity ≠ _ from hn)
      exact ⟨new, h1, by simpa using h2⟩
    | ok r =>
      obtain ⟨a, t'⟩ := r
      have hcall : n.call env op = (.ok a, ({ n with tables := t', mutations := [] } : Node).signal env
          (n.mutations ++ (op.prog.run n.tables).1)) := by
        unfold Node.call
        simp only [hres, if_neg hn]
      rw [hcall]
      obtain ⟨c, ha⟩ := signal_core env ({ n with tables := t', mutations := [] } : Node)
        (n.mutations ++ (op.prog.run n.tables).1)
      have hon : (({ n with tables := t', mutations := [] } : Node).signal env
          (n.mutations ++ (op.prog.run n.tables).1)).activity ≠ .off := by
        rcases ha with ha | ⟨_, m, _, ha⟩
        · rw [ha]; exact hn
        · rw [ha]; exact run_jobs_not_off m _
      obtain ⟨new, h1, h2⟩ := ih _ hon
      refine ⟨numbered (n.seq.getD 0) ((n.mutations ++ (op.prog.run n.tables).1).any (·.important))
        ((n.mutations ++ (op.prog.run n.tables).1).flatMap (·.stmts)) ++ new, ?_, ?_⟩
      · rw [h1, c.events]
        simp only [Node.recorded, Node.add_events, List.append_assoc]
      · rw [List.map_append, numbered_stmts, List.flatMap_append]
        exact (List.sublist_append_right _ _).append h2

example : AllClean exRep (Node.run exRep {} exSetup) [exAdd, .getTokens .natural 1, exInsert] :=
  ⟨.inl ⟨_, rfl⟩, .inr rfl, .inl ⟨_, rfl⟩, trivial⟩

/-! ### C49: no event is dropped before it is in the replica -/

/-- **C49** in full: an event that is removed from the local stream is in the replica. -/
def C49_statement : Prop :=
  ∀ (env : RepEnv) (n : Node) (steps : List RStep) (s : RStep) (e : Change), Fresh n →
    e ∈ (n.run env steps).events → e ∉ (n.run env (steps ++ [s])).events →
    InReplica (n.run env (steps ++ [s])).replica e

/-- **C49 fails**: the first change, made while a snapshot taken before it is being uploaded, is removed
when that upload ends. -/
theorem C49_fails : ¬ C49_statement := by
  intro h
  rcases h exRep {} (exRepFirst.take 4) .uploaded ⟨1, .insertVoucher "v" 2 "now", true⟩ exFresh (by decide) (by decide)
    with ⟨kv, h1, _⟩ | ⟨snap, h1, h2⟩
  · have : (Node.run exRep {} (exRepFirst.take 4 ++ [.uploaded])).replica.streams = [] := by decide
    rw [this] at h1
    simp at h1
  · have : (Node.run exRep {} (exRepFirst.take 4 ++ [.uploaded])).replica.snapshot = some ⟨{}, [], none⟩ := by decide
    rw [this] at h1
    injection h1 with h1
    subst h1
    simp at h2

/-- **C49**, partial: in every history, failing calls, crashes at any point and failing uploads included, it holds
unless the snapshot being uploaded was taken before the first event.  Missing: that case. -/
theorem C49_partial (env : RepEnv) (n : Node) (steps : List RStep) (s : RStep) (e : Change) (hn : Fresh n)
    (hu : ¬ UploadingFirst (n.run env steps).activity)
    (h1 : e ∈ (n.run env steps).events) (h2 : e ∉ (n.run env (steps ++ [s])).events) :
    InReplica (n.run env (steps ++ [s])).replica e := by
  have hg := run_g (env := env) (fresh_g hn) steps
  rw [run_two] at h2 ⊢
  exact removed_kept hg hu s h1 h2

/-- The hypotheses are met: an event is removed when the stream with it has been uploaded. -/
example :
    (⟨1, .insertVoucher "v" 2 "now", true⟩ : Change) ∈ (Node.run exRep {} (exSetup ++ [.call exAdd, .linked])).events ∧
    (⟨1, .insertVoucher "v" 2 "now", true⟩ : Change) ∉
      (Node.run exRep {} (exSetup ++ [.call exAdd, .linked] ++ [.uploaded])).events := by decide

/-! ### C50: important events are uploaded -/

/-- **C50**: in every history, as long as the service runs an upload of every important event that is
not yet in the replica is queued or in progress. -/
theorem C50_important_pending (env : RepEnv) (n : Node) (steps : List RStep) (hn : Fresh n)
    (hr : Running (n.run env steps)) (e : Change) (he : e ∈ (n.run env steps).events)
    (hi : e.important = true) : UploadPending (n.run env steps) e := by
  have h := run_c (env := env) (fresh_c hn) (fun _ => hn.mutations) steps
  rcases h.cov with h1 | h1 | h1
  · exact absurd h1 hr.1
  · exact absurd h1 hr.2
  · rcases h1 e he hi with h2 | h2 | h2 | h2
    · exact .inl h2
    · exact .inr (.inl h2)
    · exact .inr (.inr (.inl h2.1))
    · exact .inr (.inr (.inr h2.1))

/-- A voucher and its random tokens are important: all that is recorded for the call that stores them
is marked, whatever earlier calls left behind. -/
theorem C50_vouchers_are_important (env : RepEnv) (n : Node) (hn : n.activity ≠ .off) (o : Order)
    (now voucher : String) (expected counter : Nat) (tokens : List String) (a : Answer)
    (h : (n.call env (.add o now voucher expected counter (.ok tokens))).1 = .ok a)
    (hnew : ∀ r ∈ n.tables.app.tokens, ¬ (r.voucher = voucher ∧ r.counter = counter)) :
    ∃ new, (n.call env (.add o now voucher expected counter (.ok tokens))).2.events = n.events ++ new ∧
      (∀ e ∈ new, e.important = true) ∧
      (∃ e ∈ new, e.stmt = .insertVoucher voucher expected now) ∧
      ∀ x ∈ tokens, ∃ e ∈ new, e.stmt = .insertToken voucher counter x := by
  have hsel : select_random_tokens voucher counter n.tables = [] := by
    unfold select_random_tokens
    rw [List.map_eq_nil_iff, List.filter_eq_nil_iff]
    intro r hr hh
    simp only [Bool.and_eq_true, beq_iff_eq] at hh
    exact hnew r hr hh
  obtain ⟨t', ht⟩ := call_ok h
  have hrun : ((StoreOp.add o now voucher expected counter (.ok tokens)).prog.run n.tables).1 =
      [⟨true, [.insertVoucher voucher expected now]⟩,
        ⟨true, tokens.map (fun x => .insertToken voucher counter x)⟩] := by
    revert ht
    have hlen : (o.f []).length = 0 := by rw [(o.perm []).length_eq]; rfl
    simp only [StoreOp.prog, store_add, Prog.map, Prog.run, hsel, hlen, Nat.lt_irrefl, gt_iff_lt, if_false]
    split
    · intro hh; exact nomatch hh
    · split
      · intro hh; exact nomatch hh
      · intro _; rfl
  unfold Node.call
  simp only [ht, hrun, if_neg hn]
  obtain ⟨c, _⟩ := signal_core env ({ n with tables := t', mutations := [] } : Node) (n.mutations ++
    [⟨true, [.insertVoucher voucher expected now]⟩, ⟨true, tokens.map (fun x => .insertToken voucher counter x)⟩])
  refine ⟨_, c.events, ?_, ?_⟩
  · intro e he
    rw [(numbered_mem he).2.2]
    simp
  · refine ⟨numbered_has (by simp), fun x hx => numbered_has ?_⟩
    simp only [List.flatMap_append, List.mem_append]
    right
    simp [hx]

example : ((Node.run exRep {} exSetup).call exRep exAdd).1 = .ok (.tokens ["a", "b"]) ∧
    (Node.run exRep {} exSetup).activity ≠ .off ∧ (Node.run exRep {} exSetup).tables.app.tokens = [] :=
  ⟨rfl, by decide, by decide⟩

/-- The hypotheses are met while another upload is in progress: the voucher waits in the queue. -/
example :
    Running (Node.run exRep {} (exSetup ++ [.call exAdd, .call (.add .natural "later" "w" 1 0 (.ok ["c"]))])) ∧
    (⟨4, .insertVoucher "w" 1 "later", true⟩ : Change) ∈
      (Node.run exRep {} (exSetup ++ [.call exAdd, .call (.add .natural "later" "w" 1 0 (.ok ["c"]))])).events :=
  ⟨⟨by decide, by decide⟩, by decide⟩

/-! ### C51: numbers and order of events -/

/-- **C51**: numbers increase strictly over the life of a node: the events present at any time are in increasing order, and an
event recorded later has a larger number than every event present before, in every history. -/
theorem C51_numbers_increase (env : RepEnv) (n : Node) (steps more : List RStep) (hn : Fresh n) :
    (n.run env steps).events.Pairwise (fun a b => a.sequence < b.sequence) ∧
    ∀ e' ∈ (n.run env (steps ++ more)).events, e' ∉ (n.run env steps).events →
      ∀ e ∈ (n.run env steps).events, e.sequence < e'.sequence := by
  have hg := run_g (env := env) (fresh_g hn) steps
  refine ⟨hg.num.inc, fun e' he' hne e he => ?_⟩
  rw [run_two] at he'
  rcases (run_new more).2 e' he' with h | h
  · exact absurd h hne
  · exact Nat.lt_of_le_of_lt (hg.num.le e he).2 h

/-- Streams with different highest numbers have different names. -/
theorem C51_names_injective (a b : Nat) (h : event_stream_name a = event_stream_name b) : a = b := by
  unfold event_stream_name at h
  have := String.ofList_injective h
  exact decimal_injective (List.append_cancel_left this)

/-- The pruner takes a stream for old exactly if its highest number is not above the snapshot's. -/
theorem C51_prune_names (k seqnum : Nat) :
    is_old_eventstream seqnum (event_stream_name k) = .ok (decide (k ≤ seqnum)) := by
  unfold is_old_eventstream
  rw [stream_number_name]

/-- Events cut into streams are put back in order, whatever order the streams are listed in. -/
theorem C51_order_restored (events : List Change)
    (hi : events.Pairwise (fun a b => a.sequence < b.sequence))
    (pieces : List (List Change)) (hp : pieces.flatten = events) (l : List (List Change))
    (hl : l.Perm pieces) : (sorted_event_streams l).flatten = events :=
  order_restored hi hp hl

/-- Three events in two streams and an empty one, listed backwards. -/
example :
    let e (k : Nat) : Change := ⟨k, .clearToDiscard, false⟩
    sorted_event_streams [[e 3], [], [e 1, e 2]] = [[e 1, e 2], [e 3]] := by decide

/-- A later event after the earlier ones are pruned. -/
example :
    (Node.run exRep {} (exSetup ++ [.call exAdd])).events.map (·.sequence) = [1, 2, 3] ∧
    (Node.run exRep {} (exSetup ++ [.call exAdd] ++ [.linked, .uploaded, .call exInsert])).events.map (·.sequence)
      = [4, 5, 6, 7, 8] := by decide

/-! ### C53: replay across a restart -/

/-- **C53** in full: the events recorded before and after a restart, replayed one after
the other on the persistent tables they started from, give the tables the source has. -/
def C53_statement : Prop :=
  ∀ (env : RepEnv) (n : Node) (before after : List StoreOp), Recording n →
    AllReturn env n before → AllReturn env ((calls env n before).restart env) after →
    ∃ new, (calls env ((calls env n before).restart env) after).events = n.events ++ new ∧
      ∃ t, recover_event_stream new { app := n.tables.app } = .ok t ∧
        t.app = (calls env ((calls env n before).restart env) after).tables.app

/-- **C53 fails**: taking tokens is recorded and replayed although the note is only in
temporary tables.  A token taken, forgotten by a restart and taken again is inserted
twice by the replay, which the database refuses. -/
theorem C53_fails : ¬ C53_statement := by
  intro h
  obtain ⟨new, h1, t, h2, _⟩ := h exRep (Node.run exRep {} exSetup)
    [exAdd, exInsert, .getTokens .natural 1] [.getTokens .natural 1] exRecording
    ⟨⟨_, rfl⟩, ⟨_, rfl⟩, ⟨_, rfl⟩, trivial⟩ ⟨⟨_, rfl⟩, trivial⟩
  have h3 : (Node.run exRep {} exSetup).events = [] := by decide
  rw [h3, List.nil_append] at h1
  rw [← h1] at h2
  have h4 : recover_event_stream (calls exRep ((calls exRep (Node.run exRep {} exSetup)
      [exAdd, exInsert, .getTokens .natural 1]).restart exRep) [.getTokens .natural 1]).events
      { app := (Node.run exRep {} exSetup).tables.app } = .error .integrityError := by rfl
  rw [h4] at h2
  exact nomatch h2

/-- **C53**, partial: it holds if no token is in use when the process ends.  Missing: that case. -/
theorem C53_partial (env : RepEnv) (n : Node) (before after : List StoreOp) (hn : Recording n)
    (h1 : AllReturn env n before) (h2 : AllReturn env ((calls env n before).restart env) after)
    (hu : (calls env n before).tables.temp.in_use = []) :
    ∃ new, (calls env ((calls env n before).restart env) after).events = n.events ++ new ∧
      ∃ t, recover_event_stream new { app := n.tables.app } = .ok t ∧
        t.app = (calls env ((calls env n before).restart env) after).tables.app := by
  obtain ⟨o, ho⟩ := hn.tables
  have hw : StoreWF n.tables := by rw [ho]; exact run_wf_store o wf_empty
  obtain ⟨new1, e1, l1, _, _, on1, w1⟩ := calls_lead before hn.on hn.mutations (allClean_of_return before h1)
  have hw1 := w1 hw
  have hr : (calls env n before).restart env =
      ({ calls env n before with tables := { (calls env n before).tables with temp := {} }, mutations := [] } : Node).start_service env := by
    unfold Node.restart
    dsimp only
    rw [if_neg on1]
  have ht : ((calls env n before).restart env).tables = (calls env n before).tables := by
    rw [hr]
    exact (leads_restart hu hw1.to_discard hw1.to_reset).symm
  obtain ⟨new2, e2, l2, _⟩ := calls_lead after (n := (calls env n before).restart env)
    (by rw [hr]; simp [Node.start_service]) (by rw [hr]; rfl) (allClean_of_return after h2)
  refine ⟨new1 ++ new2, ?_, ?_⟩
  · rw [e2, ← List.append_assoc, ← e1, hr]
    rfl
  · rw [ht] at l2
    obtain ⟨t, h3, h4⟩ := leads_append l1 l2 _ (sim_fresh hw)
    exact ⟨t, h3, h4.app⟩

example : AllReturn exRep (Node.run exRep {} exSetup) [exAdd, exInsert, .getTokens .natural 1, .discard ["A"]] ∧
    (calls exRep (Node.run exRep {} exSetup)
      [exAdd, exInsert, .getTokens .natural 1, .discard ["A"]]).tables.temp.in_use = [] ∧
    AllReturn exRep ((calls exRep (Node.run exRep {} exSetup)
      [exAdd, exInsert, .getTokens .natural 1, .discard ["A"]]).restart exRep) [.getTokens .natural 1] :=
  ⟨⟨⟨_, rfl⟩, ⟨_, rfl⟩, ⟨_, rfl⟩, ⟨_, rfl⟩, trivial⟩, by decide, ⟨_, rfl⟩, trivial⟩

/-! ### C79: replication goes on -/

/-- **C79** in full: in any history of a node with replication set up, if from now on the grid does everything it is asked, all important changes reach the replica, without the node being
started again. -/
def C79_statement : Prop :=
  ∀ (env : RepEnv) (n : Node) (steps : List RStep), Fresh n → (n.run env steps).activity ≠ .off →
    ∃ more, (∀ s ∈ more, NoRestart s) ∧
      ∀ e ∈ (n.run env steps).events, e.important = true → e ∉ (n.run env (steps ++ more)).events

theorem dead_run {env : RepEnv} {n : Node} (h : n.activity = .dead) (more : List RStep)
    (hs : ∀ s ∈ more, NoRestart s) : ∀ e ∈ n.events, e ∈ (n.run env more).events := by
  induction more generalizing n with
  | nil => exact fun e he => he
  | cons s ss ih =>
    have h1 := hs s (by simp)
    obtain ⟨h2, h3⟩ := dead_stays (env := env) h s (by rintro rfl; exact h1) (by rintro op rfl; exact h1)
    exact fun e he => ih h2 (fun s' hs' => hs s' (by simp [hs'])) e (h3 e he)

/-- **C79 fails**: one failing operation on the grid ends replication until the node is started again. -/
theorem C79_fails : ¬ C79_statement := by
  intro h
  obtain ⟨more, h1, h2⟩ := h exRep {} (exSetup ++ [.call exAdd, .failed]) exFresh (by decide)
  refine h2 ⟨1, .insertVoucher "v" 2 "now", true⟩ (by decide) rfl ?_
  rw [run_two]
  exact dead_run (by decide) more h1 _ (by decide)

/-- **C79**, partial: it holds, after any history with failing calls and crashes, as long as the service has not been ended by a
failure: the service comes to rest, and no important event is left.  Missing: a service that was ended. -/
theorem C79_partial (env : RepEnv) (n : Node) (steps : List RStep) (hn : Fresh n)
    (hr : Running (n.run env steps)) :
    ∃ more, (∀ s ∈ more, IsAnswer s) ∧ (n.run env (steps ++ more)).activity = .idle ∧
      ∀ e ∈ (n.run env (steps ++ more)).events, e.important = false := by
  have hp : PruneOK (n.run env steps) := run_prune (fun k hk => by rw [hn.off] at hk; exact nomatch hk) steps
  obtain ⟨more, h1, h2⟩ := comes_to_rest env _ (n.run env steps) (Nat.le_refl _) hr hp
  refine ⟨more, h1, by rw [run_two]; exact h2, fun e he => ?_⟩
  cases hi : e.important with
  | false => rfl
  | true =>
    have hidle : (n.run env (steps ++ more)).activity = .idle := by rw [run_two]; exact h2
    have hc := run_c (env := env) (fresh_c hn) (fun _ => hn.mutations) (steps ++ more)
    rcases C50_important_pending env n (steps ++ more) hn ⟨by rw [hidle]; simp, by rw [hidle]; simp⟩ e he hi
      with h | h | h | h
    · rw [hc.idle hidle] at h; simp at h
    · rw [hc.idle hidle] at h; simp at h
    · rw [hidle] at h; exact h.elim
    · rw [hidle] at h; exact nomatch h

/-- The hypotheses are met with two vouchers waiting and an upload in progress. -/
example :
    Running (Node.run exRep {} (exSetup ++ [.call exAdd, .call (.add .natural "later" "w" 1 0 (.ok ["c"]))])) ∧
    (Node.run exRep {} (exSetup ++ [.call exAdd, .call (.add .natural "later" "w" 1 0 (.ok ["c"]))])).events.length = 5 :=
  ⟨⟨by decide, by decide⟩, by decide⟩

/-! ### C80: recovered tokens can be spent -/

/-- **C80** in full: every unspent, not sequestered token of a recovered database can be obtained for spending. -/
def C80_statement : Prop :=
  ∀ (env : RepEnv) (n : Node) (steps : List RStep) (l : List (List Change)) (t : Tables), Fresh n →
    Listing (n.run env steps).replica l → Recovers (n.run env steps).replica l t →
    ∀ x, StoredIn t.app true x → Available t x

/-- The node takes a token, and disappears after the next upload, before it has spent it. -/
def exRepTaken : List RStep :=
  exSetup ++ [.call exAdd, .call exInsert, .call (.getTokens .natural 1), .linked, .uploaded, .listed,
    .call (.add .natural "later" "w" 1 0 (.ok ["c"])), .linked, .uploaded, .listed]

/-- **C80 fails**: a token that the lost node had taken is noted as in use in the recovered process, although
nothing uses it. -/
theorem C80_fails : ¬ C80_statement := by
  intro h
  have h1 : recover (Node.run exRepLazy {} exRepTaken).replica.snapshot
      ((Node.run exRepLazy {} exRepTaken).replica.streams.map (·.2)) =
      .ok ⟨(Node.run exRepLazy {} exRepTaken).tables.app, ⟨["A"], [], []⟩⟩ := by rfl
  have := h exRepLazy {} exRepTaken _ _ exFresh (List.Perm.refl _) h1 "A"
    ⟨⟨"A", 1⟩, by decide, rfl, ⟨1, "v", true, some "key"⟩, by decide, rfl, rfl⟩
  exact this.2 (by simp)

/-- **C80**, partial: once the recovered node has been started again every such token can be obtained. -/
theorem C80_restart_partial (replica : Replica) (l : List (List Change)) (t : Tables)
    (_ : Recovers replica l t) (x : String) (hx : StoredIn t.app true x) :
    Available ((StoreOp.step .restart t).2) x := by
  refine ⟨hx, ?_⟩
  simp [StoreOp.step]

/-- **C80**, partial: when all events are uploaded, every token that could be obtained from the
source can be obtained from the recovered node.  Missing: tokens the source was using. -/
theorem C80_partial (env : RepEnv) (n : Node) (steps : List RStep) (hn : Fresh n)
    (ho : Orderly env n steps) (hu : ¬ Unsettled (n.run env steps).activity)
    (he : (n.run env steps).events = []) (l : List (List Change)) (t : Tables)
    (hl : Listing (n.run env steps).replica l) (ht : Recovers (n.run env steps).replica l t)
    (x : String) (hx : Available (n.run env steps).tables x) : Available t x := by
  have hinv := run_inv (P := fun _ => True) (fresh_inv hn trivial) steps ho (fun _ _ => trivial)
  have hs := hinv.settled hu
  cases hsn : (n.run env steps).replica.snapshot with
  | none =>
    unfold Recovers recover at ht
    rw [hsn] at ht
    exact nomatch ht
  | some snap =>
    obtain ⟨t1, h1, _, t', h2, h3⟩ := stable_recovers hsn (hs snap hsn) hl
    rw [he] at h2
    unfold Recovers at h1 ht
    rw [ht] at h1
    injection h1 with h1
    subst h1
    injection h2 with h2
    subst h2
    refine ⟨?_, fun hm => hx.2 (h3.in_use x hm)⟩
    rw [h3.app]
    exact hx.1

/-- The hypotheses are met: one token is in use, the other can be obtained on both sides. -/
example : (Node.run exRepLazy {} exRepTaken).events = [] ∧ ¬ Unsettled (Node.run exRepLazy {} exRepTaken).activity ∧
    Available (Node.run exRepLazy {} exRepTaken).tables "B" :=
  ⟨by decide, fun h => False.elim h,
    ⟨⟨"B", 1⟩, by decide, rfl, ⟨1, "v", true, some "key"⟩, by decide, rfl, rfl⟩, by decide⟩

example : Orderly exRepLazy {} exRepTaken := by
  refine ⟨trivial, trivial, trivial, trivial, trivial, ⟨.inl ⟨_, rfl⟩, fun h => False.elim h⟩,
    ⟨.inl ⟨_, rfl⟩, fun h => False.elim h⟩, ⟨.inl ⟨_, rfl⟩, fun h => False.elim h⟩, trivial, trivial, trivial,
    ⟨.inl ⟨_, rfl⟩, fun h => False.elim h⟩, trivial, trivial, trivial, trivial⟩

end ZKAP
