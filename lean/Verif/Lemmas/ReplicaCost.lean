import Verif.Spec.ReplicaCost
import Verif.Lemmas.ReplicationStep
import Verif.Lemmas.ReplicationJobs
import Verif.Lemmas.ReplicationAll
import Verif.Props.Pricing

/-! When the service comes to rest, the policy has seen the replica and has not asked for a snapshot. -/
namespace ZKAP
open Spec

/-- Nothing to tidy, or a snapshot that was `seen` with this replica was not worth taking. -/
def Fine (env : RepEnv) (seen : Snapshot → Replica → Prop) (r : Replica) : Prop :=
  r.streams = [] ∨ ∃ snap, seen snap r ∧ env.should_snapshot snap r = false

def KAct (env : RepEnv) (seen : Snapshot → Replica → Prop) (n : Node) : Activity → Prop
  | .snapshotUploading _ k _ => ∀ kv ∈ n.replica.streams, kv.1 ≤ k
  | .pruneListing k => ∀ kv ∈ n.replica.streams, kv.1 ≤ k
  | .pruning _ names => ∀ kv ∈ n.replica.streams, kv.1 ∈ names
  | .eventUploading _ _ true => True
  | .considerListing snap => seen snap n.replica
  | .off => Fine env seen n.replica
  | _ => .consider_snapshot ∈ n.jobs ∨ .snapshot ∈ n.jobs ∨ Fine env seen n.replica

structure KInv (env : RepEnv) (seen : Snapshot → Replica → Prop) (n : Node) : Prop where
  num : Numbered n
  idle : n.activity = .idle → n.jobs = []
  act : KAct env seen n n.activity

theorem run_jobs_k {env : RepEnv} {seen : Snapshot → Replica → Prop} {n : Node} (hn : Numbered n)
    (js : List Job)
    (hj : .consider_snapshot ∈ js ∨ .snapshot ∈ js ∨ Fine env seen n.replica)
    (hs : seen n.snapshot n.replica) : KInv env seen (n.run_jobs js) := by
  refine ⟨hn.core (run_jobs_data n js).core, run_jobs_idle n js, ?_⟩
  induction js with
  | nil =>
    rcases hj with h | h | h
    · exact nomatch h
    · exact nomatch h
    · exact .inr (.inr h)
  | cons j js ih =>
    simp only [Node.run_jobs]
    cases j with
    | startup => simpa [Node.begin, KAct] using hj
    | snapshot =>
      intro kv hkv
      have := hn.keys kv hkv
      cases hq : n.seq with
      | none => rw [hq] at this; exact Nat.le_trans this (Nat.zero_le _)
      | some q => rw [hq] at this; exact this
    | consider_snapshot => exact hs
    | event_stream =>
      have hj' : .consider_snapshot ∈ js ∨ .snapshot ∈ js ∨ Fine env seen n.replica := by simpa using hj
      simp only [Node.begin]
      cases hh : highest_sequence n.events with
      | none => exact ih hj'
      | some high => exact hj'

theorem KAct.jobs {env : RepEnv} {seen : Snapshot → Replica → Prop} {n m : Node} {a : Activity}
    (h : KAct env seen n a) (hr : m.replica = n.replica) (hj : ∀ j ∈ n.jobs, j ∈ m.jobs) :
    KAct env seen m a := by
  have hd : (.consider_snapshot ∈ n.jobs ∨ .snapshot ∈ n.jobs ∨ Fine env seen n.replica) →
      (.consider_snapshot ∈ m.jobs ∨ .snapshot ∈ m.jobs ∨ Fine env seen m.replica) := by
    rw [hr]
    rintro (h | h | h)
    · exact .inl (hj _ h)
    · exact .inr (.inl (hj _ h))
    · exact .inr (.inr h)
  cases a with
  | eventUploading e k b =>
    cases b with
    | true => trivial
    | false => exact hd h
  | off => simpa only [KAct, hr] using h
  | idle => exact hd h
  | startupListing => exact hd h
  | dead => exact hd h
  | snapshotUploading s k b => simpa only [KAct, hr] using h
  | pruneListing k => simpa only [KAct, hr] using h
  | pruning k ns => simpa only [KAct, hr] using h
  | considerListing s => simpa only [KAct, hr] using h

theorem queue_job_k {env : RepEnv} {seen : Snapshot → Replica → Prop} {n : Node} (h : KInv env seen n)
    (j : Job) (hs : seen n.snapshot n.replica) : KInv env seen (n.queue_job j) := by
  unfold Node.queue_job
  split
  · exact h
  · split
    · rename_i hi
      refine run_jobs_k h.num [j] ?_ hs
      have := h.act
      rw [hi] at this
      have hj : n.jobs = [] := h.idle hi
      simp only [KAct, hj] at this
      rcases this with h | h | h
      · exact nomatch h
      · exact nomatch h
      · exact .inr (.inr h)
    · rename_i hi
      exact ⟨h.num.of_same rfl rfl rfl, fun h => absurd h hi, h.act.jobs rfl (fun j hj => by simp [hj])⟩

theorem signal_k {env : RepEnv} {seen : Snapshot → Replica → Prop} {n : Node} (h : KInv env seen n)
    (ms : List Mutation) (hs : seen (n.signal env ms).snapshot (n.signal env ms).replica) :
    KInv env seen (n.signal env ms) := by
  have hc := (signal_core env n ms).1
  have hseen : seen (n.recorded ms).snapshot (n.recorded ms).replica := by
    have e1 : (n.signal env ms).snapshot = (n.recorded ms).snapshot := by
      simp only [Node.snapshot, hc.tables, hc.events, hc.seq]
    rwa [e1, hc.replica] at hs
  clear hs hc
  unfold Node.signal
  by_cases hms : ms.isEmpty = true
  · rw [if_pos hms]; exact h
  · rw [if_neg hms]
    dsimp only
    have hk : KInv env seen { (n.recorded ms) with
        important := n.important || ms.any (·.important)
        size := n.size + ((ms.flatMap (·.stmts)).map env.stmt_size).sum } :=
      ⟨(h.num.add_events _ _).of_same rfl rfl rfl, h.idle, h.act.jobs rfl (fun _ h => h)⟩
    split
    · have := queue_job_k hk .event_stream hseen
      exact ⟨this.num.of_same rfl rfl rfl, this.idle, this.act.jobs rfl (fun _ h => h)⟩
    · exact hk

theorem next_k {env : RepEnv} {seen : Snapshot → Replica → Prop} {n : Node} (hn : Numbered n)
    (hj : .consider_snapshot ∈ n.jobs ∨ .snapshot ∈ n.jobs ∨ Fine env seen n.replica)
    (hs : seen n.next.snapshot n.next.replica) : KInv env seen n.next := by
  have hd := run_jobs_data n n.jobs
  have e1 : n.next.snapshot = n.snapshot := by
    simp only [Node.next, Node.snapshot, hd.tables, hd.events, hd.seq]
  have e2 : n.next.replica = n.replica := hd.replica
  rw [e1, e2] at hs
  exact run_jobs_k hn n.jobs hj hs

theorem numbered_of_next {n : Node} (h : Numbered n.next) : Numbered n := by
  have hd := run_jobs_data n n.jobs
  exact h.of_same hd.events.symm hd.seq.symm hd.replica.symm

/-- No restart and no failure. -/
def Undisturbed : RStep → Prop
  | .restart | .crashedCall _ | .failed => False
  | _ => True

/-- A step without a restart or a failure. -/
theorem step_k {env : RepEnv} {seen : Snapshot → Replica → Prop} {n : Node} (h : KInv env seen n) (s : RStep)
    (hsm : Undisturbed s)
    (hnum : Numbered (n.step env s))
    (hs : seen (n.step env s).snapshot (n.step env s).replica) : KInv env seen (n.step env s) := by
  cases s with
  | restart => exact hsm.elim
  | crashedCall op => exact hsm.elim
  | failed => exact hsm.elim
  | enable =>
    simp only [Node.step] at hs ⊢
    split
    · rename_i hoff
      refine ⟨h.num.of_same rfl rfl rfl, nofun, ?_⟩
      have ha := h.act
      rw [hoff] at ha
      exact .inr (.inr ha)
    · exact h
  | call op =>
    simp only [Node.step, Node.call] at hs ⊢
    split at hs
    · rename_i e he
      exact ⟨h.num.of_same rfl rfl rfl, h.idle, h.act.jobs rfl (fun _ h => h)⟩
    · rename_i a t he
      dsimp only at hs ⊢
      refine signal_k ?_ _ hs
      exact ⟨h.num.of_same rfl rfl rfl, h.idle, h.act.jobs rfl (fun _ h => h)⟩
  | listed =>
    simp only [Node.step, Node.listed] at hs ⊢
    cases ha : n.activity with
    | startupListing =>
      rw [ha] at hs
      dsimp only at hs ⊢
      have hk := h.act
      rw [ha] at hk
      have hne : n.activity ≠ .idle := by rw [ha]; nofun
      refine next_k ?_ ?_ hs
      · split
        · exact h.num.core (queue_job_data n _).core
        · split
          · exact h.num.core (queue_job_data n _).core
          · exact h.num
      · split
        · exact .inr (.inl (mem_queue n _ hne))
        · split
          · rw [(queue_job_data n _).replica]
            rcases hk with hk | hk | hk
            · exact .inl (queue_mono n _ _ hne hk)
            · exact .inr (.inl (queue_mono n _ _ hne hk))
            · exact .inr (.inr hk)
          · exact hk
    | pruneListing k =>
      rw [ha] at hs
      dsimp only at hs ⊢
      have hk := h.act
      rw [ha] at hk
      cases hl : (n.replica.streams.map (·.1)).filter (fun j => decide (j ≤ k)) with
      | nil =>
        rw [hl] at hs
        dsimp only at hs ⊢
        refine next_k h.num (.inr (.inr (.inl ?_))) hs
        have : ∀ kv ∈ n.replica.streams, False := by
          intro kv hkv
          have h1 : kv.1 ∈ (n.replica.streams.map (·.1)).filter (fun j => decide (j ≤ k)) :=
            List.mem_filter.mpr ⟨List.mem_map_of_mem hkv, by simpa using hk kv hkv⟩
          rw [hl] at h1
          exact nomatch h1
        exact List.eq_nil_iff_forall_not_mem.mpr this
      | cons k1 ks =>
        refine ⟨h.num.of_same rfl rfl rfl, nofun, ?_⟩
        intro kv hkv
        rw [← hl]
        exact List.mem_filter.mpr ⟨List.mem_map_of_mem hkv, by simpa using hk kv hkv⟩
    | considerListing snap =>
      rw [ha] at hs
      dsimp only at hs ⊢
      have hk := h.act
      rw [ha] at hk
      have hne : n.activity ≠ .idle := by rw [ha]; nofun
      refine next_k ?_ ?_ hs
      · split
        · exact h.num.core (queue_job_data n _).core
        · exact h.num
      · cases hd : env.should_snapshot snap n.replica with
        | true => exact .inr (.inl (by rw [if_pos rfl]; exact mem_queue n _ hne))
        | false => exact .inr (.inr (.inr ⟨snap, by rw [if_neg (by simp)]; exact hk, by rw [if_neg (by simp)]; exact hd⟩))
    | _ => exact h
  | linked =>
    simp only [Node.step, Node.linked] at hs hnum ⊢
    split
    · rename_i snap k ha
      have hk := h.act
      rw [ha] at hk hnum
      exact ⟨hnum, nofun, hk⟩
    · rename_i es k ha
      rw [ha] at hnum
      exact ⟨hnum, nofun, trivial⟩
    · exact h
  | uploaded =>
    simp only [Node.step, Node.uploaded] at hs hnum ⊢
    split
    · rename_i snap k ha
      have hk := h.act
      rw [ha] at hk hnum
      exact ⟨hnum, nofun, hk⟩
    · rename_i es k ha
      rw [ha] at hs
      dsimp only at hs
      refine next_k ((h.num.prune k).core (queue_job_data _ _).core) (.inl (mem_queue _ _ ?_)) hs
      change n.activity ≠ _
      rw [ha]; nofun
    · exact h
  | unlinked =>
    simp only [Node.step, Node.unlinked] at hs hnum ⊢
    split
    · rename_i q k ks ha
      have hk := h.act
      rw [ha] at hk hs hnum
      dsimp only at hs hnum ⊢
      have hrest : ∀ kv ∈ n.replica.streams.filter (fun kv => kv.1 != k), kv.1 ∈ ks := by
        intro kv hkv
        obtain ⟨h1, h2⟩ := List.mem_filter.mp hkv
        rcases List.mem_cons.mp (hk kv h1) with h3 | h3
        · exact absurd h3 (by simpa using h2)
        · exact h3
      cases ks with
      | nil =>
        dsimp only at hs hnum ⊢
        rw [← ha] at hs hnum
        refine next_k (numbered_of_next hnum) (.inr (.inr (.inl ?_))) hs
        exact List.eq_nil_iff_forall_not_mem.mpr (fun kv hkv => nomatch hrest kv hkv)
      | cons k2 ks => exact ⟨hnum, nofun, hrest⟩
    · exact h

theorem smooth_parts {env : RepEnv} {n : Node} {s : RStep} {ss : List RStep} (h : Smooth env n (s :: ss)) :
    Undisturbed s ∧ Smooth env (n.step env s) ss :=
  ⟨by have := h.1; cases s <;> first | trivial | exact this, h.2⟩

theorem run_k {env : RepEnv} {seen : Snapshot → Replica → Prop} (steps : List RStep) :
    ∀ {n : Node}, GInv n → KInv env seen n → Smooth env n steps →
      (∀ m ∈ moments env n steps, seen m.snapshot m.replica) → KInv env seen (n.run env steps) := by
  induction steps with
  | nil => intro n _ h _ _; exact h
  | cons s ss ih =>
    intro n hg h hsm hseen
    obtain ⟨h1, h2⟩ := smooth_parts hsm
    have hg' : GInv (n.step env s) := step_g hg s
    refine ih hg' (step_k h s h1 hg'.num ?_) h2 (fun m hm => hseen m (List.mem_cons_of_mem _ hm))
    refine hseen _ (List.mem_cons_of_mem _ ?_)
    cases ss <;> exact List.mem_cons_self

/-- At rest. -/
theorem rest_k {env : RepEnv} {seen : Snapshot → Replica → Prop} {n : Node} (h : KInv env seen n)
    (hi : n.activity = .idle) : Fine env seen n.replica := by
  have ha := h.act
  rw [hi] at ha
  simp only [KAct, h.idle hi] at ha
  rcases ha with h | h | h
  · exact nomatch h
  · exact nomatch h
  · exact h

/-! ### Costs -/

theorem required_eq (v : Int) (enc : ShareEncoding) (hv : 0 < v) (hk : 0 < enc.needed) (s : Nat) :
    required_passes_for_data v enc s = objectCost v enc s := by
  simp only [required_passes_for_data, share_sizes_for_data, required_passes_eq v hv,
    total_replicate, share_size_eq _ _ hk, objectCost]

theorem policy_eq (v : Int) (enc : ShareEncoding) (hv : 0 < v) (hk : 0 < enc.needed) (s : Nat)
    (rs : List Nat) :
    (plugin_policy v enc).should_snapshot s (rs.map Int.ofNat)
      = decide (10 * objectCost v enc s < (rs.map (objectCost v enc)).sum) := by
  simp only [CostBasedPolicy.should_snapshot, plugin_policy, foldl_add_sum, Int.zero_add,
    required_eq v enc hv hk, List.map_map, Int.mul_comm _ 10]
  congr 3
  exact List.map_congr_left (fun r _ => required_eq v enc hv hk r)

theorem prefix_text (pre rest : List Char) : pre.isPrefixOf (String.ofList (pre ++ rest)).toList = true := by
  rw [String.toList_ofList]
  exact List.isPrefixOf_iff_prefix.mpr (List.prefix_append _ _)

theorem stream_prefix (k : Nat) : "event-stream-".toList.isPrefixOf (event_stream_name k).toList = true :=
  prefix_text "event-stream-".toList (decimal k)

/-- Everything in the replica is counted. -/
theorem replica_size_entries (z : Sizes) (r : Replica) :
    replica_size (replica_entries z r)
      = ((match r.snapshot with
          | none => []
          | some snap => [z.snapshot snap]) ++ r.streams.map (fun kv => z.stream kv.2)).map Int.ofNat := by
  have h : (r.streams.map (fun kv => (event_stream_name kv.1, (⟨"filenode", z.stream kv.2⟩ : DirectoryEntry)))).filter
      (fun kv => (kv.2.kind == "filenode" && kv.1 == "snapshot") || "event-stream-".toList.isPrefixOf kv.1.toList)
      = r.streams.map (fun kv => (event_stream_name kv.1, ⟨"filenode", z.stream kv.2⟩)) := by
    refine List.filter_eq_self.mpr (fun kv hkv => ?_)
    obtain ⟨x, _, rfl⟩ := List.mem_map.mp hkv
    simp only [stream_prefix, Bool.or_true]
  cases hs : r.snapshot with
  | none =>
    simp only [replica_size, replica_entries, hs, List.nil_append]
    rw [h]
    simp only [List.map_map]
    rfl
  | some snap =>
    simp only [replica_size, replica_entries, hs, List.filter_append, List.map_append]
    rw [h]
    simp only [List.map_map]
    rfl

theorem cost_env_eq (v : Int) (enc : ShareEncoding) (z : Sizes) (hv : 0 < v) (hk : 0 < enc.needed)
    (snap : Snapshot) (r : Replica) :
    (cost_env v enc z).should_snapshot snap r
      = decide (10 * objectCost v enc (z.snapshot snap) < replicaCost v enc z r) := by
  simp only [cost_env, replica_size_entries, policy_eq v enc hv hk, replicaCost]
  congr 2
  cases r.snapshot with
  | none => simp only [List.nil_append, List.map_map, Int.zero_add]; rfl
  | some s => simp only [List.cons_append, List.nil_append, List.map_cons, List.sum_cons, List.map_map]; rfl

/-- What is no file has no size, so it makes no difference that it is counted. -/
theorem filter_costs (v : Int) (enc : ShareEncoding) (hv : 0 < v) (hk : 0 < enc.needed)
    (entries : Dict String DirectoryEntry) (hz : ∀ kv ∈ entries, kv.2.kind ≠ "filenode" → kv.2.size = 0) :
    ((replica_size entries).map (required_passes_for_data v enc)).sum
      = ((entries.filter ReplicaFile).map (fun kv => objectCost v enc kv.2.size)).sum := by
  have h0 : objectCost v enc 0 = 0 := by
    have e : ∀ w : Int, 0 < w → passes w 0 = 0 := fun w hw => by
      simp only [passes]
      exact Int.ediv_eq_zero_of_lt (by omega) (by omega)
    simp only [objectCost, Int.natCast_zero, e _ hk, e _ hv, Int.mul_zero]
  induction entries with
  | nil => rfl
  | cons kv rest ih =>
    have ih := ih (fun x hx => hz x (List.mem_cons_of_mem _ hx))
    have hkv := hz kv List.mem_cons_self
    simp only [replica_size] at ih ⊢
    by_cases hf : kv.2.kind = "filenode"
    · by_cases hn : (kv.1 == "snapshot" || "event-stream-".toList.isPrefixOf kv.1.toList) = true
      · rw [List.filter_cons_of_pos (by simpa [hf] using hn), List.filter_cons_of_pos (by
          simp only [ReplicaFile, hf, beq_self_eq_true, Bool.true_and]; exact hn)]
        simp only [List.map_cons, List.sum_cons, ih, required_eq v enc hv hk]
      · rw [List.filter_cons_of_neg (by simpa [hf] using hn), List.filter_cons_of_neg (by
          simp only [ReplicaFile, hf, beq_self_eq_true, Bool.true_and]; exact hn)]
        exact ih
    · rw [List.filter_cons_of_neg (p := ReplicaFile) (by simp [ReplicaFile, hf])]
      by_cases hn : "event-stream-".toList.isPrefixOf kv.1.toList = true
      · rw [List.filter_cons_of_pos (by rw [hn, Bool.or_true])]
        simp only [List.map_cons, List.sum_cons, ih, hkv hf, required_eq v enc hv hk, h0, Int.zero_add]
      · rw [List.filter_cons_of_neg (by
          rw [show (kv.2.kind == "filenode") = false from by simpa using hf, Bool.false_and, Bool.false_or]
          exact hn)]
        exact ih

end ZKAP
