import Verif.Lemmas.ReplicaCost
import Verif.Lemmas.ReplicationLive
import Verif.Props.Replication

/-! C140: what keeping a replica costs. -/
namespace ZKAP
open Spec

/-- Lengths for the examples: a hundred bytes for each row, change or object. -/
def exSizes : Sizes where
  stmt := fun _ => 100
  stream := fun es => 100 + 100 * es.length
  snapshot := fun s => 100 + 100 * (s.app.vouchers.length + s.app.tokens.length + s.app.unblinded.length)

/-- **C140**, the decision: after an event stream was uploaded, a snapshot is asked for exactly if what is in the
replica costs more than ten times what a new snapshot does. -/
theorem C140_decision (v : Int) (enc : ShareEncoding) (z : Sizes) (hv : 0 < v) (hk : 0 < enc.needed)
    (snap : Snapshot) (r : Replica) :
    (cost_env v enc z).should_snapshot snap r = true
      ↔ 10 * objectCost v enc (z.snapshot snap) < replicaCost v enc z r := by
  rw [cost_env_eq v enc z hv hk, decide_eq_true_eq]

/-- **C140**, the listing: of a directory on the grid exactly the files named `snapshot` or
`event-stream-…` are paid for in the decision, whatever else has been put there. -/
theorem C140_listing (v : Int) (enc : ShareEncoding) (hv : 0 < v) (hk : 0 < enc.needed) (g : MemoryGrid)
    (cap : Cap) (entries : Dict String DirectoryEntry) (h : direntry_list g cap = .ok entries) (s : Nat) :
    (plugin_policy v enc).should_snapshot s (replica_size entries) = true
      ↔ 10 * objectCost v enc s
          < ((entries.filter ReplicaFile).map (fun kv => objectCost v enc kv.2.size)).sum := by
  have hz : ∀ kv ∈ entries, kv.2.kind ≠ "filenode" → kv.2.size = 0 := by
    simp only [direntry_list] at h
    split at h
    · exact nomatch h
    · injection h with h
      subst h
      intro kv hkv hne
      obtain ⟨x, _, rfl⟩ := List.mem_map.mp hkv
      obtain ⟨name, entry⟩ := x
      cases entry with
      | file size cap => exact absurd rfl hne
      | directory cap => rfl
  simp only [CostBasedPolicy.should_snapshot, plugin_policy, foldl_add_sum, Int.zero_add, decide_eq_true_eq,
    required_eq v enc hv hk, filter_costs v enc hv hk entries hz, Int.mul_comm _ 10]

/-- A directory named like an event stream, a file with another name and two that belong to a replica. -/
example : replica_size [("snapshot", ⟨"filenode", 100⟩), ("event-stream-7", ⟨"filenode", 1200⟩),
      ("event-stream-x", ⟨"dirnode", 0⟩), ("notes", ⟨"filenode", 99⟩)] = [100, 1200, 0] ∧
    (plugin_policy 100 ⟨1, 1⟩).should_snapshot 100 [100, 1200, 0] = true := by
  constructor <;> decide +kernel

/-- **C140** in full: whenever the replication service is at rest, the replica has no event streams or it
costs at most ten times what a snapshot would have when the replica became what it is. -/
def C140_statement : Prop :=
  ∀ (v : Int) (enc : ShareEncoding) (z : Sizes) (n : Node) (steps : List RStep), 0 < v → 0 < enc.needed →
    Fresh n → (n.run (cost_env v enc z) steps).activity = .idle →
    (n.run (cost_env v enc z) steps).replica.streams = [] ∨
      Affordable v enc z (cost_env v enc z) n steps (n.run (cost_env v enc z) steps).replica

/-- A voucher is recorded and its event stream uploaded; the process ends before the service has looked
at the replica, and is started again. -/
def exUnlooked (voucher : String) : List RStep :=
  [.call (.add .natural "now" voucher 1 0 (.ok [voucher])), .linked, .uploaded, .restart, .listed]

/-- Ten times. -/
def exRepRestarts : List RStep :=
  exSetup ++ ["a", "b", "c", "d", "e", "f", "g", "h", "i", "j"].flatMap exUnlooked

/-- **C140 fails**: that the replica is to be looked at is remembered in memory only, and a
service that starts does not look.  A process that ends often enough at that point leaves any number
of event streams: here ten, each paid for with a pass, where a snapshot would be one pass. -/
theorem C140_fails : ¬ C140_statement := by
  intro h
  have hi : (Node.run (cost_env 10000 ⟨1, 1⟩ exSizes) {} exRepRestarts).activity = .idle := by decide +kernel
  rcases h 10000 ⟨1, 1⟩ exSizes {} exRepRestarts (by decide) (by decide) exFresh hi with h1 | h1
  · exact absurd h1 (by decide +kernel)
  · have h2 : ∀ m ∈ moments (cost_env 10000 ⟨1, 1⟩ exSizes) {} exRepRestarts,
        m.replica = (Node.run (cost_env 10000 ⟨1, 1⟩ exSizes) {} exRepRestarts).replica →
        ¬ replicaCost 10000 ⟨1, 1⟩ exSizes m.replica
          ≤ 10 * objectCost 10000 ⟨1, 1⟩ (exSizes.snapshot m.snapshot) := by decide +kernel
    obtain ⟨m, hm, h3, h4⟩ := h1
    exact h2 m hm h3 (by rw [h3]; exact h4)

/-- The replica of the example: a snapshot and ten streams. -/
example : (Node.run (cost_env 10000 ⟨1, 1⟩ exSizes) {} exRepRestarts).replica.streams.length = 10 ∧
    replicaCost 10000 ⟨1, 1⟩ exSizes (Node.run (cost_env 10000 ⟨1, 1⟩ exSizes) {} exRepRestarts).replica = 11 := by
  constructor <;> decide +kernel

theorem fine_affordable {v : Int} {enc : ShareEncoding} {z : Sizes} (hv : 0 < v) (hk : 0 < enc.needed)
    {n : Node} {steps : List RStep} {r : Replica}
    (h : Fine (cost_env v enc z)
      (fun snap r => ∃ m ∈ moments (cost_env v enc z) n steps, m.snapshot = snap ∧ m.replica = r) r) :
    r.streams = [] ∨ Affordable v enc z (cost_env v enc z) n steps r := by
  rcases h with h | ⟨snap, ⟨m, hm, h1, h2⟩, h3⟩
  · exact .inl h
  · refine .inr ⟨m, hm, h2, ?_⟩
    rw [cost_env_eq v enc z hv hk, decide_eq_false_iff_not] at h3
    rw [h1]
    exact Int.not_lt.mp h3

/-- **C140**, partial: it holds in every history without a restart or a failed operation of the grid.  Missing:
histories with restarts, until the next event stream is uploaded (see `C140_restored`). -/
theorem C140_partial (v : Int) (enc : ShareEncoding) (z : Sizes) (n : Node) (steps : List RStep)
    (hv : 0 < v) (hk : 0 < enc.needed) (hn : Fresh n) (hs : Smooth (cost_env v enc z) n steps)
    (hi : (n.run (cost_env v enc z) steps).activity = .idle) :
    (n.run (cost_env v enc z) steps).replica.streams = [] ∨
      Affordable v enc z (cost_env v enc z) n steps (n.run (cost_env v enc z) steps).replica := by
  refine fine_affordable hv hk (rest_k (run_k steps (fresh_g hn) ⟨fresh_numbered hn, ?_, ?_⟩ hs ?_) hi)
  · rw [hn.off]; nofun
  · rw [hn.off]; exact .inl (by rw [hn.replica])
  · exact fun m hm => ⟨m, hm, rfl, rfl⟩

/-- Two vouchers in event streams: two passes beside the one for the snapshot are too little to ask for another. -/
def exTwoStreams : List RStep :=
  exSetup ++ [.call exAdd, .linked, .uploaded, .listed,
    .call (.add .natural "later" "w" 1 0 (.ok ["c"])), .linked, .uploaded, .listed]

theorem clean_of_ok {n : Node} {op : StoreOp} (h : (op.prog.run n.tables).2.isOk = true) : CleanCall n op := by
  cases hr : (op.prog.run n.tables).2 with
  | ok r => exact .inl ⟨r, hr⟩
  | error e => rw [hr] at h; exact nomatch h

example : Smooth (cost_env 10000 ⟨1, 1⟩ exSizes) {} exTwoStreams ∧
    (Node.run (cost_env 10000 ⟨1, 1⟩ exSizes) {} exTwoStreams).activity = .idle ∧
    (Node.run (cost_env 10000 ⟨1, 1⟩ exSizes) {} exTwoStreams).replica.streams.length = 2 :=
  ⟨⟨trivial, trivial, trivial, trivial, trivial, clean_of_ok (by decide +kernel), trivial, trivial, trivial,
    clean_of_ok (by decide +kernel), trivial,
    trivial, trivial, trivial⟩, by decide +kernel, by decide +kernel⟩

theorem answers_smooth (env : RepEnv) (steps : List RStep) (h : ∀ s ∈ steps, IsAnswer s) :
    ∀ n : Node, Smooth env n steps := by
  induction steps with
  | nil => exact fun _ => trivial
  | cons s ss ih =>
    intro n
    refine ⟨?_, ih (fun x hx => h x (List.mem_cons_of_mem _ hx)) _⟩
    have := h s List.mem_cons_self
    cases s <;> first | trivial | exact this

/-- **C140**, after restarts and failures: once another event stream has reached the replica, and the process goes on
without a restart, a service that comes to rest has restored the bound. -/
theorem C140_after_upload (v : Int) (enc : ShareEncoding) (z : Sizes) (n : Node) (before steps : List RStep)
    (hv : 0 < v) (hk : 0 < enc.needed) (hn : Fresh n)
    (hl : StreamLinked (n.run (cost_env v enc z) before).activity)
    (hs : Smooth (cost_env v enc z) (n.run (cost_env v enc z) before) steps)
    (hi : (n.run (cost_env v enc z) (before ++ steps)).activity = .idle) :
    (n.run (cost_env v enc z) (before ++ steps)).replica.streams = [] ∨
      Affordable v enc z (cost_env v enc z) (n.run (cost_env v enc z) before) steps
        (n.run (cost_env v enc z) (before ++ steps)).replica := by
  rw [run_two] at hi ⊢
  have hg : GInv (n.run (cost_env v enc z) before) := run_g (fresh_g hn) before
  refine fine_affordable hv hk (rest_k (run_k steps hg ⟨hg.num, ?_, ?_⟩ hs ?_) hi)
  · intro h; rw [h] at hl; exact hl.elim
  · generalize (n.run (cost_env v enc z) before).activity = a at hl
    cases a with
    | eventUploading es k b =>
      cases b with
      | true => trivial
      | false => exact hl.elim
    | _ => exact hl.elim
  · exact fun m hm => ⟨m, hm, rfl, rfl⟩

/-- **C140**, the bound is restored: after any history that ends with an event stream reaching the replica, answers of
the grid bring the service to rest with a replica that is within the bound. -/
theorem C140_restored (v : Int) (enc : ShareEncoding) (z : Sizes) (n : Node) (before : List RStep)
    (hv : 0 < v) (hk : 0 < enc.needed) (hn : Fresh n)
    (hl : StreamLinked (n.run (cost_env v enc z) before).activity) :
    ∃ more, (∀ s ∈ more, IsAnswer s) ∧ (n.run (cost_env v enc z) (before ++ more)).activity = .idle ∧
      ((n.run (cost_env v enc z) (before ++ more)).replica.streams = [] ∨
        Affordable v enc z (cost_env v enc z) (n.run (cost_env v enc z) before) more
          (n.run (cost_env v enc z) (before ++ more)).replica) := by
  have hp : PruneOK (n.run (cost_env v enc z) before) :=
    run_prune (fun k hk => by rw [hn.off] at hk; exact nomatch hk) before
  have hr : Running (n.run (cost_env v enc z) before) := by
    constructor <;> (intro h; rw [h] at hl; exact hl.elim)
  obtain ⟨more, h1, h2⟩ := comes_to_rest (cost_env v enc z) _ _ (Nat.le_refl _) hr hp
  have hi : (n.run (cost_env v enc z) (before ++ more)).activity = .idle := by rw [run_two]; exact h2
  exact ⟨more, h1, hi, C140_after_upload v enc z n before more hv hk hn hl (answers_smooth _ more h1 _) hi⟩

/-- The next voucher after ten restarts. -/
def exNextVoucher : List RStep := exRepRestarts ++ [.call (.add .natural "now" "k" 1 0 (.ok ["k"])), .linked]

/-- It brings a new snapshot, which replaces all streams. -/
example : (match (Node.run (cost_env 10000 ⟨1, 1⟩ exSizes) {} exNextVoucher).activity with
      | .eventUploading _ _ true => true
      | _ => false) = true ∧
    (Node.run (cost_env 10000 ⟨1, 1⟩ exSizes) {} (exNextVoucher ++ [.uploaded, .listed,
      .linked, .uploaded, .listed] ++ List.replicate 11 .unlinked)).replica.streams = [] ∧
    (Node.run (cost_env 10000 ⟨1, 1⟩ exSizes) {} (exNextVoucher ++ [.uploaded, .listed,
      .linked, .uploaded, .listed] ++ List.replicate 11 .unlinked)).activity = .idle := by
  refine ⟨by decide +kernel, by decide +kernel, by decide +kernel⟩

end ZKAP
