import Verif.Lemmas.Replication

/-! What holds of replication in every history: failing calls, crashes and failing uploads included. -/
namespace ZKAP
open Spec

/-- What a running upload knows about the events. -/
def ActG (n : Node) : Activity → Prop
  | .eventUploading evs high linked =>
    highest_sequence evs = some high ∧ high ≤ n.seq.getD 0 ∧
    (∀ e ∈ n.events, e.sequence ≤ high → e ∈ evs) ∧
    (linked = true → n.replica.streams.lookup high = some evs)
  | .snapshotUploading snap k linked =>
    k = snap.seq.getD 1 ∧ snap.seq.getD 0 ≤ n.seq.getD 0 ∧
    (∀ e ∈ n.events, e.sequence ≤ snap.seq.getD 0 → e ∈ snap.events) ∧
    (linked = true → n.replica.snapshot = some snap)
  | _ => True

structure GInv (n : Node) : Prop where
  num : Numbered n
  act : ActG n n.activity

theorem ActG.core {n m : Node} {a : Activity} (h : ActG n a) (c : SameCore n m) : ActG m a := by
  cases a <;> simp only [ActG] at h ⊢ <;> simpa only [c.seq, c.events, c.replica] using h

theorem Numbered.core {n m : Node} (h : Numbered n) (c : SameCore n m) : Numbered m :=
  h.of_same c.events c.seq c.replica

theorem begin_actG {n : Node} (h : Numbered n) {j : Job} {a : Activity} (hb : n.begin j = some a) :
    ActG n a := by
  cases j <;> simp only [Node.begin] at hb
  · injection hb with hb; subst hb; trivial
  · split at hb
    · exact nomatch hb
    · rename_i high hh
      injection hb with hb; subst hb
      obtain ⟨_, h2, c, hc, h3⟩ := highest_some hh
      refine ⟨hh, ?_, fun e he _ => he, by simp⟩
      rw [← h3]; exact (h.le c hc).2
  · injection hb with hb; subst hb
    exact ⟨rfl, Nat.le_refl _, fun e he _ => he, by simp⟩
  · injection hb with hb; subst hb; trivial

theorem run_jobs_g {n : Node} (h : Numbered n) (js : List Job) : GInv (n.run_jobs js) := by
  have c := (run_jobs_data n js).core
  refine ⟨h.core c, ?_⟩
  rcases run_jobs_activity n js with ⟨h1, _⟩ | ⟨j, a, h1, h2⟩
  · rw [h1]; trivial
  · rw [h2]; exact (begin_actG h h1).core c

theorem queue_job_g {n : Node} (h : GInv n) (j : Job) : GInv (n.queue_job j) := by
  rcases queue_job_activity n j with h1 | ⟨_, h2⟩
  · have c := (queue_job_data n j).core
    exact ⟨h.num.core c, by rw [h1]; exact h.act.core c⟩
  · rw [h2]; exact run_jobs_g h.num _

theorem recorded_actG {n : Node} {a : Activity} (h : ActG n a) (hn : Numbered n) (ms : List Mutation) :
    ActG (n.recorded ms) a := by
  have hseq : (n.recorded ms).seq.getD 0 = n.seq.getD 0 + (ms.flatMap (·.stmts)).length :=
    add_events_seq _ _ _
  have hev : ∀ k, k ≤ n.seq.getD 0 → ∀ e ∈ (n.recorded ms).events, e.sequence ≤ k → e ∈ n.events := by
    intro k hk e he hek
    change e ∈ n.events ++ numbered (n.seq.getD 0) _ _ at he
    rcases List.mem_append.mp he with he | he
    · exact he
    · have := (numbered_mem he).1; omega
  cases a <;> simp only [ActG] at h ⊢
  · exact ⟨h.1, by omega, fun e he hk => h.2.2.1 e (hev _ h.2.1 e he hk) hk, h.2.2.2⟩
  · exact ⟨h.1, by omega, fun e he hk => h.2.2.1 e (hev _ h.2.1 e he hk) hk, h.2.2.2⟩

theorem signal_g {env : RepEnv} {n : Node} (h : GInv n) (ms : List Mutation) :
    GInv (n.signal env ms) := by
  obtain ⟨c, ha⟩ := signal_core env n ms
  have hn : Numbered (n.recorded ms) := h.num.add_events _ _
  refine ⟨hn.core c, ?_⟩
  rcases ha with ha | ⟨_, m, hm, ha⟩
  · rw [ha]; exact (recorded_actG h.act h.num ms).core c
  · rw [ha]
    have hg := run_jobs_g (hn.core hm) [.event_stream]
    have c' : SameCore (m.run_jobs [.event_stream]) (n.signal env ms) := by
      have d := (run_jobs_data m [.event_stream]).core
      exact ⟨c.tables.trans (d.tables.trans hm.tables).symm, c.events.trans (d.events.trans hm.events).symm,
        c.seq.trans (d.seq.trans hm.seq).symm, c.mutations.trans (d.mutations.trans hm.mutations).symm,
        c.replica.trans (d.replica.trans hm.replica).symm⟩
    exact hg.act.core c'

theorem call_g {env : RepEnv} {n : Node} (h : GInv n) (op : StoreOp) : GInv (n.call env op).2 := by
  unfold Node.call
  dsimp only
  split
  · exact ⟨h.num.of_same rfl rfl rfl, by
      have := h.act
      cases ha : n.activity <;> simp only [ha, ActG] at this ⊢ <;> exact this⟩
  · apply signal_g
    refine ⟨h.num.of_same rfl rfl rfl, ?_⟩
    have := h.act
    cases ha : n.activity <;> simp only [ha, ActG] at this ⊢ <;> exact this

theorem start_g {env : RepEnv} {n : Node} (h : Numbered n) : GInv (n.start_service env) :=
  ⟨h.of_same rfl rfl rfl, trivial⟩

theorem restart_g {env : RepEnv} {n : Node} (h : Numbered n) : GInv (n.restart env) := by
  unfold Node.restart
  dsimp only
  split
  · rename_i h1
    exact ⟨h.of_same rfl rfl rfl, by rw [h1]; trivial⟩
  · exact start_g (h.of_same rfl rfl rfl)

theorem next_g {n : Node} (h : Numbered n) : GInv n.next := run_jobs_g h _

theorem step_g {env : RepEnv} {n : Node} (h : GInv n) (s : RStep) : GInv (n.step env s) := by
  cases s with
  | enable =>
    simp only [Node.step]
    split
    · exact start_g h.num
    · exact h
  | call op => exact call_g h op
  | restart => exact restart_g h.num
  | crashedCall op =>
    simp only [Node.step, Node.crashed_call]
    split
    · exact restart_g h.num
    · exact restart_g (h.num.of_same rfl rfl rfl)
  | listed =>
    simp only [Node.step, Node.listed]
    split
    · split
      · exact next_g (queue_job_g h _).num
      · split
        · exact next_g (queue_job_g h _).num
        · exact next_g h.num
    · split
      · exact next_g h.num
      · exact ⟨h.num.of_same rfl rfl rfl, trivial⟩
    · split
      · exact next_g (queue_job_g h _).num
      · exact next_g h.num
    · exact h
  | linked =>
    simp only [Node.step, Node.linked]
    split
    · rename_i snap k ha
      have hact := h.act
      rw [ha] at hact
      refine ⟨⟨h.num.inc, h.num.le, h.num.keys, ?_⟩, hact.1, hact.2.1, hact.2.2.1, fun _ => rfl⟩
      intro snap' hs
      have hs : some snap = some snap' := hs
      injection hs with hs; subst hs
      exact hact.2.1
    · rename_i evs high ha
      have hact := h.act
      rw [ha] at hact
      refine ⟨⟨h.num.inc, h.num.le, ?_, h.num.base⟩, hact.1, hact.2.1, hact.2.2.1, fun _ => ?_⟩
      · intro kv hkv
        rcases mem_set hkv with hkv | hkv
        · exact h.num.keys kv hkv
        · subst hkv; exact hact.2.1
      · show (Dict.set n.replica.streams high evs).lookup high = some evs
        rw [Dict.lookup_set]; simp
    · exact h
  | uploaded =>
    simp only [Node.step, Node.uploaded]
    split
    · exact ⟨(h.num.prune _).of_same rfl rfl rfl, trivial⟩
    · apply next_g
      exact (h.num.prune _).core (queue_job_data _ _).core
    · exact h
  | unlinked =>
    simp only [Node.step, Node.unlinked]
    split
    · rename_i seqnum k ks ha
      have hnum : Numbered { n with replica := { n.replica with streams := n.replica.streams.filter (fun kv => kv.1 != k) } } :=
        ⟨h.num.inc, h.num.le, fun kv hkv => h.num.keys kv (List.mem_filter.mp hkv).1, h.num.base⟩
      split
      · exact next_g hnum
      · exact ⟨hnum.of_same rfl rfl rfl, trivial⟩
    · exact h
  | failed =>
    simp only [Node.step, Node.failed]
    split
    · exact h
    · exact h
    · exact h
    · exact ⟨h.num.of_same rfl rfl rfl, trivial⟩

theorem fresh_numbered {n : Node} (h : Fresh n) : Numbered n :=
  ⟨h.ordered, h.numbers, by rw [h.replica]; simp, by rw [h.replica]; simp⟩

theorem fresh_g {n : Node} (h : Fresh n) : GInv n := ⟨fresh_numbered h, by rw [h.off]; trivial⟩

theorem run_g {env : RepEnv} {n : Node} (h : GInv n) (steps : List RStep) : GInv (n.run env steps) := by
  induction steps generalizing n with
  | nil => exact h
  | cons s ss ih => exact ih (step_g h s)

end ZKAP
