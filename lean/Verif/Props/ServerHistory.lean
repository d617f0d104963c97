import Verif.Lemmas.ServerHistory
import Verif.Props.Server

/-! Properties C70 and C75: what holds of the server over whole histories. -/
namespace ZKAP
open Spec

/-- C70: after any history, the disconnect registrations held by the connections are, one for one and in
order, those of the bucket writers still open through them; and every open writer appears once. -/
theorem C70_registrations_match_writers (cfg : ServerConfig) (b : SI → Bucket) (ops : List ServerOp) :
    let s := (Server.init b).run cfg ops
    s.registrations.map (fun r => (r.1, r.2.2)) = s.writers.map (fun w => (w.canary, w.bw)) ∧
    (s.writers.map Writer.bw).Nodup := by
  intro s
  have h := tidy_run cfg ops (Server.init b) (tidy_init b)
  refine ⟨?_, h.nodup⟩
  show s.registrations.map _ = _
  rw [h.regs, List.map_map]
  rfl

/-- C70: hence for each connection, the writers it would abort when lost are exactly its open ones. -/
theorem C70_per_connection (cfg : ServerConfig) (b : SI → Bucket) (ops : List ServerOp) (c bw : Nat) :
    let s := (Server.init b).run cfg ops
    (∃ m, (c, m, bw) ∈ s.registrations) ↔ ∃ w ∈ s.writers, w.bw = bw ∧ w.canary = c := by
  intro s
  have h := tidy_run cfg ops (Server.init b) (tidy_init b)
  show (∃ m, (c, m, bw) ∈ s.registrations) ↔ _
  rw [h.regs]
  constructor
  · rintro ⟨m, hm⟩
    rw [List.mem_map] at hm
    obtain ⟨w, hw, e⟩ := hm
    simp only [Prod.mk.injEq] at e
    exact ⟨w, hw, e.2.2, e.1⟩
  · rintro ⟨w, hw, e1, e2⟩
    exact ⟨bw, List.mem_map.mpr ⟨w, hw, by rw [e1, e2]⟩⟩

/-- C70: losing a connection aborts every writer opened through it and no other. -/
theorem C70_disconnect_aborts_own (cfg : ServerConfig) (b : SI → Bucket) (ops : List ServerOp) (c : Nat) :
    let s := (Server.init b).run cfg ops
    (s.step cfg (.disconnect c)).writers = s.writers.filter (fun w => w.canary != c) ∧
    ∀ r ∈ (s.step cfg (.disconnect c)).registrations, r.1 ≠ c := by
  intro s
  have h := tidy_run cfg ops (Server.init b) (tidy_init b)
  obtain ⟨t, hw⟩ := tidy_disconnect _ h c
  refine ⟨hw, ?_⟩
  intro r hr
  have hr' : r ∈ (ZKAP.disconnect ((Server.init b).run cfg ops) c).registrations := hr
  rw [t.regs, hw, List.mem_map] at hr'
  obtain ⟨w, hw', rfl⟩ := hr'
  simpa using (List.mem_filter.mp hw').2

/-- Two connections upload, one closes a writer, the other is lost. -/
example : let ops := [ServerOp.allocate (exAllocate [65, 66, 67, 68]),
      .allocate { exAllocate [65, 66, 67, 68] with storage_index := [7], canary := 78 }, .close 0 [1, 2]]
    (((Server.init (fun _ => [])).run exCfg ops).registrations.map (fun r => (r.1, r.2.2))
      = [(77, 1), (78, 2), (78, 3)]) ∧
    (((Server.init (fun _ => [])).run exCfg (ops ++ [.disconnect 78])).writers.map Writer.bw = [1]) := by
  decide +kernel

/-- C75: start from an empty server. After any history in which leases never fail for lack of disk
space, the number of passes recorded as spent is at least the price of everything stored, at any set of
storage indexes. -/
theorem C75_everything_stored_was_paid_partial (cfg : ServerConfig) (hv : 0 < cfg.pass_value)
    (ops : List ServerOp) (hops : ∀ op ∈ ops, OpOk op) (sis : List SI) (hn : sis.Nodup) :
    let s := (Server.init (fun _ => [])).run cfg ops
    (sis.map (fun si => bucketPrice cfg.pass_value (s.buckets si))).sum ≤ s.spent.length := by
  intro s
  have h := paid_run cfg hv sis hn ops (Server.init (fun _ => [])) (fun _ => List.nodup_nil) hops
  have h0 : storedPrice cfg.pass_value (Server.init (fun _ => [])).buckets sis = 0 := by
    clear h hn
    unfold storedPrice
    induction sis with
    | nil => rfl
    | cons x l ih => simp only [List.map_cons, List.sum_cons]; rw [ih]; rfl
  have h1 : writersPrice cfg.pass_value (Server.init (fun _ => [])).writers = 0 := rfl
  have h2 : (Server.init (fun _ => [])).spent.length = 0 := rfl
  rw [h0, h1, h2] at h
  have hw : 0 ≤ writersPrice cfg.pass_value s.writers := by
    unfold writersPrice
    apply sum_nonneg
    intro x hx
    rw [List.mem_map] at hx
    obtain ⟨w, _, rfl⟩ := hx
    exact passes_nonneg cfg.pass_value hv (by omega)
  have h' : storedPrice cfg.pass_value s.buckets sis + writersPrice cfg.pass_value s.writers
      - s.spent.length ≤ 0 + 0 - ((0 : Nat) : Int) := h
  unfold storedPrice at h'
  omega

/-- An upload followed by a mutable write elsewhere: 2 * 2 + 5 passes were spent, and shares worth
1 + 6 (a share of 2 bytes; shares of 21, 30 and 1 bytes) are stored. -/
example : let ops := [ServerOp.allocate (exAllocate [65, 66, 67, 68]), .close 0 [1, 2],
      .writev (exWritev [65, 66, 67, 68, 69, 70, 71])]
    let s := (Server.init (fun _ => [])).run exCfg ops
    (∀ op ∈ ops, OpOk op) ∧ s.spent.length = 11 ∧
      ([[8], [9]].map (fun si => bucketPrice 10 (s.buckets si))).sum = 8 := by
  refine ⟨?_, ?_, ?_⟩
  · intro op hop
    simp only [List.mem_cons, List.not_mem_nil, or_false] at hop
    rcases hop with rfl | rfl | rfl
    · exact trivial
    · exact trivial
    · exact ⟨fun _ => rfl, exTw_wf⟩
  · decide +kernel
  · decide +kernel

/-- C75, full statement: without the assumption on disk space. -/
def C75_statement : Prop :=
  ∀ (cfg : ServerConfig), 0 < cfg.pass_value → ∀ (ops : List ServerOp),
    (∀ op ∈ ops, ∀ a, op = .writev a → Dict.WF a.tw_vectors) → ∀ sis : List SI, sis.Nodup →
    let s := (Server.init (fun _ => [])).run cfg ops
    (sis.map (fun si => bucketPrice cfg.pass_value (s.buckets si))).sum ≤ s.spent.length

/-- It is false of the code: if there is no room for the lease, the data of a mutable write stays
stored although no pass is recorded as spent. -/
theorem C75_nospace_fails : ¬ C75_statement := by
  intro h
  have := h exCfg (by decide) [.writev { exWritev [65, 66, 67, 68, 69, 70, 71] with space := fun _ => false }]
    (by
      intro op hop a e
      simp only [List.mem_cons, List.not_mem_nil, or_false] at hop
      subst hop
      simp only [ServerOp.writev.injEq] at e
      subst e
      exact exTw_wf) [[9]] (by decide)
  revert this
  decide +kernel

end ZKAP
