import Verif.Lemmas.Maintenance
import Verif.Lemmas.Timestamp
import Verif.Props.Store

/-! Properties of the lease maintenance records (C38, C39). -/
namespace ZKAP
open Spec

/-! ### C38 -/

/-- **C38**: starting a maintenance run at any point of any history succeeds and gives it a
number `k` no earlier run has.  Whatever store calls, other runs and restarts
follow, there is exactly one record of the run; it shows the time it was started, the
sum of the prices of everything observed by this run, and the time it finished, if it did. -/
theorem C38_activity_is_exact (history later : List StoreOp) (now : String)
    (positive : ∀ op ∈ later, PositivePassValue op) :
    ∃ k t, (StoreOp.maintStart now {}).step (after history) = (.ok (.maint ⟨some k⟩), t) ∧
      (∀ r ∈ (after history).app.maint, r.id ≠ k) ∧
      ∀ r, (r ∈ (runStore later t).app.maint ∧ r.id = k) ↔
        r = { id := k, started := now, finished := finishTime k later,
              count := (later.map (observed k)).sum } := by
  have hstep : (StoreOp.maintStart now {}).step (after history) =
      (.ok (.maint ⟨some (nextRowid ((after history).app.maint.map (·.id)))⟩),
        ((StoreOp.maintStart now {}).step (after history)).2) := by
    simp only [StoreOp.step, StoreOp.prog, transact_map, maintStart_eq]
    rfl
  have hfresh : ∀ r ∈ (after history).app.maint,
      r.id ≠ nextRowid ((after history).app.maint.map (·.id)) := by
    intro r hr he
    exact nextRowid_fresh _ (List.mem_map.mpr ⟨r, hr, he⟩)
  refine ⟨_, _, hstep, hfresh, fun r => ?_⟩
  have hwf1 := step_wf_store (after_wf history) (.maintStart now {})
  have hrow : runRow ((StoreOp.maintStart now {}).step (after history)).2
      (nextRowid ((after history).app.maint.map (·.id))) =
        some ⟨nextRowid ((after history).app.maint.map (·.id)), now, none, 0⟩ := by
    simp only [StoreOp.step, StoreOp.prog, transact_map, maintStart_eq, runRow]
    rw [List.find?_append, List.find?_eq_none.mpr]
    · simp
    · intro r hr
      simpa using hfresh r hr
  have hrun := run_runRow later positive hrow
  have hwf2 := run_wf_store later hwf1
  simp only [Int.zero_add, Option.or_none] at hrun
  have hmem := List.mem_of_find?_eq_some hrun
  constructor
  · rintro ⟨hr, hk⟩
    exact inj_of_nodup_map hwf2.maint hr hmem hk
  · rintro rfl
    exact ⟨hmem, rfl⟩

/-- **C38**, for a whole run: started, used for a while, and finished.  What is then on
record is what was observed in between, and nothing that follows changes it (a finished
object has no number any more). -/
theorem C38_finished_run (history during later : List StoreOp) (start finish : String)
    (pos1 : ∀ op ∈ during, PositivePassValue op) (pos2 : ∀ op ∈ later, PositivePassValue op) :
    ∃ k t, (StoreOp.maintStart start {}).step (after history) = (.ok (.maint ⟨some k⟩), t) ∧
      ((∀ op ∈ later, observed k op = 0) → finishTime k later = none →
        { id := k, started := start, finished := some finish,
          count := (during.map (observed k)).sum : MaintRow } ∈
          (runStore (during ++ .maintFinish finish ⟨some k⟩ :: later) t).app.maint) := by
  obtain ⟨k, t, h1, -, -⟩ := C38_activity_is_exact history [] start (by simp)
  refine ⟨k, t, h1, fun ho hf => ?_⟩
  obtain ⟨k', t', h1', -, h3⟩ :=
    C38_activity_is_exact history (during ++ .maintFinish finish ⟨some k⟩ :: later) start (by
      intro op hop
      rcases List.mem_append.mp hop with h | h
      · exact pos1 op h
      · rcases List.mem_cons.mp h with rfl | h
        · trivial
        · exact pos2 op h)
  rw [h1] at h1'
  cases h1'
  have hsum : (later.map (observed k)).sum = 0 := by
    clear hf pos2 h3
    induction later with
    | nil => rfl
    | cons op ops ih =>
      rw [List.map_cons, List.sum_cons, ho op (by simp), ih (fun o h => ho o (by simp [h]))]
      rfl
  have hfin : finishTime k (during ++ .maintFinish finish ⟨some k⟩ :: later) = some finish := by
    clear h3 pos1
    induction during with
    | nil => simp [finishTime_cons, hf, finishTime]
    | cons op ops ih => rw [List.cons_append, finishTime_cons, ih]; rfl
  rw [hfin, List.map_append, List.sum_append, List.map_cons, List.sum_cons, hsum] at h3
  have := ((h3 _).mpr rfl).1
  simpa [observed] using this

/-- Two interleaved runs and a token request; the first run observes 2 + 3 + 1 passes. -/
example :
    runStore [.maintObserve 10 [11, 25] ⟨some 1⟩, .maintStart "b" {}, .maintObserve 10 [99] ⟨some 2⟩,
        .getTokens .natural 0, .maintObserve 10 [1] ⟨some 1⟩, .maintFinish "z" ⟨some 1⟩]
      ((StoreOp.maintStart "a" {}).step (after [])).2 =
    { app := { maint := [⟨1, "a", some "z", 6⟩, ⟨2, "b", none, 10⟩] } } := by
  decide +kernel

/-! ### C39 -/

/-- **C39**: the latest activity reported is the record of a finished run, and no finished run
has a later timestamp as the database compares them; nothing is reported only if no run
finished. -/
theorem C39_latest_activity (history : List StoreOp) :
    match (transact store_latest_activity (after history)).1 with
    | .ok none => ∀ r ∈ (after history).app.maint, r.finished = none
    | .ok (some (started, count, finished)) =>
      (∃ r ∈ (after history).app.maint,
        r.started = started ∧ r.count = count ∧ r.finished = some finished) ∧
      ∀ r ∈ (after history).app.maint, ∀ f, r.finished = some f → ¬ finished < f
    | .error _ => False := by
  unfold transact store_latest_activity
  simp only [Prog.run]
  cases h : latest_by_finished (finished_rows (after history).app.maint) with
  | none =>
    simp only [Option.map_none]
    have := latest_none h
    intro r hr
    cases hf : r.finished with
    | none => rfl
    | some f =>
      have hm := mem_finished_rows.mpr ⟨hr, hf⟩
      rw [this] at hm
      cases hm
  | some r =>
    simp only [Option.map_some]
    obtain ⟨f, hm, hmax⟩ := latest_some (by
      intro p hp
      exact (mem_finished_rows.mp hp).2) h
    obtain ⟨hr, hf⟩ := mem_finished_rows.mp hm
    rw [hf]
    refine ⟨⟨r, hr, rfl, rfl, hf⟩, fun r' hr' f' hf' => ?_⟩
    exact hmax (f', r') (mem_finished_rows.mpr ⟨hr', hf'⟩)

/-- **C39**: the order in which the database compares timestamps of UTC times is their
chronological order, for every two times Python can represent. -/
theorem C39_text_order_is_time_order (a b : DateTime) (ha : Valid a) (hb : Valid b) :
    isoformat a < isoformat b ↔ instant a < instant b :=
  isoformat_lt_iff ha hb

/-- **C39**, in terms of time: if every run was finished at a UTC time, the activity reported is
that of a run that finished at some time `T`, and no run finished after `T`. -/
theorem C39_latest_in_time (history : List StoreOp)
    (times : ∀ op ∈ history, ∀ now m, op = .maintFinish now m → ∃ T, Valid T ∧ now = isoformat T)
    (started finished : String) (count : Int)
    (reported : (transact store_latest_activity (after history)).1 =
      .ok (some (started, count, finished))) :
    ∃ T, Valid T ∧ finished = isoformat T ∧
      (∃ r ∈ (after history).app.maint,
        r.started = started ∧ r.count = count ∧ r.finished = some (isoformat T)) ∧
      ∀ r ∈ (after history).app.maint, ∀ f, r.finished = some f →
        ∃ T', Valid T' ∧ f = isoformat T' ∧ instant T' ≤ instant T := by
  have h := C39_latest_activity history
  rw [reported] at h
  obtain ⟨⟨r, hr, h1, h2, h3⟩, hmax⟩ := h
  have htimes := finished_from_history history (t := {})
    (P := fun f => ∃ T, Valid T ∧ f = isoformat T) times (by simp)
  obtain ⟨T, hT, rfl⟩ := htimes r hr finished h3
  refine ⟨T, hT, rfl, ⟨r, hr, h1, h2, h3⟩, fun r' hr' f hf => ?_⟩
  obtain ⟨T', hT', rfl⟩ := htimes r' hr' f hf
  refine ⟨T', hT', rfl, ?_⟩
  have := hmax r' hr' _ hf
  rw [isoformat_lt_iff hT hT'] at this
  omega

/-- Microseconds are left out when they are zero, and the order is still right. -/
example :
    isoformat ⟨2023, 2, 28, 23, 59, 59, 0⟩ = "2023-02-28 23:59:59+00:00" ∧
    isoformat ⟨2023, 2, 28, 23, 59, 59, 1⟩ = "2023-02-28 23:59:59.000001+00:00" ∧
    isoformat ⟨2023, 2, 28, 23, 59, 59, 0⟩ < isoformat ⟨2023, 2, 28, 23, 59, 59, 1⟩ := by
  decide +kernel

/-- The run that finished last is reported although the other one started later. -/
example :
    (transact store_latest_activity (after
      [.maintStart "2023-02-01 00:00:00+00:00" {}, .maintStart "2023-02-02 00:00:00+00:00" {},
       .maintFinish "2023-02-03 00:00:00+00:00" ⟨some 2⟩,
       .maintFinish "2023-02-03 00:00:00.500000+00:00" ⟨some 1⟩])).1 =
      .ok (some ("2023-02-01 00:00:00+00:00", 0, "2023-02-03 00:00:00.500000+00:00")) := by
  decide +kernel

end ZKAP
