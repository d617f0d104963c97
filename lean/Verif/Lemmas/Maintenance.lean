import Verif.Lemmas.StoreHistory
import Verif.Props.Pricing

/-! The rows of the lease maintenance table over a history. -/
namespace ZKAP
open Spec

/-- The row of run `k`, if there is one. -/
def runRow (t : Tables) (k : Nat) : Option MaintRow := t.app.maint.find? (·.id == k)

theorem find_map_update (l : List MaintRow) (k : Nat) (f : MaintRow → MaintRow)
    (hf : ∀ r, (f r).id = r.id) : (l.map f).find? (·.id == k) = (l.find? (·.id == k)).map f := by
  rw [List.find?_map]
  congr 1
  congr 1
  funext r
  simp [hf]

/-- Calls that have nothing to do with lease maintenance. -/
def NoMaint : StoreOp → Prop
  | .maintStart .. | .maintObserve .. | .maintFinish .. => False
  | _ => True

theorem step_noMaint {op : StoreOp} (hn : NoMaint op) (t : Tables) :
    (op.step t).2.app.maint = t.app.maint := by
  cases op <;> simp only [NoMaint] at hn <;> simp only [StoreOp.step, StoreOp.prog, transact_map]
  case add o now v e c get =>
    rw [add_eq]
    split
    · rfl
    · cases get with
      | error e => rfl
      | ok ts => dsimp only; split <;> rfl
  case insert now v pk ts c s =>
    rw [insert_eq]
    split
    · rfl
    · split <;> rfl
  case doubleSpent now v => rw [doubleSpent_eq]; split <;> rfl
  case getTokens o n =>
    rw [getTokens_eq]
    split
    · rfl
    · dsimp only
      split
      · rfl
      · split <;> rfl
  case discard ts => rw [discard_eq]
  case invalidate r ts => rw [invalidate_eq]; split <;> rfl
  case reset ts => rw [reset_eq]

/-- What one call does to the row of a run. -/
def rowAfter (k : Nat) (op : StoreOp) (r : MaintRow) : MaintRow :=
  { r with
    count := r.count + observed k op
    finished := (finishTime k [op]).or r.finished }

theorem step_runRow {t : Tables} {op : StoreOp} {k : Nat} {r : MaintRow}
    (hp : PositivePassValue op) (h : runRow t k = some r) :
    runRow (op.step t).2 k = some (rowAfter k op r) := by
  have hid : r.id = k := by
    have := List.find?_some h
    simpa using this
  by_cases hn : NoMaint op
  · unfold runRow
    rw [step_noMaint hn]
    have : rowAfter k op r = r := by
      cases op <;> simp only [NoMaint] at hn <;> simp [rowAfter, observed, finishTime]
    rw [this]
    exact h
  · unfold runRow at h ⊢
    cases op <;> simp only [NoMaint, not_true] at hn <;>
      simp only [StoreOp.step, StoreOp.prog, transact_map]
    case maintStart now m =>
      rw [maintStart_eq]
      have : rowAfter k (.maintStart now m) r = r := by simp [rowAfter, observed, finishTime]
      rw [this]
      cases m.rowid with
      | some _ => exact h
      | none =>
        dsimp only
        rw [List.find?_append, h]
        rfl
    case maintObserve pv sizes m =>
      rw [maintObserve_eq, C01_checked_eq pv hp, required_passes_eq pv hp]
      dsimp only
      rw [find_map_update _ _ _ (by intro r; split <;> rfl), h]
      simp only [Option.map_some, hid]
      congr 1
      by_cases hk : m.rowid = some k
      · simp [rowAfter, observed, finishTime, hk, hid]
      · have : ¬ some k = m.rowid := fun h => hk h.symm
        simp [rowAfter, observed, finishTime, hk, this]
    case maintFinish now m =>
      rw [maintFinish_eq]
      dsimp only
      rw [find_map_update _ _ _ (by intro r; split <;> rfl), h]
      simp only [Option.map_some, hid]
      congr 1
      by_cases hk : m.rowid = some k
      · simp [rowAfter, observed, finishTime, hk, hid]
      · have : ¬ some k = m.rowid := fun h => hk h.symm
        simp [rowAfter, observed, finishTime, hk, this]

theorem finishTime_cons (k : Nat) (op : StoreOp) (ops : List StoreOp) :
    finishTime k (op :: ops) = (finishTime k ops).or (finishTime k [op]) := by
  cases op <;> (simp only [finishTime]; cases finishTime k ops <;> simp)

theorem run_runRow (ops : List StoreOp) {t : Tables} {k : Nat} {r : MaintRow}
    (hp : ∀ op ∈ ops, PositivePassValue op) (h : runRow t k = some r) :
    runRow (runStore ops t) k =
      some { r with
        count := r.count + (ops.map (observed k)).sum
        finished := (finishTime k ops).or r.finished } := by
  induction ops generalizing t r with
  | nil =>
    simp only [runStore, List.map_nil, List.sum_nil, Int.add_zero, finishTime]
    rw [h]; rfl
  | cons op ops ih =>
    have hs := step_runRow (hp op (by simp)) h
    have := ih (t := (op.step t).2) (fun o ho => hp o (by simp [ho])) hs
    rw [runStore, this, finishTime_cons]
    simp only [rowAfter, List.map_cons, List.sum_cons, Option.or_assoc, Int.add_assoc]

/-- Only the rows with these ids are finished, at times given by the history. -/
theorem finished_from_history (ops : List StoreOp) {t : Tables} {P : String → Prop}
    (hp : ∀ op ∈ ops, ∀ now m, op = .maintFinish now m → P now)
    (h : ∀ r ∈ t.app.maint, ∀ f, r.finished = some f → P f) :
    ∀ r ∈ (runStore ops t).app.maint, ∀ f, r.finished = some f → P f := by
  induction ops generalizing t with
  | nil => exact h
  | cons op ops ih =>
    apply ih (fun o ho => hp o (by simp [ho]))
    have hpo := hp op (by simp)
    by_cases hn : NoMaint op
    · rw [step_noMaint hn]; exact h
    · cases op <;> simp only [NoMaint, not_true] at hn <;>
        simp only [StoreOp.step, StoreOp.prog, transact_map]
      case maintStart now m =>
        rw [maintStart_eq]
        cases m.rowid with
        | some _ => exact h
        | none =>
          intro r hr f hf
          rcases List.mem_append.mp hr with hr | hr
          · exact h r hr f hf
          · rw [List.mem_singleton.mp hr] at hf
            cases hf
      case maintObserve pv sizes m =>
        rw [maintObserve_eq]
        cases required_passesE pv sizes with
        | error e => exact h
        | ok n =>
          intro r hr f hf
          obtain ⟨r0, hr0, rfl⟩ := List.mem_map.mp hr
          split at hf <;> exact h r0 hr0 f hf
      case maintFinish now m =>
        rw [maintFinish_eq]
        intro r hr f hf
        obtain ⟨r0, hr0, rfl⟩ := List.mem_map.mp hr
        split at hf
        · cases hf
          exact hpo now m rfl
        · exact h r0 hr0 f hf

/-! ### The latest activity -/

theorem mem_finished_rows {l : List MaintRow} {f : String} {r : MaintRow} :
    (f, r) ∈ finished_rows l ↔ r ∈ l ∧ r.finished = some f := by
  unfold finished_rows
  simp only [List.mem_filterMap, Option.map_eq_some_iff, Prod.mk.injEq]
  constructor
  · rintro ⟨a, ha, b, hb, rfl, rfl⟩; exact ⟨ha, hb⟩
  · rintro ⟨h1, h2⟩; exact ⟨r, h1, f, h2, rfl, rfl⟩

theorem latest_none {l : List (String × MaintRow)} (h : latest_by_finished l = none) : l = [] := by
  cases l with
  | nil => rfl
  | cons p ps =>
    obtain ⟨f, r⟩ := p
    simp only [latest_by_finished] at h
    split at h
    · cases h
    · split at h <;> cases h

theorem latest_some {l : List (String × MaintRow)} {r : MaintRow}
    (hl : ∀ p ∈ l, p.2.finished = some p.1)
    (h : latest_by_finished l = some r) :
    ∃ f, (f, r) ∈ l ∧ ∀ p ∈ l, ¬ f < p.1 := by
  induction l generalizing r with
  | nil => cases h
  | cons p ps ih =>
    obtain ⟨f, r0⟩ := p
    simp only [latest_by_finished] at h
    split at h
    · rename_i hn
      cases h
      have := latest_none hn
      subst this
      refine ⟨f, by simp, ?_⟩
      intro p hp
      rw [List.mem_singleton.mp hp]
      exact String.lt_irrefl _
    · rename_i r' hr'
      obtain ⟨f', hm, hmax⟩ := ih (fun p hp => hl p (by simp [hp])) hr'
      have hf' : r'.finished = some f' := hl _ (List.mem_cons_of_mem _ hm)
      rw [hf'] at h
      simp only [Option.getD_some, decide_eq_true_eq] at h
      split at h
      · rename_i hgt
        cases h
        refine ⟨f', List.mem_cons_of_mem _ hm, ?_⟩
        intro p hp
        rcases List.mem_cons.mp hp with rfl | hp
        · exact fun hlt => String.lt_irrefl _ (String.lt_trans hgt hlt)
        · exact hmax p hp
      · rename_i hgt
        cases h
        refine ⟨f, by simp, ?_⟩
        intro p hp
        rcases List.mem_cons.mp hp with rfl | hp
        · exact String.lt_irrefl _
        · have := hmax p hp
          grind

end ZKAP
