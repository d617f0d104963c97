import Verif.Lemmas.StoreInv
import Verif.Lemmas.Pricing

/-! Facts about histories of calls on the voucher store. -/
namespace ZKAP
open Spec

/-- Tables that only differ in vouchers, random tokens and maintenance records. -/
def SameTokens (t t' : Tables) : Prop :=
  t'.app.unblinded = t.app.unblinded ∧ t'.app.groups = t.app.groups ∧
  t'.app.invalid = t.app.invalid ∧ t'.temp = t.temp

/-- Calls that have nothing to do with unblinded tokens. -/
def Neutral : StoreOp → Prop
  | .add .. | .doubleSpent .. | .maintStart .. | .maintObserve .. | .maintFinish .. => True
  | _ => False

theorem step_neutral {op : StoreOp} (hn : Neutral op) (t : Tables) :
    SameTokens t (op.step t).2 := by
  cases op <;> simp only [Neutral] at hn <;> simp only [StoreOp.step, StoreOp.prog, transact_map]
  case add o now v e c get =>
    rw [add_eq]
    split
    · exact ⟨rfl, rfl, rfl, rfl⟩
    · cases get with
      | error e => exact ⟨rfl, rfl, rfl, rfl⟩
      | ok ts =>
        dsimp only
        split <;> exact ⟨rfl, rfl, rfl, rfl⟩
  case doubleSpent now v =>
    rw [doubleSpent_eq]
    split <;> exact ⟨rfl, rfl, rfl, rfl⟩
  case maintStart now m =>
    rw [maintStart_eq]
    cases m.rowid <;> exact ⟨rfl, rfl, rfl, rfl⟩
  case maintObserve pv sizes m =>
    rw [maintObserve_eq]
    cases required_passesE pv sizes <;> exact ⟨rfl, rfl, rfl, rfl⟩
  case maintFinish now m => exact ⟨rfl, rfl, rfl, rfl⟩

theorem SameTokens.stored {t t' : Tables} (h : SameTokens t t') (b : Bool) (x : String) :
    StoredIn t'.app b x ↔ StoredIn t.app b x := by
  unfold StoredIn
  rw [h.1, h.2.1]

theorem step_insert (now v pk : String) (ts : List String) (c s : Bool) (t : Tables) :
    (StoreOp.insert now v pk ts c s).step t =
      if v ∉ t.app.vouchers.map (·.number) then (.error .valueError, t)
      else if ts.Nodup ∧ (∀ x ∈ ts, x ∉ t.app.unblinded.map (·.token)) then
        (.ok .unit, inserted now v pk ts c s t)
      else (.error .integrityError, t) := by
  simp only [StoreOp.step, StoreOp.prog, transact_map, insert_eq]
  split
  · rfl
  · split <;> rfl

theorem step_getTokens {t : Tables} (h : StoreWF t) (o : Order) (n : Int) :
    (StoreOp.getTokens o n).step t =
      if n > SQLITE3_INTEGER_MAX ∨ ((sql_limit n (o.f (select_available t))).length : Int) < n then
        (.error .notEnoughTokens, t)
      else (.ok (.tokens (sql_limit n (o.f (select_available t)))),
        { t with temp := { t.temp with
          in_use := t.temp.in_use ++ sql_limit n (o.f (select_available t)) } }) := by
  simp only [StoreOp.step, StoreOp.prog, transact_map, getTokens_wf_eq h]
  split <;> rfl

theorem step_discard {t : Tables} (h : StoreWF t) (ts : List String) :
    (StoreOp.discard ts).step t =
      (.ok .unit, { app := { t.app with unblinded := t.app.unblinded.filter (·.token ∉ ts) },
                    temp := { t.temp with in_use := t.temp.in_use.filter (· ∉ ts) } }) := by
  simp only [StoreOp.step, StoreOp.prog, transact_map, discard_eq, h.to_discard, List.nil_append]
  rw [← h.to_discard]
  rfl

theorem step_reset {t : Tables} (h : StoreWF t) (ts : List String) :
    (StoreOp.reset ts).step t =
      (.ok .unit, { t with temp := { t.temp with in_use := t.temp.in_use.filter (· ∉ ts) } }) := by
  simp only [StoreOp.step, StoreOp.prog, transact_map, reset_eq, h.to_reset, List.nil_append]
  rw [← h.to_reset]
  rfl

theorem step_invalidate (reason : String) (ts : List String) (t : Tables) :
    (StoreOp.invalidate reason ts).step t =
      if ts.Nodup ∧ (∀ x ∈ ts, x ∉ t.app.invalid.map (·.token)) then
        (.ok .unit, {
          app := { t.app with
            invalid := t.app.invalid ++ ts.map (fun x => ⟨x, reason⟩)
            unblinded := t.app.unblinded.filter (·.token ∉ t.app.invalid.map (·.token) ++ ts) },
          temp := { t.temp with
            in_use := t.temp.in_use.filter (· ∉ t.app.invalid.map (·.token) ++ ts) } })
      else (.error .integrityError, t) := by
  simp only [StoreOp.step, StoreOp.prog, transact_map, invalidate_eq]
  split <;> rfl

/-! ### Tokens in use stay in use or disappear -/

/-- The token cannot be obtained. -/
def Blocked (x : String) (t : Tables) : Prop :=
  x ∈ t.temp.in_use ∨ ¬ StoredIn t.app true x

theorem getTokens_not_blocked {t t' : Tables} (h : StoreWF t) {o : Order} {n : Int}
    {ts : List String} (hs : (StoreOp.getTokens o n).step t = (.ok (.tokens ts), t'))
    {x : String} (hb : Blocked x t) : x ∉ ts := by
  rw [step_getTokens h] at hs
  split at hs
  · simp at hs
  · simp only [Prod.mk.injEq, Except.ok.injEq, Answer.tokens.injEq] at hs
    intro hx
    rw [← hs.1] at hx
    have := (limit_available h o n).2 x hx
    rcases hb with hb | hb
    · exact this.2 hb
    · exact hb this.1

theorem blocked_step {t : Tables} (h : StoreWF t) {x : String} {op : StoreOp}
    (hg : ¬ GivesBack x op) (hi : ¬ IssuesSpendable x op) (hb : Blocked x t) :
    Blocked x (op.step t).2 := by
  by_cases hn : Neutral op
  · have hs := step_neutral hn t
    unfold Blocked
    rw [hs.2.2.2, hs.stored]
    exact hb
  cases op with
  | insert now v pk ts c s =>
    rw [step_insert]
    split
    · exact hb
    · split
      · unfold Blocked
        rw [storedIn_inserted h]
        rcases hb with hb | hb
        · exact .inl hb
        · refine .inr ?_
          rintro (⟨h1, h2⟩ | h1)
          · exact hi ⟨h1, h2.symm⟩
          · exact hb h1
      · exact hb
  | getTokens o n =>
    rw [step_getTokens h]
    split
    · exact hb
    · rcases hb with hb | hb
      · exact .inl (List.mem_append_left _ hb)
      · exact .inr hb
  | discard ts =>
    rw [step_discard h]
    unfold Blocked
    simp only [storedIn_filter, List.mem_filter, decide_eq_true_eq]
    by_cases hx : x ∈ ts
    · exact .inr (fun h => h.2 hx)
    · rcases hb with hb | hb
      · exact .inl ⟨hb, hx⟩
      · exact .inr (fun h => hb h.1)
  | invalidate reason ts =>
    rw [step_invalidate]
    split
    · unfold Blocked
      have := storedIn_filter t.app true x (t.app.invalid.map (·.token) ++ ts)
      simp only [List.mem_filter, decide_eq_true_eq]
      by_cases hx : x ∈ t.app.invalid.map (·.token) ++ ts
      · exact .inr (fun h => (this.mp h).2 hx)
      · rcases hb with hb | hb
        · exact .inl ⟨hb, hx⟩
        · exact .inr (fun h => hb (this.mp h).1)
    · exact hb
  | reset ts =>
    rw [step_reset h]
    unfold Blocked
    simp only [List.mem_filter, decide_eq_true_eq]
    rcases hb with hb | hb
    · exact .inl ⟨hb, hg⟩
    · exact .inr hb
  | restart => exact absurd trivial hg
  | add => exact absurd trivial hn
  | doubleSpent => exact absurd trivial hn
  | maintStart => exact absurd trivial hn
  | maintObserve => exact absurd trivial hn
  | maintFinish => exact absurd trivial hn

theorem blocked_run {x : String} (ops : List StoreOp)
    (hops : ∀ op ∈ ops, ¬ GivesBack x op ∧ ¬ IssuesSpendable x op) {t : Tables} (h : StoreWF t)
    (hb : Blocked x t) : Blocked x (runStore ops t) := by
  induction ops generalizing t with
  | nil => exact hb
  | cons op ops ih =>
    have h1 := hops op (List.mem_cons_self ..)
    exact ih (fun op' h' => hops op' (List.mem_cons_of_mem _ h')) (step_wf_store h op)
      (blocked_step h h1.1 h1.2 hb)

/-- A token that is not stored as spendable stays so, also across restarts. -/
theorem gone_step {t : Tables} (h : StoreWF t) {x : String} {op : StoreOp}
    (hi : ¬ IssuesSpendable x op) (hb : ¬ StoredIn t.app true x) :
    ¬ StoredIn (op.step t).2.app true x := by
  by_cases hn : Neutral op
  · rw [(step_neutral hn t).stored]
    exact hb
  cases op with
  | insert now v pk ts c s =>
    rw [step_insert]
    split
    · exact hb
    · split
      · rw [storedIn_inserted h]
        rintro (⟨h1, h2⟩ | h1)
        · exact hi ⟨h1, h2.symm⟩
        · exact hb h1
      · exact hb
  | getTokens o n =>
    rw [step_getTokens h]
    split <;> exact hb
  | discard ts =>
    rw [step_discard h, storedIn_filter]
    exact fun h => hb h.1
  | invalidate reason ts =>
    rw [step_invalidate]
    split
    · have := storedIn_filter t.app true x (t.app.invalid.map (·.token) ++ ts)
      exact fun h => hb (this.mp h).1
    · exact hb
  | reset ts =>
    rw [step_reset h]
    exact hb
  | restart => exact hb
  | add => exact absurd trivial hn
  | doubleSpent => exact absurd trivial hn
  | maintStart => exact absurd trivial hn
  | maintObserve => exact absurd trivial hn
  | maintFinish => exact absurd trivial hn

theorem gone_run {x : String} (ops : List StoreOp)
    (hops : ∀ op ∈ ops, ¬ IssuesSpendable x op) {t : Tables} (h : StoreWF t)
    (hb : ¬ StoredIn t.app true x) : ¬ StoredIn (runStore ops t).app true x := by
  induction ops generalizing t with
  | nil => exact hb
  | cons op ops ih =>
    exact ih (fun op' h' => hops op' (List.mem_cons_of_mem _ h')) (step_wf_store h op)
      (gone_step h (hops op (List.mem_cons_self ..)) hb)

/-! ### The accountant's book -/

/-- The book is right about the tables. -/
structure Agrees (t : Tables) (l : Ledger) : Prop where
  available : ∀ x, l x = some .available ↔ Available t x
  inUse : ∀ x, l x = some .inUse ↔ x ∈ t.temp.in_use
  sequestered : ∀ x, l x = some .sequestered ↔ StoredIn t.app false x
  invalid : ∀ x, l x = some .invalid ↔ x ∈ t.app.invalid.map (·.token)

theorem agrees_empty : Agrees {} (fun _ => none) := by
  constructor <;> simp [Available, StoredIn]

theorem agrees_stored {t : Tables} {l : Ledger} (h : StoreWF t) (ha : Agrees t l) (x : String) :
    (StoredIn t.app true x ↔ (l x = some .available ∨ l x = some .inUse)) := by
  rw [ha.available, ha.inUse]
  unfold Available
  constructor
  · intro hs
    by_cases hu : x ∈ t.temp.in_use
    · exact .inr hu
    · exact .inl ⟨hs, hu⟩
  · rintro (h' | h')
    · exact h'.1
    · exact h.in_use_stored x h'

theorem agrees_of {t : Tables} {l : Ledger}
    (hs : ∀ x, StoredIn t.app true x ↔ (l x = some .available ∨ l x = some .inUse))
    (hu : ∀ x, l x = some .inUse ↔ x ∈ t.temp.in_use)
    (hq : ∀ x, l x = some .sequestered ↔ StoredIn t.app false x)
    (hi : ∀ x, l x = some .invalid ↔ x ∈ t.app.invalid.map (·.token)) : Agrees t l where
  available := by
    intro x
    unfold Available
    rw [hs, ← hu]
    cases l x with
    | none => simp
    | some s => cases s <;> simp
  inUse := hu
  sequestered := hq
  invalid := hi

theorem agrees_step {t : Tables} {l : Ledger} (h : StoreWF t) (ha : Agrees t l) (op : StoreOp)
    (hf : ∀ x, Issues x op → l x = none) :
    Agrees (op.step t).2 (l.enter op (op.step t).1) := by
  have hst := agrees_stored h ha
  by_cases hn : Neutral op
  · have hs := step_neutral hn t
    have hl : l.enter op (op.step t).1 = l := by
      cases op <;> simp only [Neutral] at hn <;> unfold Ledger.enter <;>
        (split <;> first | rfl | (rename_i heq _ _; simp at heq) | (rename_i heq _; simp at heq) |
          simp_all)
    rw [hl]
    refine agrees_of ?_ ?_ ?_ ?_
    · intro x; rw [hs.stored]; exact hst x
    · intro x; rw [hs.2.2.2]; exact ha.inUse x
    · intro x; rw [hs.stored]; exact ha.sequestered x
    · intro x; rw [hs.2.2.1]; exact ha.invalid x
  cases op with
  | insert now v pk ts c s =>
    rw [step_insert]
    split
    · exact ha
    · split
      · refine agrees_of ?_ ?_ ?_ ?_ <;> intro x
        · rw [storedIn_inserted h, hst]
          simp only [Ledger.enter]
          by_cases hx : x ∈ ts
          · have := hf x hx
            cases s <;> simp [hx, this]
          · simp [hx]
        · simp only [Ledger.enter, inserted]
          by_cases hx : x ∈ ts
          · have h0 := hf x hx
            have := ha.inUse x
            simp only [h0] at this
            cases s <;> simp_all
          · simp only [hx, if_false]; exact ha.inUse x
        · rw [storedIn_inserted h, ← ha.sequestered]
          simp only [Ledger.enter]
          by_cases hx : x ∈ ts
          · have := hf x hx
            cases s <;> simp [hx, this]
          · simp [hx]
        · simp only [Ledger.enter, inserted]
          rw [← ha.invalid]
          by_cases hx : x ∈ ts
          · have h0 := hf x hx
            cases s <;> simp [hx, h0]
          · simp only [hx, if_false]
      · exact ha
  | getTokens o n =>
    rw [step_getTokens h]
    split
    · exact ha
    · have hl := limit_available h o n
      generalize sql_limit n (o.f (select_available t)) = ts at hl
      simp only [Ledger.enter]
      refine agrees_of ?_ ?_ ?_ ?_ <;> intro x
      · by_cases hx : x ∈ ts
        · simp only [hx, if_true, or_true, iff_true]
          exact (hl.2 x hx).1
        · simp only [hx, if_false]; exact hst x
      · simp only [List.mem_append]
        by_cases hx : x ∈ ts
        · simp [hx]
        · simp only [hx, if_false, or_false]; exact ha.inUse x
      · by_cases hx : x ∈ ts
        · simp only [hx, if_true]
          have := (hl.2 x hx).1
          constructor
          · simp
          · intro h2
            exact absurd ⟨this, h2⟩ (stored_both h)
        · simp only [hx, if_false]; exact ha.sequestered x
      · by_cases hx : x ∈ ts
        · simp only [hx, if_true]
          have h1 := (ha.available x).mpr (hl.2 x hx)
          have h2 := ha.invalid x
          rw [h1] at h2
          simp at h2 ⊢
          exact h2
        · simp only [hx, if_false]; exact ha.invalid x
  | discard ts =>
    rw [step_discard h]
    simp only [Ledger.enter]
    refine agrees_of ?_ ?_ ?_ ?_ <;> intro x
    · rw [storedIn_filter, hst]
      by_cases hx : x ∈ ts
      · simp only [hx, if_true, not_true_eq_false, and_false, false_iff]
        cases l x with
        | none => simp
        | some s => cases s <;> simp
      · simp [hx]
    · simp only [List.mem_filter, decide_eq_true_eq]
      rw [← ha.inUse]
      by_cases hx : x ∈ ts
      · simp only [hx, if_true, not_true_eq_false, and_false, iff_false]
        cases l x with
        | none => simp
        | some s => cases s <;> simp
      · simp [hx]
    · rw [storedIn_filter, ← ha.sequestered]
      by_cases hx : x ∈ ts
      · simp only [hx, if_true, not_true_eq_false, and_false, iff_false]
        cases l x with
        | none => simp
        | some s => cases s <;> simp
      · simp [hx]
    · rw [← ha.invalid]
      by_cases hx : x ∈ ts
      · simp only [hx, if_true]
        cases l x with
        | none => simp
        | some s => cases s <;> simp
      · simp [hx]
  | invalidate reason ts =>
    rw [step_invalidate]
    split
    · simp only [Ledger.enter]
      have hflt := fun b x => storedIn_filter t.app b x (t.app.invalid.map (·.token) ++ ts)
      refine agrees_of ?_ ?_ ?_ ?_ <;> intro x
      · refine (hflt true x).trans ?_
        rw [List.mem_append, ← ha.invalid, hst]
        by_cases hx : x ∈ ts
        · simp [hx]
        · simp only [hx, or_false, if_false]
          cases l x with
          | none => simp
          | some s => cases s <;> simp
      · simp only [List.mem_filter, decide_eq_true_eq]
        rw [List.mem_append, ← ha.invalid, ← ha.inUse]
        by_cases hx : x ∈ ts
        · simp [hx]
        · simp only [hx, or_false, if_false]
          cases l x with
          | none => simp
          | some s => cases s <;> simp
      · refine Iff.trans ?_ (hflt false x).symm
        rw [List.mem_append, ← ha.invalid, ← ha.sequestered]
        by_cases hx : x ∈ ts
        · simp [hx]
        · simp only [hx, or_false, if_false]
          cases l x with
          | none => simp
          | some s => cases s <;> simp
      · simp only [List.map_append, List.map_map, Function.comp_def, List.map_id_fun', id,
          List.mem_append]
        rw [← ha.invalid]
        by_cases hx : x ∈ ts
        · simp [hx]
        · simp [hx]
    · exact ha
  | reset ts =>
    rw [step_reset h]
    simp only [Ledger.enter]
    refine agrees_of ?_ ?_ ?_ ?_ <;> intro x
    · rw [hst]
      split
      · rename_i hh; simp [hh.2]
      · rfl
    · simp only [List.mem_filter, decide_eq_true_eq]
      rw [← ha.inUse]
      by_cases hx : x ∈ ts
      · by_cases hu : l x = some .inUse
        · simp [hx, hu]
        · simp [hx, hu]
      · simp [hx]
    · rw [← ha.sequestered]
      split
      · rename_i hh; simp [hh.2]
      · rfl
    · rw [← ha.invalid]
      split
      · rename_i hh; simp [hh.2]
      · rfl
  | restart =>
    simp only [StoreOp.step, Ledger.enter]
    refine agrees_of ?_ ?_ ?_ ?_ <;> intro x
    · rw [hst]
      split
      · rename_i hh; simp [hh]
      · rfl
    · split
      · simp
      · rename_i hh; simp [hh]
    · rw [← ha.sequestered]
      split
      · rename_i hh; simp [hh]
      · rfl
    · rw [← ha.invalid]
      split
      · rename_i hh; simp [hh]
      · rfl
  | add => exact absurd trivial hn
  | doubleSpent => exact absurd trivial hn
  | maintStart => exact absurd trivial hn
  | maintObserve => exact absurd trivial hn
  | maintFinish => exact absurd trivial hn

theorem agrees_run (ops : List StoreOp) {t : Tables} {l : Ledger} (h : StoreWF t)
    (ha : Agrees t l) (hf : FreshIssues ops t l) :
    Agrees (keepBook ops t l).1 (keepBook ops t l).2 := by
  induction ops generalizing t l with
  | nil => exact ha
  | cons op ops ih =>
    exact ih (step_wf_store h op) (agrees_step h ha op hf.1) hf.2

theorem keepBook_fst (ops : List StoreOp) (t : Tables) (l : Ledger) :
    (keepBook ops t l).1 = runStore ops t := by
  induction ops generalizing t l with
  | nil => rfl
  | cons op ops ih => exact ih _ _

/-- A token once entered in the book never vanishes from it. -/
theorem enter_known (l : Ledger) (op : StoreOp) (r : Except PyErr Answer) (x : String)
    (h : l x ≠ none) : l.enter op r x ≠ none := by
  unfold Ledger.enter
  split <;> (try split) <;> (try split) <;> simp_all

end ZKAP
