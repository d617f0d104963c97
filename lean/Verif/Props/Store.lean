import Verif.Lemmas.StoreHistory

/-!
Properties of the voucher store (C14-C20, C33, C36).

Histories start from an empty database.  Every call of a history may succeed or fail;
restarts (and so crashes) may come between any two calls.
-/
namespace ZKAP
open Spec

/-- The database after a history. -/
def after (history : List StoreOp) : Tables := runStore history {}

theorem after_wf (history : List StoreOp) : StoreWF (after history) := run_wf_store _ wf_empty

/-! A small history used by the examples: a voucher is added, one group of three spendable and
one group of two unspendable tokens are redeemed, and one token is taken. -/

def exHistory : List StoreOp :=
  [.add .natural "2020" "voucher" 5 0 (.ok ["r1", "r2", "r3"]),
   .insert "2021" "voucher" "key" ["a", "b", "c"] false true,
   .insert "2022" "voucher" "badkey" ["d", "e"] true false]

def exTaken : List StoreOp := exHistory ++ [.getTokens .reversed 1]

/-! ### C14 -/

/-- **C14**: tokens handed out are distinct, and none of them is handed out again by any
later call, unless in between it was given back (`reset_unblinded_tokens` or a
restart) or issued anew. -/
theorem C14_no_token_handed_out_twice (history later : List StoreOp) (o o' : Order) (n m : Int)
    (ts ts' : List String)
    (first : ((StoreOp.getTokens o n).step (after history)).1 = .ok (.tokens ts))
    (second : ((StoreOp.getTokens o' m).step
      (runStore later ((StoreOp.getTokens o n).step (after history)).2)).1 = .ok (.tokens ts')) :
    ts.Nodup ∧ ts'.Nodup ∧
      ∀ x ∈ ts, (∀ op ∈ later, ¬ GivesBack x op ∧ ¬ IssuesSpendable x op) → x ∉ ts' := by
  have hwf := after_wf history
  have hwf1 := step_wf_store hwf (.getTokens o n)
  have hwf2 := run_wf_store later hwf1
  have key : ∀ {t : Tables}, StoreWF t → ∀ {o n ts},
      ((StoreOp.getTokens o n).step t).1 = .ok (.tokens ts) →
      ts.Nodup ∧ ∀ x ∈ ts, x ∈ ((StoreOp.getTokens o n).step t).2.temp.in_use := by
    intro t ht o n ts hs
    rw [step_getTokens ht] at hs ⊢
    have hl := limit_available ht o n
    split at hs
    · simp at hs
    · rename_i hc
      simp only [Except.ok.injEq, Answer.tokens.injEq] at hs
      subst hs
      rw [if_neg hc]
      exact ⟨hl.1, fun x hx => List.mem_append_right _ hx⟩
  refine ⟨(key hwf first).1, (key hwf2 second).1, fun x hx hlater => ?_⟩
  have hb := blocked_run later hlater hwf1 (.inl ((key hwf first).2 x hx))
  exact getTokens_not_blocked hwf2 (t' := _) (Prod.ext second rfl) hb

example :
    ((StoreOp.getTokens .reversed 1).step (after exHistory)).1 = .ok (.tokens ["c"]) ∧
    ((StoreOp.getTokens .reversed 2).step (runStore [.discard ["zz"]]
      ((StoreOp.getTokens .reversed 1).step (after exHistory)).2)).1 = .ok (.tokens ["b", "a"]) := by
  decide +kernel

/-! ### C15 -/

/-- **C15**: after a token has been discarded or (successfully) invalidated, no later call
hands it out, whatever calls and restarts come in between, unless the issuer issues it
again. -/
theorem C15_spent_tokens_are_gone (history later : List StoreOp) (op : StoreOp)
    (ts : List String) (reason : String) (hop : op = .discard ts ∨ op = .invalidate reason ts)
    (hok : ∃ a, (op.step (after history)).1 = .ok a)
    (x : String) (hx : x ∈ ts) (hlater : ∀ op' ∈ later, ¬ IssuesSpendable x op')
    (o : Order) (n : Int) (ts' : List String)
    (get : ((StoreOp.getTokens o n).step (runStore later (op.step (after history)).2)).1 =
      .ok (.tokens ts')) :
    x ∉ ts' := by
  have hwf := after_wf history
  have hwf1 := step_wf_store hwf op
  have hwf2 := run_wf_store later hwf1
  have hgone : ¬ StoredIn (op.step (after history)).2.app true x := by
    rcases hop with rfl | rfl
    · rw [step_discard hwf, storedIn_filter]
      exact fun h => h.2 hx
    · rw [step_invalidate] at hok ⊢
      split at hok
      · rename_i hc
        rw [if_pos hc]
        have := storedIn_filter (after history).app true x
          ((after history).app.invalid.map (·.token) ++ ts)
        exact fun h => (this.mp h).2 (List.mem_append_right _ hx)
      · simp at hok
  exact getTokens_not_blocked hwf2 (t' := _) (Prod.ext get rfl)
    (.inr (gone_run later hlater hwf1 hgone))

/-- Discarding always succeeds; invalidating succeeds exactly for distinct tokens not
declared invalid before. -/
theorem C15_discard_succeeds (history : List StoreOp) (ts : List String) (reason : String) :
    ((StoreOp.discard ts).step (after history)).1 = .ok .unit ∧
    (((StoreOp.invalidate reason ts).step (after history)).1 = .ok .unit ↔
      ts.Nodup ∧ ∀ x ∈ ts, x ∉ (after history).app.invalid.map (·.token)) := by
  constructor
  · rw [step_discard (after_wf history)]
  · rw [step_invalidate]
    split
    · rename_i h; simp only [true_iff]; exact h
    · rename_i h; simp only [reduceCtorEq, false_iff]; exact h

example :
    ((StoreOp.discard ["c"]).step (after exTaken)).1 = .ok .unit ∧
    ((StoreOp.getTokens .natural 2).step (runStore [.restart]
      ((StoreOp.invalidate "r" ["c"]).step (after exTaken)).2)).1 = .ok (.tokens ["a", "b"]) ∧
    ((StoreOp.getTokens .natural 3).step (runStore [.restart]
      ((StoreOp.invalidate "r" ["c"]).step (after exTaken)).2)).1 = .error .notEnoughTokens := by
  decide +kernel

/-! ### C16, C17 -/

/-- **C16**: the advertised count `k` is the number of tokens that are stored, spendable and
not in use; a request for `n` tokens, `0 ≤ n < 2^63`, succeeds if and only if `n ≤ k`, and then
returns exactly `n` tokens. -/
theorem C16_count_is_exact (history : List StoreOp) :
    ∃ k, transact store_count_unblinded_tokens (after history) = (.ok k, after history) ∧
      CountIs (Available (after history)) k ∧
      ∀ (o : Order) (n : Int), 0 ≤ n → n < 2 ^ 63 →
        ((∃ ts, ((StoreOp.getTokens o n).step (after history)).1 = .ok (.tokens ts)) ↔ n ≤ k) ∧
        (∀ ts, ((StoreOp.getTokens o n).step (after history)).1 = .ok (.tokens ts) →
          (ts.length : Int) = n) := by
  have hwf := after_wf history
  refine ⟨(select_available (after history)).length, rfl,
    ⟨_, nodup_select_available hwf, mem_select_available _, rfl⟩, ?_⟩
  intro o n h0 h63
  rw [step_getTokens hwf]
  have hmax : ¬ n > SQLITE3_INTEGER_MAX := by unfold SQLITE3_INTEGER_MAX; omega
  have hlen : (sql_limit n (o.f (select_available (after history)))).length =
      min n.toNat (select_available (after history)).length := by
    unfold sql_limit
    rw [if_neg (by omega), List.length_take, (o.perm _).length_eq]
  rw [hlen]
  constructor
  · by_cases hc : n ≤ (select_available (after history)).length
    · rw [if_neg (by omega)]
      exact ⟨fun _ => hc, fun _ => ⟨_, rfl⟩⟩
    · rw [if_pos (by omega)]
      simp [hc]
  · intro ts hs
    split at hs
    · simp at hs
    · simp only [Except.ok.injEq, Answer.tokens.injEq] at hs
      rw [← hs, hlen]
      omega

example : transact store_count_unblinded_tokens (after exTaken) = (.ok 2, after exTaken) := by
  decide +kernel

/-- The full statement of C17. -/
def C17_statement : Prop :=
  ∀ (history : List StoreOp) (o : Order) (n : Int),
    (∃ ts t', (StoreOp.getTokens o n).step (after history) = (.ok (.tokens ts), t') ∧
      (ts.length : Int) = n) ∨
    (StoreOp.getTokens o n).step (after history) = (.error .notEnoughTokens, after history)

/-- **C17** is violated: a request for a negative number of tokens takes every token there is. -/
theorem C17_negative_request_fails : ¬ C17_statement := by
  intro h
  have := h exHistory .natural (-1)
  have hv : (StoreOp.getTokens .natural (-1)).step (after exHistory) =
      (.ok (.tokens ["a", "b", "c"]),
        { after exHistory with temp := { in_use := ["a", "b", "c"] } }) := by decide +kernel
  rw [hv] at this
  rcases this with ⟨ts, t', h1, h2⟩ | h1
  · omega
  · simp at h1

/-- **C17**, the part that holds: for `n ≥ 0`, a request for `n` tokens returns exactly `n`
available tokens, marking exactly those as in use, or raises `NotEnoughTokens` and changes
nothing. -/
theorem C17_exactly_as_many_partial (history : List StoreOp) (o : Order) (n : Int) (hn : 0 ≤ n) :
    (∃ ts, (StoreOp.getTokens o n).step (after history) =
        (.ok (.tokens ts), { after history with temp := { (after history).temp with
          in_use := (after history).temp.in_use ++ ts } }) ∧
      (ts.length : Int) = n ∧ ∀ x ∈ ts, Available (after history) x) ∨
    (StoreOp.getTokens o n).step (after history) = (.error .notEnoughTokens, after history) := by
  have hwf := after_wf history
  rw [step_getTokens hwf]
  split
  · exact .inr rfl
  · rename_i hc
    refine .inl ⟨_, rfl, ?_, (limit_available hwf o n).2⟩
    have : (sql_limit n (o.f (select_available (after history)))).length ≤ n.toNat := by
      unfold sql_limit
      rw [if_neg (by omega), List.length_take]
      omega
    omega

example :
    (StoreOp.getTokens .natural 2).step (after exTaken) = (.ok (.tokens ["a", "b"]),
      { after exTaken with temp := { in_use := ["c", "a", "b"] } }) ∧
    (StoreOp.getTokens .natural 3).step (after exTaken) = (.error .notEnoughTokens, after exTaken) := by
  decide +kernel

/-! ### C18 -/

/-- **C18**: tokens stored by a redemption marked not spendable are never obtainable and never
handed out in any later state, whatever happens, unless the issuer issues the same token
again in a spendable group. -/
theorem C18_sequestered_tokens_never_spent (history later : List StoreOp)
    (now v pk : String) (ts : List String) (completed : Bool)
    (hok : ((StoreOp.insert now v pk ts completed false).step (after history)).1 = .ok .unit)
    (x : String) (hx : x ∈ ts) (hlater : ∀ op ∈ later, ¬ IssuesSpendable x op) :
    let t := runStore later ((StoreOp.insert now v pk ts completed false).step (after history)).2
    ¬ Available t x ∧
    ∀ o n ts', ((StoreOp.getTokens o n).step t).1 = .ok (.tokens ts') → x ∉ ts' := by
  have hwf := after_wf history
  have hwf1 := step_wf_store hwf (.insert now v pk ts completed false)
  have hwf2 := run_wf_store later hwf1
  have hgone : ¬ StoredIn ((StoreOp.insert now v pk ts completed false).step
      (after history)).2.app true x := by
    rw [step_insert] at hok ⊢
    split at hok
    · simp at hok
    · rename_i hv
      split at hok
      · rename_i hc
        rw [if_neg hv, if_pos hc, storedIn_inserted hwf]
        rintro (⟨_, h⟩ | h)
        · simp at h
        · exact hc.2 x hx (stored_mem h)
      · simp at hok
  have hg := gone_run later hlater hwf1 hgone
  exact ⟨fun h => hg h.1, fun o n ts' hs =>
    getTokens_not_blocked hwf2 (t' := _) (Prod.ext hs rfl) (.inr hg)⟩

example :
    ((StoreOp.insert "2022" "voucher" "badkey" ["d", "e"] true false).step
      (after (exHistory.take 2))).1 = .ok .unit ∧
    ((StoreOp.getTokens .natural 3).step (after (exHistory ++ [.restart]))).1 =
      .ok (.tokens ["a", "b", "c"]) ∧
    ((StoreOp.getTokens .natural 4).step (after (exHistory ++ [.restart]))).1 =
      .error .notEnoughTokens := by decide +kernel

/-! ### C19, C20 -/

/-- **C19**: after a restart at any point the obtainable tokens are exactly those stored in a
spendable group, nothing persistent has changed, and (if the issuer never repeats a token)
these are the tokens that were issued as spendable and neither discarded nor invalidated. -/
theorem C19_restart_releases (history : List StoreOp) :
    let t := after history
    let t' := (StoreOp.restart.step t).2
    t'.app = t.app ∧
    (∀ x, Available t' x ↔ StoredIn t.app true x) ∧
    (FreshIssues history {} (fun _ => none) → ∀ x,
      Available t' x ↔
        ((keepBook history {} (fun _ => none)).2 x = some .available ∨
         (keepBook history {} (fun _ => none)).2 x = some .inUse)) := by
  intro t t'
  have h1 : ∀ x, Available t' x ↔ StoredIn t.app true x := by
    intro x
    simp only [Available, t', StoreOp.step]
    simp
  refine ⟨rfl, h1, fun hf x => ?_⟩
  have ha := agrees_run history wf_empty agrees_empty hf
  rw [keepBook_fst] at ha
  rw [h1, agrees_stored (after_wf history) ha]

example :
    FreshIssues exTaken {} (fun _ => none) ∧
    (keepBook exTaken {} (fun _ => none)).2 "c" = some .inUse ∧
    ((StoreOp.getTokens .natural 3).step (StoreOp.restart.step (after exTaken)).2).1 =
      .ok (.tokens ["a", "b", "c"]) := by
  refine ⟨?_, by decide +kernel, by decide +kernel⟩
  simp only [exTaken, exHistory, List.cons_append, List.nil_append, FreshIssues, Issues]
  refine ⟨by simp, fun x _ => ?_, fun x hx => ?_, by simp, trivial⟩
  · simp [Ledger.enter]
  · have : ∀ y ∈ ["d", "e"], (Ledger.enter (Ledger.enter (fun _ => none)
        (.add .natural "2020" "voucher" 5 0 (.ok ["r1", "r2", "r3"])) (.ok (.tokens [])))
        (.insert "2021" "voucher" "key" ["a", "b", "c"] false true) (.ok .unit)) y = none := by
      decide +kernel
    simp only [List.mem_cons, List.not_mem_nil, or_false] at hx
    rcases hx with rfl | rfl <;> rfl

/-- **C20**: whatever the history, as long as the issuer never repeats a token, an
accountant who records every successful call is always right about every token: the
obtainable tokens are those recorded as available, those in the in-use table are those
recorded as in use, those in unspendable groups are those recorded as sequestered, those in
the table of invalid tokens are those recorded as invalid, and a token recorded as discarded
is in none of these.  Every token that was ever stored is in the book for good, and the
number of obtainable tokens plus the number in use is the number of spendable tokens
stored. -/
theorem C20_tokens_are_conserved (history : List StoreOp)
    (hf : FreshIssues history {} (fun _ => none)) :
    let t := after history
    let book := (keepBook history {} (fun _ => none)).2
    (∀ x, book x = some .available ↔ Available t x) ∧
    (∀ x, book x = some .inUse ↔ x ∈ t.temp.in_use) ∧
    (∀ x, book x = some .sequestered ↔ StoredIn t.app false x) ∧
    (∀ x, book x = some .invalid ↔ x ∈ t.app.invalid.map (·.token)) ∧
    (∀ x, book x = some .discarded → x ∉ t.app.unblinded.map (·.token) ∧ x ∉ t.temp.in_use ∧
      x ∉ t.app.invalid.map (·.token)) := by
  intro t book
  have ha := agrees_run history wf_empty agrees_empty hf
  rw [keepBook_fst] at ha
  refine ⟨ha.available, ha.inUse, ha.sequestered, ha.invalid, fun x hx => ⟨?_, ?_, ?_⟩⟩
  · intro hm
    rcases stored_cases (after_wf history) hm with h | h
    · rcases (agrees_stored (after_wf history) ha x).mp h with h | h <;> simp_all [book]
    · have := (ha.sequestered x).mpr h; simp_all [book]
  · intro h; have := (ha.inUse x).mpr h; simp_all [book]
  · intro h; have := (ha.invalid x).mpr h; simp_all [book]

/-- **C20**, second part: what was stored by a successful redemption is never lost from the
book. -/
theorem C20_issued_tokens_stay_in_the_book (now v pk : String) (ts : List String)
    (completed spendable : Bool) (t : Tables) (l : Ledger)
    (hok : ((StoreOp.insert now v pk ts completed spendable).step t).1 = .ok .unit)
    (later : List StoreOp) (x : String) (hx : x ∈ ts) :
    (keepBook (.insert now v pk ts completed spendable :: later) t l).2 x ≠ none := by
  simp only [keepBook, hok]
  have h0 : (l.enter (.insert now v pk ts completed spendable) (.ok .unit)) x ≠ none := by
    simp [Ledger.enter, hx]
  generalize l.enter (.insert now v pk ts completed spendable) (.ok .unit) = l' at h0
  generalize ((StoreOp.insert now v pk ts completed spendable).step t).2 = t'
  induction later generalizing t' l' with
  | nil => exact h0
  | cons op ops ih => exact ih _ (enter_known _ _ _ _ h0) _

/-- **C20**, third part: obtainable plus in use is stored and spendable. -/
theorem C20_counts (history : List StoreOp) (k : Nat)
    (hk : transact store_count_unblinded_tokens (after history) = (.ok k, after history)) :
    CountIs (StoredIn (after history).app true) (k + (after history).temp.in_use.length) := by
  have hwf := after_wf history
  have hk' : k = (select_available (after history)).length := by
    have : transact store_count_unblinded_tokens (after history) =
      (.ok (select_available (after history)).length, after history) := rfl
    rw [this] at hk
    simp at hk
    exact hk.symm
  subst hk'
  refine ⟨select_available (after history) ++ (after history).temp.in_use, ?_, ?_, by simp⟩
  · apply nodup_append_fresh (nodup_select_available hwf) hwf.in_use
    intro x hx h
    exact ((mem_select_available _ x).mp h).2 hx
  · intro x
    rw [List.mem_append, mem_select_available]
    constructor
    · rintro (h | h)
      · exact h.1
      · exact hwf.in_use_stored x h
    · intro h
      by_cases hu : x ∈ (after history).temp.in_use
      · exact .inr hu
      · exact .inl ⟨h, hu⟩

example :
    let book := (keepBook (exTaken ++ [.discard ["c"], .invalidate "no" ["b"]]) {} (fun _ => none)).2
    [book "a", book "b", book "c", book "d", book "x"] =
      [some .available, some .invalid, some .discarded, some .sequestered, none] := by
  decide +kernel

/-! ### C33 -/

/-- **C33**: marking a voucher double-spent succeeds if and only if the voucher is pending;
then exactly that voucher's state and finish time change, and no token, group or other
voucher does.  Otherwise it raises `ValueError` and changes nothing. -/
theorem C33_double_spend_loses_nothing (history : List StoreOp) (now v : String) :
    let t := after history
    let r := (StoreOp.doubleSpent now v).step t
    (∀ row, voucherRow t v = some row → row.state = "pending" →
      r.1 = .ok .unit ∧
      voucherRow r.2 v = some { row with state := "double-spend", finished := some now } ∧
      (∀ w, w ≠ v → voucherRow r.2 w = voucherRow t w) ∧
      r.2.app.vouchers.map (·.number) = t.app.vouchers.map (·.number) ∧
      r.2 = { t with app := { t.app with vouchers := r.2.app.vouchers } } ∧
      (∀ x, Available r.2 x ↔ Available t x)) ∧
    ((∀ row, voucherRow t v = some row → row.state ≠ "pending") → r = (.error .valueError, t)) := by
  intro t r
  have hwf := after_wf history
  have hr : r = if (∃ r ∈ t.app.vouchers, r.number = v ∧ r.state = "pending") then
        (.ok .unit, { t with app := { t.app with vouchers := t.app.vouchers.map (fun r =>
            if r.number == v && r.state == "pending" then
              { r with state := "double-spend", finished := some now }
            else r) } })
      else (.error .valueError, t) := by
    simp only [r, StoreOp.step, StoreOp.prog, transact_map, doubleSpent_eq]
    split <;> rfl
  have huniq : ∀ row, row ∈ t.app.vouchers → row.number = v → voucherRow t v = some row := by
    intro row hm hv
    unfold voucherRow
    cases hfind : t.app.vouchers.find? (fun r => decide (r.number = v)) with
    | none =>
      rw [List.find?_eq_none] at hfind
      exact absurd (by simpa using hv) (hfind row hm)
    | some row' =>
      have h1 := List.mem_of_find?_eq_some hfind
      have h2 := List.find?_some hfind
      simp only [decide_eq_true_eq] at h2
      rw [inj_of_nodup_map hwf.vouchers h1 hm (by rw [h2, hv])]
  have hfindmap : ∀ (l : List VoucherRow) (w : String) (f : VoucherRow → VoucherRow),
      (∀ r, (f r).number = r.number) →
      (l.map f).find? (fun r => decide (r.number = w)) =
        (l.find? (fun r => decide (r.number = w))).map f := by
    intro l w f hf
    induction l with
    | nil => rfl
    | cons a as ih =>
      simp only [List.map_cons, List.find?_cons, hf]
      split
      · rfl
      · exact ih
  constructor
  · intro row hrow hp
    have hm := List.mem_of_find?_eq_some hrow
    have hv : row.number = v := by
      have := List.find?_some hrow
      simpa using this
    rw [if_pos ⟨row, hm, hv, hp⟩] at hr
    rw [hr]
    refine ⟨rfl, ?_, ?_, ?_, rfl, ?_⟩
    · unfold voucherRow
      dsimp only
      rw [hfindmap _ _ _ (by intro r; split <;> rfl)]
      unfold voucherRow at hrow
      rw [hrow]
      simp [hv, hp]
    · intro w hw
      unfold voucherRow
      dsimp only
      rw [hfindmap _ _ _ (by intro r; split <;> rfl)]
      cases hfind : t.app.vouchers.find? (fun r => decide (r.number = w)) with
      | none => rfl
      | some row' =>
        have h2 := List.find?_some hfind
        simp only [decide_eq_true_eq] at h2
        have : (row'.number == v) = false := by simpa [h2] using hw
        simp only [Option.map_some, this, Bool.false_and, Bool.false_eq_true, if_false]
    · exact map_number_update _ _ (by intro r; split <;> rfl)
    · intro x; exact Iff.rfl
  · intro hnp
    rw [hr, if_neg]
    rintro ⟨row, hm, hv, hp⟩
    exact hnp row (huniq row hm hv) hp

example :
    let t := after (exHistory.take 2)
    let r := (StoreOp.doubleSpent "2023" "voucher").step t
    r.1 = .ok .unit ∧
    (voucherRow r.2 "voucher").map (fun v => (v.state, v.token_count)) =
      some ("double-spend", some 3) ∧
    (StoreOp.doubleSpent "2023" "voucher").step (after exHistory) =
      (.error .valueError, after exHistory) := by decide +kernel

/-! ### C36 -/

/-- **C36**: if random tokens for this voucher and counter are already stored, `add` returns
exactly the stored ones (in some order) and changes nothing, whatever the other
arguments. -/
theorem C36_add_again_changes_nothing (history : List StoreOp) (o : Order) (now v : String)
    (expected c : Nat) (get : Except PyErr (List String))
    (hstored : ∃ r ∈ (after history).app.tokens, r.voucher = v ∧ r.counter = c) :
    ∃ ts, (StoreOp.add o now v expected c get).step (after history) =
        (.ok (.tokens ts), after history) ∧ ts.Nodup ∧
      ∀ x, x ∈ ts ↔ ∃ r ∈ (after history).app.tokens, r.text = x ∧ r.voucher = v ∧ r.counter = c := by
  have hwf := after_wf history
  have hne : select_random_tokens v c (after history) ≠ [] := by
    obtain ⟨r, hr, h1, h2⟩ := hstored
    have : r.text ∈ select_random_tokens v c (after history) :=
      List.mem_map.mpr ⟨r, List.mem_filter.mpr ⟨hr, by simp [h1, h2]⟩, rfl⟩
    exact List.ne_nil_of_mem this
  refine ⟨o.f (select_random_tokens v c (after history)), ?_, ?_, ?_⟩
  · simp only [StoreOp.step, StoreOp.prog, transact_map, add_eq, if_pos hne]
    rfl
  · exact ((o.perm _).nodup_iff).mpr (nodup_map_filter _ _ _ hwf.tokens)
  · intro x
    rw [(o.perm _).mem_iff]
    simp only [select_random_tokens, List.mem_map, List.mem_filter, Bool.and_eq_true, beq_iff_eq]
    constructor
    · rintro ⟨r, ⟨hr, h1, h2⟩, rfl⟩; exact ⟨r, hr, rfl, h1, h2⟩
    · rintro ⟨r, hr, rfl, h1, h2⟩; exact ⟨r, ⟨hr, h1, h2⟩, rfl⟩

/-- **C36**, second part: adding tokens for a further counter leaves the record of every known
voucher, this one included, unchanged, and keeps all stored tokens. -/
theorem C36_add_never_changes_a_voucher (history : List StoreOp) (o : Order) (now v : String)
    (expected c : Nat) (get : Except PyErr (List String)) :
    let t := after history
    let t' := ((StoreOp.add o now v expected c get).step t).2
    (∀ w row, voucherRow t w = some row → voucherRow t' w = some row) ∧
    (∀ r ∈ t.app.tokens, r ∈ t'.app.tokens) ∧
    t'.app.unblinded = t.app.unblinded ∧ t'.app.groups = t.app.groups ∧ t'.temp = t.temp := by
  intro t t'
  have hsame : SameTokens t t' := step_neutral (by trivial) t
  refine ⟨?_, ?_, hsame.1, hsame.2.1, hsame.2.2.2⟩
  · intro w row hrow
    simp only [t', StoreOp.step, StoreOp.prog, transact_map, add_eq]
    split
    · exact hrow
    · cases get with
      | error e => exact hrow
      | ok ts =>
        dsimp only
        split
        · unfold voucherRow added at *
          dsimp only
          split
          · exact hrow
          · rw [List.find?_append, hrow]; rfl
        · exact hrow
  · intro r hr
    simp only [t', StoreOp.step, StoreOp.prog, transact_map, add_eq]
    split
    · exact hr
    · cases get with
      | error e => exact hr
      | ok ts =>
        dsimp only
        split
        · exact List.mem_append_left _ hr
        · exact hr

example :
    (StoreOp.add .reversed "2030" "voucher" 99 0 (.ok ["other"])).step (after (exHistory.take 1)) =
      (.ok (.tokens ["r3", "r2", "r1"]), after (exHistory.take 1)) ∧
    (voucherRow ((StoreOp.add .natural "2030" "voucher" 99 1 (.ok ["other"])).step
      (after (exHistory.take 1))).2 "voucher").map (·.expected_tokens) = some 5 := by
  decide +kernel

end ZKAP
