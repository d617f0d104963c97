import Verif.Spec.Controller
import Verif.Lemmas.Dict
import Verif.Lemmas.StoreHistory

/-! Facts about the controller's single steps. -/
namespace ZKAP
open Spec

/-! ### Rows and random tokens -/

theorem find_map_rows (l : List VoucherRow) (w : String) (f : VoucherRow → VoucherRow)
    (hf : ∀ r, (f r).number = r.number) :
    (l.map f).find? (fun r => decide (r.number = w)) =
      (l.find? (fun r => decide (r.number = w))).map f := by
  induction l with
  | nil => rfl
  | cons a as ih =>
    simp only [List.map_cons, List.find?_cons, hf]
    split
    · rfl
    · exact ih

theorem voucherRow_number {t : Tables} {v : String} {r : VoucherRow}
    (h : voucherRow t v = some r) : r.number = v := by
  have := List.find?_some h
  simpa using this

theorem voucherRow_mem {t : Tables} {v : String} {r : VoucherRow}
    (h : voucherRow t v = some r) : r ∈ t.app.vouchers := List.mem_of_find?_eq_some h

theorem voucherRow_none {t : Tables} {v : String} :
    voucherRow t v = none ↔ v ∉ t.app.vouchers.map (·.number) := by
  unfold voucherRow
  rw [List.find?_eq_none]
  simp only [decide_eq_true_eq, List.mem_map, not_exists, not_and]

theorem voucherRow_of_mem {t : Tables} (h : StoreWF t) {r : VoucherRow}
    (hr : r ∈ t.app.vouchers) : voucherRow t r.number = some r := by
  cases hfind : voucherRow t r.number with
  | none => exact absurd (List.mem_map_of_mem (f := (·.number)) hr) (voucherRow_none.mp hfind)
  | some r' =>
    rw [inj_of_nodup_map h.vouchers (voucherRow_mem hfind) hr (voucherRow_number hfind)]

theorem filter_head (l : List VoucherRow) (v : String) :
    (l.filter (·.number == v)).head? = l.find? (fun r => decide (r.number = v)) := by
  induction l with
  | nil => rfl
  | cons a as ih =>
    rw [List.filter_cons, List.find?_cons]
    by_cases h : a.number = v
    · simp [h]
    · simp only [beq_iff_eq, h, if_false, decide_false]
      exact ih

theorem get_object_eq (v : String) (t : Tables) :
    get_object v t = match voucherRow t v with
      | none => .error .keyError
      | some r => Voucher.from_row sameText r := by
  unfold get_object transact store_get
  simp only [Prog.run]
  have := filter_head t.app.vouchers v
  unfold voucherRow
  rw [← this]
  cases t.app.vouchers.filter (·.number == v) <;> simp [Prog.run]

/-- The state `from_row` finds. -/
theorem from_row_pending {r : VoucherRow} (h : r.state = "pending") :
    Voucher.from_row sameText r =
      .ok ⟨r.number, r.expected_tokens, some r.created, .pending r.counter⟩ := by
  simp [Voucher.from_row, sameText, state_from_row, h]

theorem from_row_other {r : VoucherRow} (h : r.state ≠ "pending") :
    (∃ e, Voucher.from_row sameText r = .error e ∧ e ≠ .keyError) ∨
    (∃ d, Voucher.from_row sameText r =
      .ok ⟨r.number, r.expected_tokens, some r.created, .doubleSpend d⟩) ∨
    (∃ d n, Voucher.from_row sameText r =
      .ok ⟨r.number, r.expected_tokens, some r.created, .redeemed d n⟩) := by
  simp only [Voucher.from_row, sameText, state_from_row, beq_iff_eq, h, if_false]
  by_cases h1 : r.state = "double-spend"
  · simp only [h1, if_true]
    cases r.finished <;> simp
  · simp only [h1, if_false]
    by_cases h2 : r.state = "redeemed"
    · simp only [h2, if_true]
      cases r.token_count <;> cases r.finished <;> simp
    · simp [h2]

/-! ### Effects of the store operations on rows and random tokens -/

/-- A row of a voucher that is new. -/
def newRow (now v : String) (expected : Nat) : VoucherRow :=
  { number := v, created := now, expected_tokens := expected }

theorem voucherRow_added (now v : String) (e c : Nat) (ts : List String) (t : Tables) (w : String) :
    voucherRow (added now v e c ts t) w =
      if w = v then some ((voucherRow t v).getD (newRow now v e)) else voucherRow t w := by
  unfold added voucherRow
  dsimp only
  by_cases hv : v ∈ t.app.vouchers.map (·.number)
  · simp only [hv, if_true]
    by_cases hw : w = v
    · subst hw
      cases h : t.app.vouchers.find? (fun r => decide (r.number = w)) with
      | none => exact absurd hv (voucherRow_none.mp h)
      | some r => simp
    · simp [hw]
  · simp only [hv, if_false]
    have hnone : t.app.vouchers.find? (fun r => decide (r.number = v)) = none :=
      voucherRow_none.mpr hv
    rw [List.find?_append]
    by_cases hw : w = v
    · subst hw
      simp [hnone, newRow]
    · cases h : t.app.vouchers.find? (fun r => decide (r.number = w)) <;> simp [hw, Ne.symm hw]

theorem select_added (now v : String) (e c : Nat) (ts : List String) (t : Tables)
    (w : String) (d : Nat) :
    select_random_tokens w d (added now v e c ts t) =
      select_random_tokens w d t ++ if w = v ∧ d = c then ts else [] := by
  unfold select_random_tokens added
  simp only [List.filter_append, List.map_append, List.append_cancel_left_eq]
  by_cases h : w = v ∧ d = c
  · obtain ⟨rfl, rfl⟩ := h
    simp [List.filter_map, Function.comp_def]
  · rw [if_neg h]
    have : (ts.map (fun x => (⟨x, v, c⟩ : TokenRow))).filter
        (fun r => r.voucher == w && r.counter == d) = [] := by
      rw [List.filter_eq_nil_iff]
      intro r hr
      obtain ⟨x, _, rfl⟩ := List.mem_map.mp hr
      simp only [Bool.and_eq_true, beq_iff_eq]
      rintro ⟨rfl, rfl⟩
      exact h ⟨rfl, rfl⟩
    rw [this]; rfl

/-- `add`, in terms of rows and random tokens. -/
theorem add_effect (o : Order) (now v : String) (e c : Nat) (get : Except PyErr (List String))
    (t : Tables) :
    let r := transact (store_add o now v e c get) t
    (∃ err, r = (.error err, t)) ∨
    (∃ ts, r = (.ok ts, t) ∧ ts.Perm (select_random_tokens v c t) ∧ ts ≠ []) ∨
    (∃ ts, get = .ok ts ∧ r = (.ok ts, added now v e c ts t) ∧ select_random_tokens v c t = []) := by
  intro r
  simp only [r, add_eq]
  by_cases h : select_random_tokens v c t = []
  · rw [if_neg (by simp [h])]
    cases get with
    | error err => exact .inl ⟨err, rfl⟩
    | ok ts =>
      dsimp only
      split
      · exact .inr (.inr ⟨ts, rfl, rfl, h⟩)
      · exact .inl ⟨_, rfl⟩
  · rw [if_pos h]
    refine .inr (.inl ⟨_, rfl, o.perm _, ?_⟩)
    intro hnil
    have := (o.perm (select_random_tokens v c t))
    rw [hnil] at this
    exact h (List.nil_perm.mp this)

/-- The row of a voucher after a group of it has been redeemed. -/
def redeemedRow (now : String) (n : Nat) (completed spendable : Bool) (r : VoucherRow) : VoucherRow :=
  { r with
    state := if completed then "redeemed" else "pending"
    token_count := some (r.token_count.getD 0 + if spendable then n else 0)
    sequestered_count := r.sequestered_count + if spendable then 0 else n
    finished := some now
    counter := r.counter + 1 }

theorem voucherRow_inserted (now v pk : String) (ts : List String) (completed spendable : Bool)
    (t : Tables) (w : String) :
    voucherRow (inserted now v pk ts completed spendable t) w =
      if w = v then (voucherRow t v).map (redeemedRow now ts.length completed spendable)
      else voucherRow t w := by
  unfold inserted voucherRow
  dsimp only
  rw [find_map_rows _ _ _ (by intro r; split <;> rfl)]
  by_cases hw : w = v
  · subst hw
    simp only [if_true]
    cases h : t.app.vouchers.find? (fun r => decide (r.number = w)) with
    | none => rfl
    | some r =>
      have := List.find?_some h
      simp only [decide_eq_true_eq] at this
      simp [this, redeemedRow]
  · simp only [hw, if_false]
    cases h : t.app.vouchers.find? (fun r => decide (r.number = w)) with
    | none => rfl
    | some r =>
      have := List.find?_some h
      simp only [decide_eq_true_eq] at this
      simp [this, hw]

theorem select_inserted (now v pk : String) (ts : List String) (completed spendable : Bool)
    (t : Tables) {row : VoucherRow} (hrow : voucherRow t v = some row) (w : String) (d : Nat) :
    select_random_tokens w d (inserted now v pk ts completed spendable t) =
      if w = v ∧ d = row.counter then [] else select_random_tokens w d t := by
  have hhead : ((t.app.vouchers.filter (·.number == v)).map (·.counter)).headD 0 = row.counter := by
    have := filter_head t.app.vouchers v
    unfold voucherRow at hrow
    rw [hrow] at this
    cases h : t.app.vouchers.filter (·.number == v) with
    | nil => simp [h] at this
    | cons a as => simp only [h, List.head?_cons, Option.some.injEq] at this; simp [this]
  unfold select_random_tokens inserted
  dsimp only
  rw [hhead, List.filter_filter]
  by_cases h : w = v ∧ d = row.counter
  · obtain ⟨rfl, rfl⟩ := h
    rw [if_pos ⟨rfl, rfl⟩]
    have : t.app.tokens.filter (fun r => (r.voucher == w && r.counter == row.counter) &&
        !(r.voucher == w && r.counter == row.counter)) = [] := by
      rw [List.filter_eq_nil_iff]; intro r _; simp
    rw [this]; rfl
  · rw [if_neg h]
    congr 1
    apply List.filter_congr
    intro r _
    by_cases h2 : r.voucher = w ∧ r.counter = d
    · obtain ⟨rfl, rfl⟩ := h2
      have : ¬ (r.voucher = v ∧ r.counter = row.counter) := h
      simp only [beq_self_eq_true, Bool.and_self, Bool.true_and]
      simpa using Decidable.not_and_iff_not_or_not.mp this
    · have : (r.voucher == w && r.counter == d) = false := by
        rw [Bool.eq_false_iff]; simpa using h2
      simp [this]

/-- Storing unblinded tokens, in terms of rows and random tokens. -/
theorem insert_effect (now v pk : String) (ts : List String) (completed spendable : Bool)
    (t : Tables) :
    let r := transact (store_insert_unblinded now v pk ts completed spendable) t
    (∃ err, r = (.error err, t)) ∨
    (∃ row, voucherRow t v = some row ∧
      r = (.ok (), inserted now v pk ts completed spendable t)) := by
  intro r
  simp only [r, insert_eq]
  split
  · exact .inl ⟨_, rfl⟩
  · rename_i hv
    split
    · cases h : voucherRow t v with
      | none => exact absurd (voucherRow_none.mp h) hv
      | some row => exact .inr ⟨row, rfl, rfl⟩
    · exact .inl ⟨_, rfl⟩

theorem doubleSpent_effect (now v : String) (t : Tables) :
    let t' := (transact (store_mark_double_spent now v) t).2
    t'.app.tokens = t.app.tokens ∧
    ∀ w, voucherRow t' w =
      if w = v then (voucherRow t v).map (fun r =>
        if r.state = "pending" then { r with state := "double-spend", finished := some now } else r)
      else voucherRow t w := by
  intro t'
  simp only [t', doubleSpent_eq]
  split
  · refine ⟨rfl, fun w => ?_⟩
    unfold voucherRow
    dsimp only
    rw [find_map_rows _ _ _ (by intro r; split <;> rfl)]
    by_cases hw : w = v
    · subst hw
      simp only [if_true]
      cases h : t.app.vouchers.find? (fun r => decide (r.number = w)) with
      | none => rfl
      | some r =>
        have := List.find?_some h
        simp only [decide_eq_true_eq] at this
        simp [this]
    · simp only [hw, if_false]
      cases h : t.app.vouchers.find? (fun r => decide (r.number = w)) with
      | none => rfl
      | some r =>
        have := List.find?_some h
        simp only [decide_eq_true_eq] at this
        simp [this, hw]
  · rename_i hno
    refine ⟨rfl, fun w => ?_⟩
    split
    · rename_i hw
      subst hw
      cases h : voucherRow t w with
      | none => rfl
      | some r =>
        have : r.state ≠ "pending" := fun hp =>
          hno ⟨r, voucherRow_mem h, voucherRow_number h, hp⟩
        simp [this]
    · rfl

theorem other_effect (op : StoreOp) (h : notRedeeming op = true) (t : Tables) :
    (op.step t).2.app.tokens = t.app.tokens ∧ (op.step t).2.app.vouchers = t.app.vouchers := by
  cases op <;> simp only [notRedeeming, Bool.false_eq_true] at h <;>
    simp only [StoreOp.step, StoreOp.prog, transact_map]
  case getTokens o n =>
    rw [getTokens_eq]
    dsimp only
    repeat' split
    all_goals exact ⟨rfl, rfl⟩
  case discard ts => rw [discard_eq]; exact ⟨rfl, rfl⟩
  case invalidate reason ts =>
    rw [invalidate_eq]
    split <;> exact ⟨rfl, rfl⟩
  case reset ts => rw [reset_eq]; exact ⟨rfl, rfl⟩
  case maintStart now m =>
    rw [maintStart_eq]
    cases m.rowid <;> exact ⟨rfl, rfl⟩
  case maintObserve pv sizes m =>
    rw [maintObserve_eq]
    cases required_passesE pv sizes <;> exact ⟨rfl, rfl⟩
  case maintFinish now m => exact ⟨rfl, rfl⟩

end ZKAP
