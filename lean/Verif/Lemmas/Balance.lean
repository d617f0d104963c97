import Verif.Spec.Balance
import Verif.Lemmas.WholeNode
import Verif.Lemmas.StorageClient

/-! Lemmas about the balance of a node. -/
namespace ZKAP
open Spec

theorem nodup_same_length {l m : List String} (hl : l.Nodup) (hm : m.Nodup) (h : ∀ x, x ∈ l ↔ x ∈ m) : l.length = m.length :=
  Nat.le_antisymm (nodup_subset_length hl fun x hx => (h x).mp hx) (nodup_subset_length hm fun x hx => (h x).mpr hx)

theorem filter_out_length {rows : List UnblindedRow} {p : List String} (hr : (rows.map (·.token)).Nodup) (hp : p.Nodup)
    (hs : ∀ x ∈ p, x ∈ rows.map (·.token)) : (rows.filter (·.token ∉ p)).length + p.length = rows.length := by
  have h1 : (p ++ (rows.filter (·.token ∉ p)).map (·.token)).Nodup := by
    rw [List.nodup_append]
    refine ⟨hp, hr.sublist (List.filter_sublist.map _), ?_⟩
    rintro x hx y hy rfl
    obtain ⟨r, h2, rfl⟩ := List.mem_map.mp hy
    have := (List.mem_filter.mp h2).2
    simp only [decide_eq_true_eq] at this
    exact this hx
  have := nodup_same_length h1 hr (by
    intro x
    rw [List.mem_append]
    constructor
    · rintro (h | h)
      · exact hs x h
      · exact (List.filter_sublist.map _).subset h
    · intro h
      by_cases hx : x ∈ p
      · exact .inl hx
      · obtain ⟨r, h2, rfl⟩ := List.mem_map.mp h
        exact .inr (List.mem_map_of_mem (List.mem_filter.mpr ⟨h2, by simpa using hx⟩)))
  simp only [List.length_append, List.length_map] at this
  omega

/-- Tokens in the database and invalid ones. -/
def kept (t : Tables) : Nat := t.app.unblinded.length + t.app.invalid.length

theorem mem_sequestered {t : Tables} (x : String) :
    x ∈ sequestered t ↔ ∃ r ∈ t.app.unblinded, r.token = x ∧ ∀ g ∈ t.app.groups, g.rowid = r.group → g.spendable = false := by
  unfold sequestered
  simp only [List.mem_map, List.mem_filter, List.all_eq_true, Bool.not_eq_true', Bool.and_eq_false_imp, beq_iff_eq]
  constructor
  · rintro ⟨r, ⟨h1, h2⟩, h3⟩
    exact ⟨r, h1, h3, h2⟩
  · rintro ⟨r, h1, h3, h2⟩
    exact ⟨r, ⟨h1, h2⟩, h3⟩

theorem same_row {t : Tables} (h : StoreWF t) {r s : UnblindedRow} (hr : r ∈ t.app.unblinded) (hs : s ∈ t.app.unblinded)
    (he : r.token = s.token) : r = s := by
  have hn := h.unblinded
  generalize t.app.unblinded = l at *
  induction l with
  | nil => cases hr
  | cons x l ih =>
    rw [List.map_cons, List.nodup_cons] at hn
    rcases List.mem_cons.mp hr with h1 | h1 <;> rcases List.mem_cons.mp hs with h2 | h2
    · rw [h1, h2]
    · exact absurd (h1 ▸ he ▸ List.mem_map_of_mem h2) hn.1
    · exact absurd (h2 ▸ he ▸ List.mem_map_of_mem h1) hn.1
    · exact ih h1 h2 hn.2

theorem stored_parts {t : Tables} (h : StoreWF t) :
    t.app.unblinded.length = (select_available t).length + t.temp.in_use.length + (sequestered t).length := by
  have hno : ∀ x, x ∈ sequestered t → ¬ StoredIn t.app true x := by
    intro x hx ⟨r, hr, h1, g, hg, h2, h3⟩
    obtain ⟨s, hs, h4, h5⟩ := (mem_sequestered x).mp hx
    cases same_row h hr hs (h1.trans h4.symm)
    rw [h5 g hg h2] at h3
    cases h3
  have hnd : (select_available t ++ t.temp.in_use ++ sequestered t).Nodup := by
    rw [List.nodup_append, List.nodup_append]
    refine ⟨⟨nodup_select_available h, h.in_use, ?_⟩, h.unblinded.sublist (List.filter_sublist.map _), ?_⟩
    · rintro x hx y hy rfl
      exact ((mem_select_available t x).mp hx).2 hy
    · rintro x hx y hy rfl
      refine hno x hy ?_
      rcases List.mem_append.mp hx with hx | hx
      · exact ((mem_select_available t x).mp hx).1
      · exact h.in_use_stored x hx
  have := nodup_same_length hnd h.unblinded (by
    intro x
    rw [List.mem_append, List.mem_append]
    constructor
    · rintro ((hx | hx) | hx)
      · obtain ⟨⟨r, hr, h1, -⟩, -⟩ := (mem_select_available t x).mp hx
        exact h1 ▸ List.mem_map_of_mem hr
      · obtain ⟨r, hr, h1, -⟩ := h.in_use_stored x hx
        exact h1 ▸ List.mem_map_of_mem hr
      · exact (List.filter_sublist.map _).subset hx
    · intro hx
      obtain ⟨r, hr, rfl⟩ := List.mem_map.mp hx
      by_cases hu : r.token ∈ t.temp.in_use
      · exact .inl (.inr hu)
      · by_cases hg : ∃ g ∈ t.app.groups, g.rowid = r.group ∧ g.spendable = true
        · exact .inl (.inl ((mem_select_available t _).mpr ⟨⟨r, hr, rfl, hg⟩, hu⟩))
        · refine .inr ((mem_sequestered _).mpr ⟨r, hr, rfl, fun g h1 h2 => ?_⟩)
          cases h3 : g.spendable with
          | false => rfl
          | true => exact absurd ⟨g, h1, h2, h3⟩ hg)
  simp only [List.length_append, List.length_map] at this
  omega

/-- What a transaction does to the balance. -/
def Shifts (t t' : Tables) (paid : Nat) : Prop := givenByVouchers t' + kept t = givenByVouchers t + kept t' + paid

theorem shifts_same {t t' : Tables} (h : t'.app = t.app) : Shifts t t' 0 := by
  unfold Shifts givenByVouchers kept
  rw [h]
  omega

theorem sum_bump {α} (p : α → Bool) (f : α → Nat) (g : α → α) (k : Nat) (l : List α)
    (one : l.countP p = 1) (yes : ∀ x, p x = true → f (g x) = f x + k) :
    (l.map fun x => f (if p x then g x else x)).sum = (l.map f).sum + k := by
  have zero : ∀ l : List α, l.countP p = 0 → (l.map fun x => f (if p x then g x else x)).sum = (l.map f).sum := by
    intro l h
    rw [List.countP_eq_zero] at h
    congr 1
    refine List.map_congr_left fun x hx => ?_
    rw [if_neg (h x hx)]
  induction l with
  | nil => simp at one
  | cons x l ih =>
    by_cases hx : p x = true
    · rw [List.countP_cons_of_pos hx] at one
      have := zero l (by omega)
      simp only [List.map_cons, List.sum_cons, if_pos hx, yes x hx, this]
      omega
    · rw [List.countP_cons_of_neg hx] at one
      have := ih one
      simp only [List.map_cons, List.sum_cons, if_neg hx, this]
      simp only [Bool.not_eq_true] at hx
      omega

theorem count_one {t : Tables} (h : StoreWF t) {v : String} (hv : v ∈ t.app.vouchers.map (·.number)) :
    t.app.vouchers.countP (fun r => r.number == v) = 1 := by
  have hn := h.vouchers
  generalize t.app.vouchers = l at *
  induction l with
  | nil => simp at hv
  | cons r l ih =>
    rw [List.map_cons, List.nodup_cons] at hn
    by_cases hr : r.number = v
    · rw [List.countP_cons_of_pos (by simp [hr])]
      have : l.countP (fun r => r.number == v) = 0 := by
        rw [List.countP_eq_zero]
        intro s hs he
        apply hn.1
        rw [hr, ← beq_iff_eq.mp he]
        exact List.mem_map_of_mem hs
      omega
    · rw [List.countP_cons_of_neg (by simp [hr])]
      apply ih _ hn.2
      simpa [Ne.symm hr] using hv

/-- What the operations of the controller do. -/
theorem outside_shifts {op : StoreOp} (ho : outside op = true) {t : Tables} (h : StoreWF t) : Shifts t (op.step t).2 0 := by
  cases op <;> simp only [outside, Bool.false_eq_true] at ho <;> simp only [StoreOp.step, StoreOp.prog, transact_map]
  case add o now v e c get =>
    rcases add_effect o now v e c get t with ⟨err, he⟩ | ⟨ts, he, -⟩ | ⟨ts, -, he, -⟩
    · rw [he]; exact shifts_same rfl
    · rw [he]; exact shifts_same rfl
    · rw [he]
      unfold Shifts givenByVouchers kept added
      dsimp only
      split <;> simp <;> omega
  case insert now v pk ts completed spendable =>
    rw [insert_eq]
    split
    · exact shifts_same rfl
    · rename_i hv
      split
      · simp only [Decidable.not_not] at hv
        have := sum_bump (fun r : VoucherRow => r.number == v) (fun row => row.token_count.getD 0 + row.sequestered_count)
          (fun r => { r with
            state := if completed then "redeemed" else "pending"
            token_count := some (r.token_count.getD 0 + if spendable then ts.length else 0)
            sequestered_count := r.sequestered_count + if spendable then 0 else ts.length
            finished := some now
            counter := r.counter + 1 }) ts.length t.app.vouchers (count_one h hv) (by
              intro x _
              cases spendable <;> simp <;> omega)
        unfold Shifts givenByVouchers kept inserted
        simp only [List.map_map, Function.comp_def, List.length_append, List.length_map]
        omega
      · exact shifts_same rfl
  case doubleSpent now v =>
    rw [doubleSpent_eq]
    split
    · unfold Shifts givenByVouchers kept
      simp only [List.map_map, Function.comp_def]
      have : (t.app.vouchers.map fun x => (if (x.number == v && x.state == "pending") = true then
            { x with state := "double-spend", finished := some now } else x).token_count.getD 0 +
          (if (x.number == v && x.state == "pending") = true then
            { x with state := "double-spend", finished := some now } else x).sequestered_count) =
          t.app.vouchers.map fun row => row.token_count.getD 0 + row.sequestered_count :=
        List.map_congr_left fun x _ => by split <;> rfl
      rw [this]
      omega
    · exact shifts_same rfl
  case maintStart now m =>
    rw [maintStart_eq]
    cases m.rowid <;> exact rfl
  case maintObserve pv sizes m =>
    rw [maintObserve_eq]
    cases required_passesE pv sizes
    · exact shifts_same rfl
    · exact rfl
  case maintFinish now m => exact rfl

theorem other_shifts {sign : Signer} {v : Int} {s : StorageSession} (h : StoreWF s.store) (op : StoreOp) :
    Shifts s.store (s.step sign v (.other op)).store 0 := by
  simp only [StorageSession.step]
  split
  · rename_i ho
    exact outside_shifts ho h
  · exact shifts_same rfl

/-- What an event does to the balance of a client. -/
theorem session_shifts {sign : Signer} (hs : Signs sign) {v : Int} (hv : 0 < v) {s : StorageSession}
    (h : SessionInv sign v s) (e : SessionEvent) : Shifts s.store (s.step sign v e).store (paidAt v s e) := by
  cases e with
  | start op get_rref o => exact shifts_same (op_start_app hs h.held o get_rref)
  | answer i reply now o =>
    simp only [StorageSession.step]
    split
    · exact shifts_same rfl
    · exact shifts_same (op_asked_app hs h.held o now reply)
  | other op => exact other_shifts h.held.wf op
  | restart => exact shifts_same rfl
  | answerPaid i reply now o =>
    cases hw : s.paying[i]? with
    | none =>
      simp only [StorageSession.step, hw]
      cases reply <;> simp only [paidAt, hw] <;> exact shifts_same rfl
    | some oc =>
      obtain ⟨op, c⟩ := oc
      have hh := h.held
      rw [getElem?_split hw] at hh
      have hh' : Held s.store (((s.paying.take i).flatMap fun oc => holds oc.2) ++ c.pass_group.unblinded_tokens ++
          ((s.paying.drop (i + 1)).flatMap fun oc => holds oc.2)) := by
        simpa [holds, PassGroup.unblinded_tokens] using hh
      have hp := h.paying _ (List.mem_of_getElem? hw)
      have hnd : (holds c).Nodup := by
        have := hh'.nodup
        rw [List.nodup_append, List.nodup_append] at this
        exact this.1.2.1
      have hst : ∀ x ∈ holds c, x ∈ s.store.app.unblinded.map (·.token) := by
        intro x hx
        obtain ⟨r, hr, h1, -⟩ := hh'.wf.in_use_stored x
          (hh'.perm.mem_iff.mpr (List.mem_append_left _ (List.mem_append_right _ hx)))
        exact h1 ▸ List.mem_map_of_mem hr
      have out : ∀ {p : List String}, p.Sublist (holds c) →
          (s.store.app.unblinded.filter (·.token ∉ p)).length + p.length = s.store.app.unblinded.length := fun hp =>
        filter_out_length hh'.wf.unblinded (hnd.sublist hp) fun x hx => hst x (hp.subset hx)
      have err : ∀ e res, reply.for_call op = (.error e, res) →
          Shifts s.store (op_paid sign o op c reply s.store).2.2 0 := by
        intro e res hfc
        obtain ⟨t', h1, h2, h3⟩ := answer_error_held (sign := sign) hh' o c.on_success c.num_passes e
        unfold op_paid
        rw [hfc]
        dsimp only
        rw [h1]
        exact shifts_same h2
      simp only [StorageSession.step, hw]
      cases reply with
      | failure e => exact err e .none rfl
      | result w =>
        cases hres : paid_result w op with
        | error e =>
          simp only [paidAt, hw, hres]
          exact err e .none (by simp only [Reply.for_call, hres])
        | ok rn =>
          obtain ⟨res, n⟩ := rn
          obtain ⟨st, t', h1, -, -, h4⟩ := answer_ok_held (sign := sign) hh' o c.on_success c.num_passes n
          have hret : st = .returned ∧ t'.app =
              { s.store.app with unblinded := s.store.app.unblinded.filter (·.token ∉ paidWith v op n (holds c)) } := by
            rw [hp.on_success] at h4
            have hpaid := hp.paid
            cases op with
            | allocateBuckets si renew cancel shs size canary =>
              dsimp only [StorageOp.on_success] at h4
              rw [C01_checked_eq v hv, required_passes_eq v hv] at h4
              exact h4
            | addLease => exact h4
            | writev => exact h4
            | _ => exact absurd trivial hpaid
          have hsub : (paidWith v op n (holds c)).Sublist (holds c) := by
            unfold paidWith
            split
            · exact List.take_sublist _ _
            · exact List.Sublist.refl _
          have hstep : op_paid sign o op c (.result w) s.store = (.over, [.returned op res], t') := by
            simp only [op_paid, Reply.for_call, hres, h1, hret.1, settle]
          simp only [hstep, paidAt, hw, hres]
          have := out hsub
          unfold Shifts givenByVouchers kept
          rw [hret.2]
          dsimp only
          omega
      | morePassesRequired failed =>
        by_cases hf : failed = []
        · subst hf
          obtain ⟨t', h1, h2, -⟩ := answer_rejected_nil_held (sign := sign) hh' o c.on_success c.num_passes
          unfold op_paid
          dsimp only [Reply.for_call]
          rw [h1]
          exact shifts_same h2
        · obtain ⟨st, t', t1, h1, h2, -, -, h5, -⟩ :=
            answer_rejected_held hs hh' o c.on_success c.num_passes failed hf
          unfold op_paid
          dsimp only [Reply.for_call]
          rw [h1]
          dsimp only
          have hsub : ((atPositions failed.contains c.pass_group.tokens).map Prod.fst).Sublist (holds c) :=
            (atPositions_sublist _ _).map _
          have := out hsub
          unfold Shifts givenByVouchers kept
          rw [settle_app h5, h2]
          simp only [paidAt, List.length_append, List.length_map] at this ⊢
          omega

theorem shifts_balanced {t t' : Tables} {k paid : Nat} (hs : Shifts t t' k) (h : givenByVouchers t = paid + kept t) :
    givenByVouchers t' = (paid + k) + kept t' := by
  unfold Shifts at hs
  omega

theorem balanced_of {t : Tables} (h : StoreWF t) {paid : Nat} (hb : givenByVouchers t = paid + kept t) :
    Balanced t paid := by
  have := stored_parts h
  unfold Balanced kept invalidTokens at *
  rw [List.length_map]
  omega

theorem client_balance {sign : Signer} (hs : Signs sign) {v : Int} (hv : 0 < v) (es : List SessionEvent)
    {s : StorageSession} (h : SessionInv sign v s) (hr : NoReissueIn sign v s es) {paid : Nat}
    (hb : givenByVouchers s.store = paid + kept s.store) :
    givenByVouchers (s.run sign v es).store = (paid + paidIn sign v s es) + kept (s.run sign v es).store := by
  induction es generalizing s paid with
  | nil => exact hb
  | cons e es ih =>
    have := ih (session_inv_step hs hv h e hr.1) hr.2 (shifts_balanced (session_shifts hs hv h e) hb)
    simp only [paidIn]
    rw [← Nat.add_assoc]
    exact this

end ZKAP
