import Verif.Spec.Finish
import Verif.Lemmas.ControllerRestart
import Verif.Lemmas.ControllerSteps

/-! Redemptions in which nothing goes wrong come to an end. -/
namespace ZKAP
open Spec

/-! ### They end -/

/-- How much work a task can still lead to. -/
def taskWeight (N : Nat) : Task → Nat
  | .redeem .. => 4 * N + 2
  | .retry .. => 4 * N + 3
  | .iterate f => 4 * (N - f.counter) + 1
  | .perform f _ => 4 * (N - f.counter)
  | .answered f _ => 4 * (N - f.counter) - 2

def weight (N : Nat) (c : Controller) : Nat :=
  (c.todo.map (taskWeight N)).sum + (c.waiting.map fun s => 4 * (N - s.frame.counter) - 1).sum

theorem weight_answer {cfg : RedeemCfg} {c : Controller} (hr : RInv cfg c) {i : Nat}
    {a : IssuerAnswer} (hi : i < c.waiting.length) (ht : c.todo.all (·.isCall) = true) :
    weight cfg.num_redemption_groups (c.step cfg (.answer i a)) <
      weight cfg.num_redemption_groups c := by
  simp only [Controller.step]
  have hs : c.waiting[i]? = some c.waiting[i] := List.getElem?_eq_getElem hi
  rw [hs]
  dsimp only
  rw [if_pos ht]
  have hlt := (hr.waiting _ (List.getElem_mem hi)).2.1
  have hp := take_drop_perm _ _ _ hs
  have hsum := (hp.map (fun s : Suspended => 4 * (cfg.num_redemption_groups - s.frame.counter) - 1)).sum_nat
  simp only [List.map_cons, List.sum_cons] at hsum
  simp only [weight, List.map_cons, List.sum_cons, taskWeight]
  omega

theorem weight_work {cfg : RedeemCfg} {c : Controller} (hr : RInv cfg c) {env : Env}
    (ht : c.todo ≠ []) :
    weight cfg.num_redemption_groups (c.step cfg (.work env)) <
      weight cfg.num_redemption_groups c := by
  simp only [Controller.step]
  cases et : c.todo with
  | nil => exact absurd et ht
  | cons task todo =>
    have hw : weight cfg.num_redemption_groups c = taskWeight cfg.num_redemption_groups task +
        weight cfg.num_redemption_groups { c with todo := todo } := by
      simp only [weight, et, List.map_cons, List.sum_cons]; omega
    dsimp only
    rw [hw]
    cases task with
    | redeem w n =>
      simp only [Task.run]
      split
      · simp only [weight, taskWeight]; omega
      · simp only [weight, taskWeight]; omega
      · simp only [weight, List.map_cons, List.sum_cons, taskWeight]; omega
    | retry w =>
      simp only [Task.run]
      split
      · simp only [weight, taskWeight]; omega
      · split
        · simp only [weight, List.map_nil, List.sum_nil, taskWeight]; omega
        · split
          · simp only [weight, List.map_cons, List.sum_cons, taskWeight]; omega
          · simp only [weight, taskWeight]; omega
    | iterate f =>
      simp only [Task.run]
      split
      · split
        · simp only [weight, taskWeight]; omega
        · simp only [weight, List.map_cons, List.sum_cons, taskWeight]; omega
      · simp only [weight, taskWeight]; omega
    | perform f ts =>
      have hlt := (hr.perform f ts todo et).2.2.1
      simp only [Task.run, contact_issuer]
      split
      · simp only [weight, taskWeight]; omega
      · split
        · simp only [weight, List.map_append, List.sum_append, List.map_cons, List.sum_cons,
            List.map_nil, List.sum_nil, taskWeight]
          omega
        · simp only [weight, taskWeight]; omega
    | answered f a =>
      have hlt := (hr.answered f a todo et).2.1
      simp only [Task.run, resume]
      cases a with
      | success pk us =>
        dsimp only
        split
        · simp only [weight, taskWeight]; omega
        · simp only [weight, List.map_cons, List.sum_cons, taskWeight]; omega
      | alreadySpent => simp only [weight, redeem_failure, taskWeight]; omega
      | unpaid => simp only [weight, redeem_failure, taskWeight]; omega
      | failed d => simp only [weight, redeem_failure, taskWeight]; omega

theorem smooth_bounded {cfg : RedeemCfg} (events : List RedeemEvent) {c : Controller}
    (hr : RInv cfg c) (h : SmoothRun cfg c events) :
    events.length + weight cfg.num_redemption_groups (c.run cfg events) ≤
      weight cfg.num_redemption_groups c := by
  induction events generalizing c with
  | nil => simp [Controller.run]
  | cons e es ih =>
    have key : weight cfg.num_redemption_groups (c.step cfg e) < weight cfg.num_redemption_groups c ∧
        SmoothRun cfg (c.step cfg e) es := by
      cases e with
      | work env => exact ⟨weight_work hr h.1, h.2.2⟩
      | answer i a =>
        cases a with
        | success pk us => exact ⟨weight_answer hr h.1 h.2.1, h.2.2.2⟩
        | _ => exact h.elim
      | _ => exact h.elim
    have := ih (rinv_step hr e) key.2
    show _ + weight _ ((c.step cfg e).run cfg es) ≤ _
    simp only [List.length_cons]
    omega

/-! ### Sizes of vouchers -/

/-- Vouchers are worth at least a token per group. -/
def RowsLarge (cfg : RedeemCfg) (c : Controller) : Prop :=
  ∀ v row, voucherRow c.store v = some row → cfg.num_redemption_groups ≤ row.expected_tokens

/-- What an event at the controller can do to the row of a voucher. -/
theorem row_step {cfg : RedeemCfg} (c : Controller) (e : RedeemEvent) (v : String) :
    voucherRow (c.step cfg e).store v = voucherRow c.store v ∨
    (∃ f rest now, c.todo = .iterate f :: rest ∧ f.voucher = v ∧ voucherRow c.store v = none ∧
      cfg.num_redemption_groups ≤ f.total ∧
      voucherRow (c.step cfg e).store v = some (newRow now v f.total)) ∨
    (∃ f pk us rest now row, c.todo = .answered f (.success pk us) :: rest ∧ f.voucher = v ∧
      voucherRow c.store v = some row ∧
      voucherRow (c.step cfg e).store v = some (redeemedRow now us.length
        (f.counter + 1 == cfg.num_redemption_groups) (decide (pk ∈ cfg.allowed_public_keys)) row)) ∨
    (∃ f rest now row, c.todo = .answered f .alreadySpent :: rest ∧ f.voucher = v ∧
      voucherRow c.store v = some row ∧ row.state = "pending" ∧
      voucherRow (c.step cfg e).store v =
        some { row with state := "double-spend", finished := some now }) := by
  cases e with
  | redeem w n => left; simp only [Controller.step]; split <;> rfl
  | timer => left; simp only [Controller.step]; split <;> rfl
  | answer i a =>
    left
    simp only [Controller.step]
    split
    · rfl
    · split <;> rfl
  | other op =>
    left
    simp only [Controller.step]
    split
    · rename_i hop
      simp only [Bool.and_eq_true] at hop
      obtain ⟨_, h2⟩ := other_effect op hop.2 c.store
      unfold voucherRow
      rw [h2]
    · rfl
  | crash => exact .inl rfl
  | work env =>
    simp only [Controller.step]
    cases et : c.todo with
    | nil => exact .inl rfl
    | cons task todo =>
      dsimp only
      cases task with
      | redeem w n => left; simp only [Task.run]; split <;> rfl
      | retry w =>
        left
        simp only [Task.run]
        split
        · rfl
        · split
          · rfl
          · split <;> rfl
      | iterate f =>
        simp only [Task.run]
        split
        rotate_left
        · exact .inl rfl
        unfold get_random_tokens
        cases hg : token_count_for_group cfg.num_redemption_groups f.total f.counter with
        | error e => exact .inl rfl
        | ok n =>
          dsimp only
          rcases add_effect env.order env.now f.voucher f.total f.counter
              (env.random f.voucher f.counter n.toNat) c.store with
            ⟨err, he⟩ | ⟨ts', he, hp, hne'⟩ | ⟨ts', hget, he, hnil⟩
          · rw [he]; exact .inl rfl
          · rw [he]; exact .inl rfl
          · rw [he]
            dsimp only
            rw [voucherRow_added]
            by_cases hv : v = f.voucher
            · subst hv
              rw [if_pos rfl]
              cases hold : voucherRow c.store f.voucher with
              | none =>
                right; left
                refine ⟨f, todo, env.now, rfl, rfl, rfl, ?_, rfl⟩
                rw [token_count_eq] at hg
                split at hg
                · rename_i hh; exact hh.1
                · simp at hg
              | some r => exact .inl rfl
            · rw [if_neg hv]; exact .inl rfl
      | perform f ts' =>
        left
        simp only [Task.run, contact_issuer]
        split
        · rfl
        · split <;> rfl
      | answered f a =>
        simp only [Task.run, resume]
        cases a with
        | success pk us =>
          dsimp only [redeem_success]
          rcases insert_effect env.now f.voucher pk us (f.counter + 1 == cfg.num_redemption_groups)
              (decide (pk ∈ cfg.allowed_public_keys)) c.store with ⟨err, he⟩ | ⟨row', hrow', he⟩
          · rw [he]; exact .inl rfl
          · rw [he]
            dsimp only
            rw [voucherRow_inserted]
            by_cases hv : v = f.voucher
            · subst hv
              right; right; left
              rw [if_pos rfl, hrow']
              exact ⟨f, pk, us, todo, env.now, row', rfl, rfl, rfl, rfl⟩
            · rw [if_neg hv]; exact .inl rfl
        | alreadySpent =>
          obtain ⟨_, hv⟩ := doubleSpent_effect env.now f.voucher c.store
          dsimp only [redeem_failure]
          rw [hv v]
          by_cases hvf : v = f.voucher
          · subst hvf
            rw [if_pos rfl]
            cases hold : voucherRow c.store f.voucher with
            | none => exact .inl rfl
            | some r =>
              by_cases hp : r.state = "pending"
              · right; right; right
                refine ⟨f, todo, env.now, r, rfl, rfl, rfl, hp, ?_⟩
                simp [hp]
              · left; simp [hp]
          · rw [if_neg hvf]; exact .inl rfl
        | unpaid => exact .inl rfl
        | failed d => exact .inl rfl

theorem rowsLarge_run {cfg : RedeemCfg} (events : List RedeemEvent) {c : Controller}
    (h : RowsLarge cfg c) : RowsLarge cfg (c.run cfg events) := by
  induction events generalizing c with
  | nil => exact h
  | cons e es ih =>
    refine ih ?_
    intro v row hrow
    rcases row_step (cfg := cfg) c e v with hs | ⟨f, rest, now, _, hv, _, hle, hs⟩ |
      ⟨f, pk, us, rest, now, row', _, hv, hrow', hs⟩ | ⟨f, rest, now, row', _, hv, hrow', _, hs⟩
    · exact h v row (hs ▸ hrow)
    · rw [hs] at hrow
      rw [← Option.some.inj hrow]; exact hle
    · rw [hs] at hrow
      rw [← Option.some.inj hrow]; exact h v row' hrow'
    · rw [hs] at hrow
      rw [← Option.some.inj hrow]; exact h v row' hrow'

/-- A pending voucher has groups left. -/
def PendingShort (cfg : RedeemCfg) (v : String) (c : Controller) : Prop :=
  ∀ row, voucherRow c.store v = some row → row.state = "pending" →
    row.counter < cfg.num_redemption_groups

theorem pendingShort_step {cfg : RedeemCfg} {v : String} {c : Controller} (hr : RInv cfg c)
    (hs : SInv v c) (hN : 0 < cfg.num_redemption_groups) (h : PendingShort cfg v c)
    (e : RedeemEvent) : PendingShort cfg v (c.step cfg e) := by
  intro row hrow hp
  rcases row_step (cfg := cfg) c e v with he | ⟨f, rest, now, _, hv, _, hle, he⟩ |
    ⟨f, pk, us, rest, now, row', et, hv, hrow', he⟩ | ⟨f, rest, now, row', _, hv, hrow', _, he⟩
  · exact h row (he ▸ hrow) hp
  · rw [he] at hrow
    rw [← Option.some.inj hrow]; exact hN
  · rw [he] at hrow
    rw [← Option.some.inj hrow] at hp ⊢
    simp only [redeemedRow] at hp ⊢
    have hc := hs.frames f (by simp [frames, et, taskFrame]) hv
    have hlt := (hr.answered f _ rest et).2.1
    have hrc : rowCounter c.store v = row'.counter := by unfold rowCounter; rw [hrow']; rfl
    by_cases hl : (f.counter + 1 == cfg.num_redemption_groups) = true
    · rw [if_pos hl] at hp; exact absurd hp (by decide)
    · simp only [beq_iff_eq] at hl; omega
  · rw [he] at hrow
    rw [← Option.some.inj hrow] at hp
    simp at hp

theorem pendingShort_run {cfg : RedeemCfg} {v : String} (hN : 0 < cfg.num_redemption_groups)
    (events : List RedeemEvent) {c : Controller} (hr : RInv cfg c) (hs : SInv v c)
    (h : PendingShort cfg v c) (hno : NoUnpaidRestart v (c.run cfg events).log) :
    PendingShort cfg v (c.run cfg events) := by
  induction events generalizing c with
  | nil => exact h
  | cons e es ih =>
    obtain ⟨l, hl⟩ := run_log cfg es (c.step cfg e)
    have hno' : NoUnpaidRestart v (c.step cfg e).log := by
      have : (c.run cfg (e :: es)).log = (c.step cfg e).log ++ l := hl
      rw [this] at hno
      exact noUnpaidRestart_prefix hno
    exact ih (rinv_step hr e) (sinv_step hr hs e hno') (pendingShort_step hr hs hN h e) hno

/-! ### They redeem the pending vouchers -/

theorem redeem_start_pending {cfg : RedeemCfg} {v : String} {n : Option Nat} {c : Controller}
    {row : VoucherRow} (hrow : voucherRow c.store v = some row) (hp : row.state = "pending")
    (ha : v ∉ c.active.keys) (hu : c.unpaid = []) (he : c.error = []) :
    redeem_start cfg v n c = .ok (some ⟨v, row.expected_tokens, row.counter⟩) := by
  have hnum := voucherRow_number hrow
  have hlk : c.active.lookup v = none := by
    rw [← Option.not_isSome_iff_eq_none]
    intro hsome
    exact ha ((lookup_isSome _ _).mp hsome)
  simp only [redeem_start, get_voucher, get_object_eq, hrow, from_row_pending hp,
    incorporate_transient_state, hnum, hlk, hu, he, List.lookup_nil,
    VoucherState.should_start_redemption, VoucherState.start_at_counter, if_true]

/-- A pending voucher is being taken care of. -/
def Cared (cfg : RedeemCfg) (v : String) (c : Controller) : Prop :=
  ∃ row, voucherRow c.store v = some row ∧
    (row.state = "redeemed" ∨
      (row.state = "pending" ∧ row.counter < cfg.num_redemption_groups ∧
        ((v ∉ busy c ∧ (∃ n, .redeem v n ∈ c.todo) ∧ ∀ f ∈ frames c, f.voucher ≠ v) ∨
          ⟨v, row.expected_tokens, row.counter⟩ ∈ frames c)))

/-- Nothing has gone wrong. -/
structure Smooth (c : Controller) : Prop where
  error : c.error = []
  unpaid : c.unpaid = []
  answers : ∀ f a rest, c.todo = .answered f a :: rest →
    ∃ pk us, a = .success pk us ∧ NewTokens us c.store

theorem smooth_calls {c : Controller} (h : Smooth c) {l : List Task}
    (hl : ∀ x ∈ l, x.isCall = true) : Smooth { c with todo := l } :=
  { h with answers := fun f a rest e => (no_answered_calls hl e).elim }

theorem cared_answer {cfg : RedeemCfg} {v : String} {c : Controller} (hc : Cared cfg v c)
    (i : Nat) (a : IssuerAnswer) : Cared cfg v (c.step cfg (.answer i a)) := by
  simp only [Controller.step]
  cases hs : c.waiting[i]? with
  | none => exact hc
  | some s =>
    dsimp only
    split
    · obtain ⟨row, hrow, h | ⟨hp, hlt, h⟩⟩ := hc
      · exact ⟨row, hrow, .inl h⟩
      · refine ⟨row, hrow, .inr ⟨hp, hlt, ?_⟩⟩
        have hperm := take_drop_perm _ _ _ hs
        have hsub : ∀ f, f ∈ frames { c with
            waiting := c.waiting.take i ++ c.waiting.drop (i + 1)
            todo := .answered s.frame a :: c.todo
            log := c.log ++ [.answer s.frame.voucher s.frame.counter a] } ↔ f ∈ frames c := by
          intro f
          simp only [frames, List.filterMap_cons, taskFrame, List.mem_append, List.mem_cons]
          have := (hperm.map (fun s : Suspended => s.frame)).mem_iff (a := f)
          simp only [List.map_cons, List.mem_cons] at this
          rw [← this]
          constructor
          · rintro (h | h | h)
            · exact .inl (.inr h)
            · exact .inl (.inl h)
            · exact .inr h
          · rintro ((h | h) | h)
            · exact .inr (.inl h)
            · exact .inl h
            · exact .inr (.inr h)
        rcases h with ⟨hb, ⟨n, hm⟩, hno⟩ | h
        · left
          refine ⟨?_, ⟨n, List.mem_cons_of_mem _ hm⟩, fun f hf => hno f ((hsub f).mp hf)⟩
          intro hb'
          simp only [busy, resumed, List.mem_append, List.mem_singleton] at hb'
          apply hb
          unfold busy
          refine List.mem_append_left _ ?_
          have := (hperm.map (fun s : Suspended => s.frame.voucher)).mem_iff (a := v)
          rw [← this]
          rcases hb' with h | h
          · exact List.mem_cons_of_mem _ h
          · rw [h]; exact List.mem_cons_self
        · exact .inr ((hsub _).mpr h)
    · exact hc

theorem smooth_answer {cfg : RedeemCfg} {c : Controller} (hs : Smooth c) (i : Nat) (pk : String)
    (us : List String) (hu : NewTokens us c.store) :
    Smooth (c.step cfg (.answer i (.success pk us))) := by
  simp only [Controller.step]
  split
  · exact hs
  · split
    · refine { hs with answers := ?_ }
      intro f a rest e
      simp only [List.cons.injEq, Task.answered.injEq] at e
      exact ⟨pk, us, e.1.2.symm, hu⟩
    · exact hs

theorem mem_busy_of_waiting {c : Controller} {f : Frame} (h : f ∈ c.waiting.map (·.frame)) :
    f.voucher ∈ busy c := by
  obtain ⟨s, hs, rfl⟩ := List.mem_map.mp h
  exact List.mem_append_left _ (List.mem_map_of_mem (f := fun s : Suspended => s.frame.voucher) hs)

theorem smooth_work {cfg : RedeemCfg} {v : String} {c : Controller} (hr : RInv cfg c)
    (hlarge : RowsLarge cfg c) (hs : Smooth c) (hret : ∀ w, .retry w ∉ c.todo)
    (hc : Cared cfg v c) {env : Env} (hf : FreshRandom env c.store) :
    Smooth (c.step cfg (.work env)) ∧ Cared cfg v (c.step cfg (.work env)) := by
  cases et : c.todo with
  | nil =>
    have : c.step cfg (.work env) = c := by simp [Controller.step, et]
    rw [this]; exact ⟨hs, hc⟩
  | cons task todo =>
    have hcalls : ∀ x ∈ todo, x.isCall = true := by
      have := hr.calls; rw [et] at this; simpa using this
    have hfr : ∀ f, f ∈ frames c ↔ f ∈ c.waiting.map (·.frame) ∨ taskFrame task = some f := by
      intro f
      simp only [frames, et, List.filterMap_cons, frames_calls hcalls, List.mem_append]
      cases taskFrame task <;> simp [eq_comm]
    have hfr0 : ∀ c' : Controller, c'.todo = todo → frames c' = c'.waiting.map (·.frame) := by
      intro c' hc'
      simp only [frames, hc', frames_calls hcalls, List.append_nil]
    have hfr1 : ∀ (c' : Controller) (x : Task), c'.todo = x :: todo → ∀ f, f ∈ frames c' ↔
        f ∈ c'.waiting.map (·.frame) ∨ taskFrame x = some f := by
      intro c' x hc' f
      simp only [frames, hc', List.filterMap_cons, frames_calls hcalls, List.mem_append]
      cases taskFrame x <;> simp [eq_comm]
    have hbusy : busy c = c.waiting.map (·.frame.voucher) ++ resumed [task] := by
      simp only [busy, et]
      cases task <;> rfl
    have hb0 : ∀ c' : Controller, c'.todo = todo → c'.waiting = c.waiting →
        busy c' = c.waiting.map (·.frame.voucher) := by
      intro c' h1 h2; simp only [busy, h1, h2, resumed_calls hcalls, List.append_nil]
    have hred : ∀ x, (∃ n, Task.redeem v n ∈ c.todo) → (∀ n, task ≠ .redeem v n) →
        ∃ n, Task.redeem v n ∈ x :: todo := by
      rintro x ⟨n, hm⟩ hne
      rw [et] at hm
      rcases List.mem_cons.mp hm with e | hm
      · exact absurd e.symm (hne n)
      · exact ⟨n, List.mem_cons_of_mem _ hm⟩
    have hred0 : (∃ n, Task.redeem v n ∈ c.todo) → (∀ n, task ≠ .redeem v n) →
        ∃ n, Task.redeem v n ∈ todo := by
      rintro ⟨n, hm⟩ hne
      rw [et] at hm
      rcases List.mem_cons.mp hm with e | hm
      · exact absurd e.symm (hne n)
      · exact ⟨n, hm⟩
    obtain ⟨row, hrow, hred' | ⟨hp, hlt, hcase⟩⟩ := hc
    · -- already redeemed
      refine ⟨?_, row, (final_step hr hrow (by rw [hred']; decide) (.work env)).1, .inl hred'⟩
      simp only [Controller.step, et]
      cases task with
      | redeem w n =>
        simp only [Task.run]
        split
        · exact smooth_calls hs hcalls
        · exact smooth_calls hs hcalls
        · exact { smooth_calls hs hcalls with answers := by simp }
      | retry w => exact absurd (by rw [et]; simp) (hret w)
      | iterate f =>
        simp only [Task.run]
        split
        · split
          · exact { hs with answers := fun f a rest e => (no_answered_calls hcalls e).elim }
          · exact { hs with answers := by simp }
        · exact smooth_calls hs hcalls
      | perform f ts =>
        simp only [Task.run, contact_issuer]
        split
        · exact smooth_calls hs hcalls
        · split
          · exact { hs with answers := fun f a rest e => (no_answered_calls hcalls e).elim }
          · exact smooth_calls hs hcalls
      | answered f a =>
        obtain ⟨pk, us, rfl, _⟩ := hs.answers f a todo et
        simp only [Task.run, resume]
        split
        · exact { hs with answers := fun f a rest e => (no_answered_calls hcalls e).elim }
        · exact { hs with answers := by simp }
    · simp only [Controller.step, et]
      have hN := hlarge v row hrow
      cases task with
      | redeem w n =>
        simp only [Task.run]
        have hwait : ∀ f, f ∈ frames c ↔ f ∈ c.waiting.map (·.frame) := by
          intro f; rw [hfr f]; simp [taskFrame]
        by_cases hw : w = v
        · subst hw
          rcases hcase with ⟨hb, _, hno⟩ | hin
          · have ha : w ∉ c.active.keys := fun hm => hb ((hr.active w).mp hm)
            have hst : redeem_start cfg w n { c with todo := todo } =
                .ok (some ⟨w, row.expected_tokens, row.counter⟩) :=
              redeem_start_pending hrow hp ha hs.unpaid hs.error
            rw [hst]
            refine ⟨{ smooth_calls hs hcalls with answers := by simp }, row, hrow,
              .inr ⟨hp, hlt, .inr ?_⟩⟩
            exact (hfr1 _ _ rfl _).mpr (.inr rfl)
          · have hwt := (hwait _).mp hin
            have hact : w ∈ c.active.keys := (hr.active w).mpr (mem_busy_of_waiting hwt)
            have hkeep : Cared cfg w { c with todo := todo } :=
              ⟨row, hrow, .inr ⟨hp, hlt, .inr (by rw [hfr0 _ rfl]; exact hwt)⟩⟩
            cases hst : redeem_start cfg w n { c with todo := todo } with
            | error e => exact ⟨smooth_calls hs hcalls, hkeep⟩
            | ok o =>
              cases o with
              | none => exact ⟨smooth_calls hs hcalls, hkeep⟩
              | some f =>
                rcases (redeem_start_some hst).2 with ⟨hn, _⟩ | ⟨_, _, _, _, ha, _⟩
                · have hn' : voucherRow c.store w = none := hn
                  rw [hrow] at hn'; simp at hn'
                · exact absurd hact ha
        · have hkeep : Cared cfg v { c with todo := todo } := by
            refine ⟨row, hrow, .inr ⟨hp, hlt, ?_⟩⟩
            rcases hcase with ⟨hb, hm, hno⟩ | hin
            · left
              refine ⟨?_, hred0 hm (by simp [hw]), ?_⟩
              · rw [hb0 { c with todo := todo } rfl rfl]; rw [hbusy] at hb
                exact fun hm => hb (List.mem_append_left _ hm)
              · intro f hf'; rw [hfr0 _ rfl] at hf'; exact hno f ((hwait f).mpr hf')
            · right; rw [hfr0 _ rfl]; exact (hwait _).mp hin
          cases hst : redeem_start cfg w n { c with todo := todo } with
          | error e => exact ⟨smooth_calls hs hcalls, hkeep⟩
          | ok o =>
            cases o with
            | none => exact ⟨smooth_calls hs hcalls, hkeep⟩
            | some f =>
              have hfv := (redeem_start_some hst).1
              refine ⟨{ smooth_calls hs hcalls with answers := by simp }, row, hrow,
                .inr ⟨hp, hlt, ?_⟩⟩
              rcases hcase with ⟨hb, hm, hno⟩ | hin
              · left
                refine ⟨?_, hred _ hm (by simp [hw]), ?_⟩
                · simp only [busy, resumed, List.append_nil]
                  rw [hbusy] at hb
                  exact fun hm => hb (List.mem_append_left _ hm)
                · intro f' hf'
                  rcases (hfr1 _ _ rfl f').mp hf' with h | h
                  · exact hno f' ((hwait f').mpr h)
                  · simp only [taskFrame, Option.some.injEq] at h
                    rw [← h, hfv]; exact hw
              · right; exact (hfr1 _ _ rfl _).mpr (.inl ((hwait _).mp hin))
      | retry w => exact absurd (by rw [et]; simp) (hret w)
      | iterate f =>
        obtain ⟨hnb, htot⟩ := hr.iterate f todo et
        simp only [Task.run]
        by_cases hv : f.voucher = v
        · subst hv
          have hff : f = ⟨f.voucher, row.expected_tokens, row.counter⟩ := by
            rcases hcase with ⟨_, _, hno⟩ | hin
            · exact absurd rfl (hno f ((hfr f).mpr (.inr rfl)))
            · rcases (hfr _).mp hin with h | h
              · exact absurd (mem_busy_of_waiting h) hnb
              · simp only [taskFrame, Option.some.injEq] at h; exact h
          have hcnt : f.counter = row.counter := by rw [hff]
          have htl : f.total = row.expected_tokens := by rw [hff]
          rw [if_pos (by rw [hcnt]; exact hlt)]
          unfold get_random_tokens
          rw [token_count_eq, if_pos ⟨by rw [htl]; exact hN, by rw [hcnt]; exact hlt⟩]
          dsimp only
          obtain ⟨ts, hget, hnd, hnew⟩ := hf f.voucher f.counter
            (groupSize cfg.num_redemption_groups f.total f.counter : Int).toNat
          have hfrm : ∀ (c' : Controller) ts', c'.todo = .perform f ts' :: todo →
              ⟨f.voucher, row.expected_tokens, row.counter⟩ ∈ frames c' := by
            intro c' ts' h
            exact (hfr1 _ _ h _).mpr (.inr (by simp only [taskFrame]; rw [← hff]))
          rw [add_eq]
          by_cases hne : select_random_tokens f.voucher f.counter c.store ≠ []
          · rw [if_pos hne]
            exact ⟨{ hs with answers := by simp }, row, hrow, .inr ⟨hp, hlt, .inr (hfrm _ _ rfl)⟩⟩
          · rw [if_neg hne, hget]
            dsimp only
            rw [if_pos ⟨hnd, hnew⟩]
            refine ⟨{ hs with answers := by simp }, row, ?_, .inr ⟨hp, hlt, .inr (hfrm _ _ rfl)⟩⟩
            dsimp only
            rw [voucherRow_added, if_pos rfl, hrow]; rfl
        · have hkeep : ∀ c' : Controller, voucherRow c'.store v = some row → c'.waiting = c.waiting →
              (c'.todo = todo ∨ ∃ ts, c'.todo = .perform f ts :: todo) → Cared cfg v c' := by
            intro c' h1 h2 h3
            refine ⟨row, h1, .inr ⟨hp, hlt, ?_⟩⟩
            have hfrm : ∀ g, g.voucher = v → (g ∈ frames c' ↔ g ∈ c.waiting.map (·.frame)) := by
              intro g hg
              rcases h3 with h3 | ⟨ts, h3⟩
              · rw [hfr0 _ h3, h2]
              · rw [hfr1 _ _ h3, h2]
                simp only [taskFrame, Option.some.injEq]
                constructor
                · rintro (h | rfl)
                  · exact h
                  · exact absurd hg hv
                · exact .inl
            have hbs : busy c' = c.waiting.map (·.frame.voucher) := by
              rcases h3 with h3 | ⟨ts, h3⟩
              · exact hb0 _ h3 h2
              · simp only [busy, h3, h2, resumed, List.append_nil]
            rcases hcase with ⟨hb, hm, hno⟩ | hin
            · left
              refine ⟨?_, ?_, ?_⟩
              · rw [hbs]; rw [hbusy] at hb; exact fun hm => hb (List.mem_append_left _ hm)
              · rcases h3 with h3 | ⟨x, h3⟩
                · rw [h3]; exact hred0 hm (by simp)
                · rw [h3]; exact hred _ hm (by simp)
              · intro g hg hgv
                exact hno g ((hfr g).mpr (.inl ((hfrm g hgv).mp hg))) hgv
            · right
              refine (hfrm _ rfl).mpr ?_
              rcases (hfr _).mp hin with h | h
              · exact h
              · simp only [taskFrame, Option.some.injEq] at h
                rw [h] at hv; exact absurd rfl hv
          split
          rotate_left
          · exact ⟨smooth_calls hs hcalls, hkeep _ hrow rfl (.inl rfl)⟩
          unfold get_random_tokens
          cases hg : token_count_for_group cfg.num_redemption_groups f.total f.counter with
          | error e => exact ⟨smooth_calls hs hcalls, hkeep _ hrow rfl (.inl rfl)⟩
          | ok n =>
            dsimp only
            rcases add_effect env.order env.now f.voucher f.total f.counter
                (env.random f.voucher f.counter n.toNat) c.store with
              ⟨err, he⟩ | ⟨ts', he, hp', hne'⟩ | ⟨ts', hget, he, hnil⟩
            · rw [he]; exact ⟨smooth_calls hs hcalls, hkeep _ hrow rfl (.inl rfl)⟩
            · rw [he]
              exact ⟨{ hs with answers := by simp }, hkeep _ hrow rfl (.inr ⟨_, rfl⟩)⟩
            · rw [he]
              refine ⟨{ hs with answers := by simp }, hkeep _ ?_ rfl (.inr ⟨_, rfl⟩)⟩
              dsimp only
              rw [voucherRow_added, if_neg (Ne.symm hv)]; exact hrow
      | perform f ts =>
        obtain ⟨hnb, htot, hflt, _, _⟩ := hr.perform f ts todo et
        simp only [Task.run, contact_issuer, get_object_eq]
        by_cases hv : f.voucher = v
        · subst hv
          have hff : f = ⟨f.voucher, row.expected_tokens, row.counter⟩ := by
            rcases hcase with ⟨_, _, hno⟩ | hin
            · exact absurd rfl (hno f ((hfr f).mpr (.inr rfl)))
            · rcases (hfr _).mp hin with h | h
              · exact absurd (mem_busy_of_waiting h) hnb
              · simp only [taskFrame, Option.some.injEq] at h; exact h
          rw [hrow]
          dsimp only
          rw [from_row_pending hp]
          dsimp only
          refine ⟨{ hs with answers := fun f a rest e => (no_answered_calls hcalls e).elim }, row, hrow,
            .inr ⟨hp, hlt, .inr ?_⟩⟩
          rw [hfr0 _ rfl]
          simp only [List.map_append, List.map_cons, List.map_nil, List.mem_append,
            List.mem_singleton]
          exact .inr hff.symm
        · have hkeep : ∀ c' : Controller, c'.store = c.store → c'.todo = todo →
              (c'.waiting = c.waiting ∨ c'.waiting = c.waiting ++ [⟨f, ts⟩]) → Cared cfg v c' := by
            intro c' h1 h2 h3
            refine ⟨row, by rw [h1]; exact hrow, .inr ⟨hp, hlt, ?_⟩⟩
            have hfrm : ∀ g, g.voucher = v → (g ∈ frames c' ↔ g ∈ c.waiting.map (·.frame)) := by
              intro g hg
              rw [hfr0 _ h2]
              rcases h3 with h3 | h3
              · rw [h3]
              · rw [h3]
                simp only [List.map_append, List.map_cons, List.map_nil, List.mem_append,
                  List.mem_singleton]
                constructor
                · rintro (h | rfl)
                  · exact h
                  · exact absurd hg hv
                · exact .inl
            rcases hcase with ⟨hb, hm, hno⟩ | hin
            · left
              refine ⟨?_, by rw [h2]; exact hred0 hm (by simp), ?_⟩
              · rw [hbusy] at hb
                simp only [busy, h2, resumed_calls hcalls, List.append_nil]
                rcases h3 with h3 | h3
                · rw [h3]; exact fun hm => hb (List.mem_append_left _ hm)
                · rw [h3]
                  simp only [List.map_append, List.map_cons, List.map_nil, List.mem_append,
                    List.mem_singleton]
                  rintro (h | h)
                  · exact hb (List.mem_append_left _ h)
                  · exact hv h.symm
              · intro g hg hgv
                exact hno g ((hfr g).mpr (.inl ((hfrm g hgv).mp hg))) hgv
            · right
              refine (hfrm _ rfl).mpr ?_
              rcases (hfr _).mp hin with h | h
              · exact h
              · simp only [taskFrame, Option.some.injEq] at h
                rw [h] at hv; exact absurd rfl hv
          split
          · exact ⟨smooth_calls hs hcalls, hkeep _ rfl rfl (.inl rfl)⟩
          · split
            · exact ⟨{ hs with answers := fun f a rest e => (no_answered_calls hcalls e).elim },
                hkeep _ rfl rfl (.inr rfl)⟩
            · exact ⟨smooth_calls hs hcalls, hkeep _ rfl rfl (.inl rfl)⟩
      | answered f a =>
        obtain ⟨pk, us, rfl, hus⟩ := hs.answers f a todo et
        have hflt := (hr.answered f _ todo et).2.1
        have hnd := hr.nodup
        rw [hbusy] at hnd
        simp only [resumed, List.nodup_append] at hnd
        simp only [Task.run, resume, redeem_success]
        by_cases hv : f.voucher = v
        · subst hv
          have hff : f = ⟨f.voucher, row.expected_tokens, row.counter⟩ := by
            rcases hcase with ⟨_, _, hno⟩ | hin
            · exact absurd rfl (hno f ((hfr f).mpr (.inr rfl)))
            · rcases (hfr _).mp hin with h | h
              · obtain ⟨s, hs', he⟩ := List.mem_map.mp h
                exact absurd (by rw [he] : s.frame.voucher = f.voucher)
                  (hnd.2.2 s.frame.voucher (List.mem_map.mpr ⟨s, hs', rfl⟩) f.voucher (by simp))
              · simp only [taskFrame, Option.some.injEq] at h; exact h
          have hcnt : f.counter = row.counter := by rw [hff]
          rw [insert_eq]
          have hknown : ¬ f.voucher ∉ c.store.app.vouchers.map (·.number) := by
            intro hno
            rw [voucherRow_none.mpr hno] at hrow; simp at hrow
          rw [if_neg hknown, if_pos (show us.Nodup ∧ _ from hus)]
          dsimp only
          refine ⟨{ hs with answers := by simp }, ?_⟩
          refine ⟨redeemedRow env.now us.length (f.counter + 1 == cfg.num_redemption_groups)
            (decide (pk ∈ cfg.allowed_public_keys)) row, ?_, ?_⟩
          · dsimp only
            rw [voucherRow_inserted, if_pos rfl, hrow]; rfl
          · by_cases hl : (f.counter + 1 == cfg.num_redemption_groups) = true
            · left; simp only [redeemedRow, if_pos hl]
            · right
              have hl' : f.counter + 1 ≠ cfg.num_redemption_groups := by simpa using hl
              refine ⟨by simp only [redeemedRow, if_neg hl], by simp only [redeemedRow]; omega, .inr ?_⟩
              refine (hfr1 _ _ rfl _).mpr (.inr ?_)
              simp only [taskFrame, redeemedRow, Option.some.injEq]
              rw [hff]
        · have hkeep : ∀ c' : Controller, voucherRow c'.store v = some row → c'.waiting = c.waiting →
              (c'.todo = todo ∨ ∃ g, g.voucher = f.voucher ∧ c'.todo = .iterate g :: todo) →
              Cared cfg v c' := by
            intro c' h1 h2 h3
            refine ⟨row, h1, .inr ⟨hp, hlt, ?_⟩⟩
            have hfrm : ∀ g, g.voucher = v → (g ∈ frames c' ↔ g ∈ c.waiting.map (·.frame)) := by
              intro g hg
              rcases h3 with h3 | ⟨g', hg', h3⟩
              · rw [hfr0 _ h3, h2]
              · rw [hfr1 _ _ h3, h2]
                simp only [taskFrame, Option.some.injEq]
                constructor
                · rintro (h | rfl)
                  · exact h
                  · exact absurd (hg'.symm.trans hg) hv
                · exact .inl
            have hbs : busy c' = c.waiting.map (·.frame.voucher) := by
              rcases h3 with h3 | ⟨ts, _, h3⟩
              · exact hb0 _ h3 h2
              · simp only [busy, h3, h2, resumed, List.append_nil]
            rcases hcase with ⟨hb, hm, hno⟩ | hin
            · left
              refine ⟨?_, ?_, ?_⟩
              · rw [hbs]; rw [hbusy] at hb; exact fun hm => hb (List.mem_append_left _ hm)
              · rcases h3 with h3 | ⟨x, _, h3⟩
                · rw [h3]; exact hred0 hm (by simp)
                · rw [h3]; exact hred _ hm (by simp)
              · intro g hg hgv
                exact hno g ((hfr g).mpr (.inl ((hfrm g hgv).mp hg))) hgv
            · right
              refine (hfrm _ rfl).mpr ?_
              rcases (hfr _).mp hin with h | h
              · exact h
              · simp only [taskFrame, Option.some.injEq] at h
                rw [h] at hv; exact absurd rfl hv
          rcases insert_effect env.now f.voucher pk us (f.counter + 1 == cfg.num_redemption_groups)
              (decide (pk ∈ cfg.allowed_public_keys)) c.store with ⟨err, he⟩ | ⟨row', hrow', he⟩
          · rw [he]
            exact ⟨{ hs with answers := fun f a rest e => (no_answered_calls hcalls e).elim },
              hkeep _ hrow rfl (.inl rfl)⟩
          · rw [he]
            refine ⟨{ hs with answers := by simp }, hkeep _ ?_ rfl (.inr ⟨⟨f.voucher, f.total, f.counter + 1⟩, rfl, rfl⟩)⟩
            dsimp only
            rw [voucherRow_inserted, if_neg (Ne.symm hv)]; exact hrow

theorem noRetry_work {cfg : RedeemCfg} {c : Controller} (hret : ∀ w, .retry w ∉ c.todo) (env : Env) :
    ∀ w, .retry w ∉ (c.step cfg (.work env)).todo := by
  simp only [Controller.step]
  cases et : c.todo with
  | nil => exact fun w => by simp [et]
  | cons task todo =>
    rw [et] at hret
    have h0 : ∀ w, Task.retry w ∉ todo := fun w hw => hret w (List.mem_cons_of_mem _ hw)
    have h1 : ∀ x, (∀ w, x ≠ Task.retry w) → ∀ w, Task.retry w ∉ x :: todo := by
      intro x hx w hw
      rcases List.mem_cons.mp hw with e | hw
      · exact hx w e.symm
      · exact h0 w hw
    cases task with
    | redeem w n =>
      simp only [Task.run]
      split
      · exact h0
      · exact h0
      · exact h1 _ (by simp)
    | retry w => exact absurd List.mem_cons_self (hret w)
    | iterate f =>
      simp only [Task.run]
      split
      · split
        · exact h0
        · exact h1 _ (by simp)
      · exact h0
    | perform f ts =>
      simp only [Task.run, contact_issuer]
      split
      · exact h0
      · split <;> exact h0
    | answered f a =>
      cases a with
      | success pk us =>
        simp only [Task.run, resume]
        split
        · exact h0
        · exact h1 _ (by simp)
      | alreadySpent => exact h0
      | unpaid => exact h0
      | failed d => exact h0

theorem noRetry_answer {cfg : RedeemCfg} {c : Controller} (hret : ∀ w, .retry w ∉ c.todo) (i : Nat)
    (a : IssuerAnswer) : ∀ w, .retry w ∉ (c.step cfg (.answer i a)).todo := by
  simp only [Controller.step]
  split
  · exact hret
  · split
    · intro w hw
      rcases List.mem_cons.mp hw with e | hw
      · simp at e
      · exact hret w hw
    · exact hret

/-- A smooth run ends with the voucher redeemed. -/
theorem smooth_run {cfg : RedeemCfg} {v : String} (events : List RedeemEvent) {c : Controller} (hr : RInv cfg c)
    (hlarge : RowsLarge cfg c) (hs : Smooth c) (hret : ∀ w, .retry w ∉ c.todo) (hc : Cared cfg v c)
    (h : SmoothRun cfg c events) : Cared cfg v (c.run cfg events) := by
  induction events generalizing c with
  | nil => exact hc
  | cons e es ih =>
    have hr' := rinv_step hr e
    have hl' := rowsLarge_run [e] hlarge
    cases e with
    | work env =>
      have := smooth_work hr hlarge hs hret hc h.2.1
      exact ih hr' hl' this.1 (noRetry_work hret env) this.2 h.2.2
    | answer i a =>
      cases a with
      | success pk us =>
        exact ih hr' hl' (smooth_answer hs i pk us h.2.2.1) (noRetry_answer hret i _)
          (cared_answer hc i _) h.2.2.2
      | _ => exact h.elim
    | _ => exact h.elim

theorem cared_idle {cfg : RedeemCfg} {v : String} {c : Controller} (hc : Cared cfg v c)
    (hi : Idle c) : ∃ row, voucherRow c.store v = some row ∧ row.state = "redeemed" := by
  obtain ⟨row, hrow, h | ⟨_, _, ⟨_, ⟨n, hm⟩, _⟩ | h⟩⟩ := hc
  · exact ⟨row, hrow, h⟩
  · rw [hi.1] at hm; simp at hm
  · simp [frames, hi.1, hi.2] at h

/-! ### There are such runs -/

/-- Strings longer than those given, of different lengths. -/
def freshStrings (old : List String) (n : Nat) : List String :=
  (List.range n).map fun i => String.ofList (List.replicate ((old.map (·.toList.length)).sum + 1 + i) 'x')

theorem freshStrings_nodup (old : List String) (n : Nat) : (freshStrings old n).Nodup := by
  unfold freshStrings
  rw [List.nodup_iff_pairwise_ne, List.pairwise_map]
  refine (List.nodup_range (n := n)).imp ?_
  intro a b hab h
  have := congrArg (fun s : String => s.toList.length) h
  simp only [String.toList_ofList, List.length_replicate] at this
  omega

theorem le_sum_of_mem {n : Nat} {l : List Nat} (h : n ∈ l) : n ≤ l.sum := by
  induction l with
  | nil => simp at h
  | cons m l ih =>
    rw [List.sum_cons]
    rcases List.mem_cons.mp h with rfl | h
    · omega
    · have := ih h; omega

theorem freshStrings_new (old : List String) (n : Nat) : ∀ x ∈ freshStrings old n, x ∉ old := by
  intro x hx ho
  obtain ⟨i, _, rfl⟩ := List.mem_map.mp hx
  have := le_sum_of_mem (List.mem_map_of_mem (f := fun s : String => s.toList.length) ho)
  simp only [String.toList_ofList, List.length_replicate] at this
  omega

/-- Surroundings whose random tokens are new. -/
def freshEnv (t : Tables) : Env where
  now := "now"
  order := .natural
  random := fun _ _ n => .ok (freshStrings (t.app.tokens.map (·.text)) n)
  random_length := by intro v c n ts h; simp only [Except.ok.injEq] at h; rw [← h]; simp [freshStrings]

theorem freshEnv_fresh (t : Tables) : FreshRandom (freshEnv t) t :=
  fun _ _ n => ⟨_, rfl, freshStrings_nodup _ n, freshStrings_new _ n⟩

theorem smooth_exists (cfg : RedeemCfg) (pk : String) :
    ∀ (n : Nat) (c : Controller), RInv cfg c → weight cfg.num_redemption_groups c ≤ n →
      ∃ events, SmoothRun cfg c events ∧ Idle (c.run cfg events) := by
  intro n
  induction n with
  | zero =>
    intro c hr hw
    refine ⟨[], trivial, ?_⟩
    constructor
    · show c.todo = []
      refine Classical.byContradiction fun h => ?_
      have := weight_work hr (env := freshEnv c.store) h
      omega
    · show c.waiting = []
      cases hc : c.waiting with
      | nil => rfl
      | cons s l =>
        have := (hr.waiting s (by rw [hc]; exact List.mem_cons_self)).2.1
        simp only [weight, hc, List.map_cons, List.sum_cons] at hw
        omega
  | succ n ih =>
    intro c hr hw
    by_cases ht : c.todo = []
    · cases hc : c.waiting with
      | nil => exact ⟨[], trivial, ht, hc⟩
      | cons s l =>
        have hi : 0 < c.waiting.length := by rw [hc]; simp
        have hall : c.todo.all (·.isCall) = true := by rw [ht]; rfl
        let us := freshStrings (c.store.app.unblinded.map (·.token)) s.tokens.length
        have hlt := weight_answer hr (a := .success pk us) hi hall
        obtain ⟨es, h1, h2⟩ := ih (c.step cfg (.answer 0 (.success pk us))) (rinv_step hr _) (by omega)
        exact ⟨.answer 0 (.success pk us) :: es,
          ⟨hi, hall, ⟨freshStrings_nodup _ _, freshStrings_new _ _⟩, h1⟩, h2⟩
    · have hlt := weight_work hr (env := freshEnv c.store) ht
      obtain ⟨es, h1, h2⟩ := ih (c.step cfg (.work (freshEnv c.store))) (rinv_step hr _) (by omega)
      exact ⟨.work (freshEnv c.store) :: es, ⟨ht, freshEnv_fresh _, h1⟩, h2⟩

/-! ### After a restart -/

theorem weight_calls {N : Nat} {l : List Task} (h : ∀ x ∈ l, ∃ v n, x = Task.redeem v n) :
    (l.map (taskWeight N)).sum = l.length * (4 * N + 2) := by
  induction l with
  | nil => simp
  | cons x l ih =>
    obtain ⟨v, n, rfl⟩ := h x List.mem_cons_self
    simp only [List.map_cons, List.sum_cons, taskWeight, List.length_cons,
      ih (fun x hx => h x (List.mem_cons_of_mem _ hx)), Nat.succ_mul]
    omega

theorem check_pending_length {t : Tables} (hwf : StoreWF t)
    (hrows : ∀ v row, voucherRow t v = some row → RowOK row) :
    (check_pending_vouchers t).length = pendingVouchers t := by
  have hall : ∀ x ∈ t.app.vouchers, ∃ y, Voucher.from_row sameText x = .ok y := by
    intro x hx
    obtain ⟨o, ho, _⟩ := from_row_ok (hrows _ _ (voucherRow_of_mem hwf hx))
    exact ⟨o, ho⟩
  obtain ⟨ys, hys, _, _⟩ := mapM_ok hall
  unfold check_pending_vouchers pendingVouchers
  simp only [transact, store_list, Prog.run, hys, List.length_map]
  have key : ∀ {xs : List VoucherRow} {ys : List (Voucher String)},
      (∀ x ∈ xs, RowOK x) → xs.mapM (Voucher.from_row sameText) = .ok ys →
      (ys.filter (·.state.should_start_redemption)).length = xs.countP (fun r => r.state == "pending") := by
    intro xs
    induction xs with
    | nil => intro ys _ h; simp only [List.mapM_nil, pure, Except.pure, Except.ok.injEq] at h; subst h; rfl
    | cons x xs ih =>
      intro ys hok h
      rw [List.mapM_cons] at h
      obtain ⟨o, ho, _, hp⟩ := from_row_ok (hok x List.mem_cons_self)
      cases hxs : xs.mapM (Voucher.from_row sameText) with
      | error e => rw [ho, hxs] at h; simp [bind, Except.bind] at h
      | ok ys' =>
        rw [ho, hxs] at h
        simp only [bind, Except.bind, pure, Except.pure, Except.ok.injEq] at h
        subst h
        have := ih (fun x hx => hok x (List.mem_cons_of_mem _ hx)) hxs
        rw [List.filter_cons, List.countP_cons]
        by_cases hs : x.state = "pending"
        · rw [if_pos (hp.mpr hs), if_pos (by simpa using hs)]; simp [this]
        · rw [if_neg (fun h => hs (hp.mp h)), if_neg (by simpa using hs)]; simp [this]
  exact key (fun x hx => hrows _ _ (voucherRow_of_mem hwf hx)) hys

theorem crash_smooth {cfg : RedeemCfg} {c : Controller} (hr : RInv cfg c) :
    Smooth (c.step cfg .crash) ∧ (∀ w, .retry w ∉ (c.step cfg .crash).todo) := by
  have hr' := rinv_step hr .crash
  have hmem := check_pending_mem (t := (c.step cfg .crash).store) hr'.wf hr'.rows
  refine ⟨⟨rfl, rfl, ?_⟩, ?_⟩
  · intro f a rest e
    have hm : Task.answered f a ∈ check_pending_vouchers (c.step cfg .crash).store := by
      show _ ∈ (c.step cfg .crash).todo
      rw [e]; exact List.mem_cons_self
    obtain ⟨_, _, _, _, h⟩ := (hmem _).mp hm
    simp at h
  · intro w hm
    obtain ⟨_, _, _, _, h⟩ := (hmem (.retry w)).mp hm
    simp at h

theorem crash_row (cfg : RedeemCfg) (c : Controller) (v : String) :
    voucherRow (c.step cfg .crash).store v = voucherRow c.store v := rfl

theorem crash_cared {cfg : RedeemCfg} {c : Controller} (hr : RInv cfg c) {v : String}
    {row : VoucherRow} (hrow : voucherRow c.store v = some row) (hp : row.state = "pending")
    (hlt : row.counter < cfg.num_redemption_groups) : Cared cfg v (c.step cfg .crash) := by
  have hr' := rinv_step hr .crash
  have hmem := check_pending_mem (t := (c.step cfg .crash).store) hr'.wf hr'.rows
  have hcalls := check_pending_calls (c.step cfg .crash).store
  refine ⟨row, hrow, .inr ⟨hp, hlt, .inl ⟨?_, ⟨none, (hmem _).mpr ⟨v, row, hrow, hp, rfl⟩⟩, ?_⟩⟩⟩
  · have : busy (c.step cfg .crash) = resumed (check_pending_vouchers (c.step cfg .crash).store) := rfl
    rw [this, resumed_calls hcalls]; simp
  · have : frames (c.step cfg .crash) =
        (check_pending_vouchers (c.step cfg .crash).store).filterMap taskFrame := rfl
    rw [this, frames_calls hcalls]; simp

theorem crash_weight {cfg : RedeemCfg} {c : Controller} (hr : RInv cfg c) :
    weight cfg.num_redemption_groups (c.step cfg .crash) =
      pendingVouchers c.store * (4 * cfg.num_redemption_groups + 2) := by
  have hr' := rinv_step hr .crash
  have hmem := check_pending_mem (t := (c.step cfg .crash).store) hr'.wf hr'.rows
  have h1 : weight cfg.num_redemption_groups (c.step cfg .crash) =
      ((check_pending_vouchers (c.step cfg .crash).store).map (taskWeight cfg.num_redemption_groups)).sum := rfl
  rw [h1, weight_calls, check_pending_length hr'.wf hr'.rows]
  · rfl
  · intro x hx
    obtain ⟨v, _, _, _, rfl⟩ := (hmem x).mp hx
    exact ⟨v, none, rfl⟩

end ZKAP
