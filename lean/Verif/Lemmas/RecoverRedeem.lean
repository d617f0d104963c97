import Verif.Model.RecoverRedeem
import Verif.Spec.RecoverRedeem
import Verif.Lemmas.Finish

/-! Vouchers the controller knows nothing about. -/
namespace ZKAP
open Spec

/-- The voucher a piece of work is about. -/
def taskVoucher : Task → String
  | .redeem v _ => v
  | .retry v => v
  | .iterate f => f.voucher
  | .perform f _ => f.voucher
  | .answered f _ => f.voucher

/-- The controller knows nothing of the voucher. -/
structure Ignored (v : String) (c : Controller) : Prop where
  todo : ∀ x ∈ c.todo, taskVoucher x ≠ v
  waiting : ∀ s ∈ c.waiting, s.frame.voucher ≠ v
  error : v ∉ c.error.keys
  unpaid : v ∉ c.unpaid.keys

theorem ignored_row {cfg : RedeemCfg} {v : String} {c : Controller} (h : Ignored v c) (e : RedeemEvent) :
    voucherRow (c.step cfg e).store v = voucherRow c.store v := by
  rcases row_step (cfg := cfg) c e v with hs | ⟨f, rest, now, ht, hv, _⟩ |
    ⟨f, pk, us, rest, now, row', ht, hv, _⟩ | ⟨f, rest, now, row', ht, hv, _⟩
  · exact hs
  all_goals
    have := h.todo _ (by rw [ht]; exact List.mem_cons_self)
    exact absurd hv this

theorem ignored_run_task {cfg : RedeemCfg} {v : String} {c : Controller} (h : Ignored v c) (env : Env)
    (task : Task) (ht : taskVoucher task ≠ v) : Ignored v (task.run cfg env c) := by
  have push : ∀ {c' : Controller} (x : Task), Ignored v c' → taskVoucher x ≠ v →
      Ignored v { c' with todo := x :: c'.todo } := by
    intro c' x hc hx
    refine { hc with todo := ?_ }
    intro y hy
    rcases List.mem_cons.mp hy with rfl | hy
    · exact hx
    · exact hc.todo y hy
  cases task with
  | redeem w n =>
    simp only [Task.run]
    split
    · exact h
    · exact h
    · rename_i f hf
      have hw := (redeem_start_some hf).1
      exact push (c' := { c with log := c.log ++ [.begun f.voucher f.counter] }) (.iterate f) ⟨h.todo, h.waiting, h.error, h.unpaid⟩
        (by rw [show taskVoucher (.iterate f) = w from hw]; exact ht)
  | retry w =>
    simp only [Task.run]
    split
    · exact h
    · split
      · exact { h with todo := by simp }
      · split
        · exact push _ h ht
        · exact h
  | iterate f =>
    simp only [Task.run]
    split
    · split
      · exact ⟨h.todo, h.waiting, h.error, h.unpaid⟩
      · exact push (c' := { c with store := _ }) _ ⟨h.todo, h.waiting, h.error, h.unpaid⟩ ht
    · exact h
  | perform f ts =>
    simp only [Task.run, contact_issuer]
    split
    · exact h
    · split
      · refine ⟨h.todo, ?_, h.error, h.unpaid⟩
        intro s hs
        rcases List.mem_append.mp hs with hs | hs
        · exact h.waiting s hs
        · simp only [List.mem_singleton] at hs
          subst hs; exact ht
      · exact h
  | answered f a =>
    have hne : v ≠ f.voucher := fun e => ht e.symm
    simp only [Task.run, resume]
    cases a with
    | success pk us =>
      dsimp only
      split
      · exact ⟨h.todo, h.waiting, h.error, h.unpaid⟩
      · exact push (c' := { c with store := _, active := _, log := _ }) _
          ⟨h.todo, h.waiting, h.error, h.unpaid⟩ ht
    | alreadySpent => exact ⟨h.todo, h.waiting, h.error, h.unpaid⟩
    | unpaid =>
      refine ⟨h.todo, h.waiting, h.error, ?_⟩
      dsimp only [redeem_failure]
      rw [Dict.mem_keys_set]
      rintro (h' | h')
      · exact h.unpaid h'
      · exact hne h'
    | failed d =>
      refine ⟨h.todo, h.waiting, ?_, h.unpaid⟩
      dsimp only [redeem_failure]
      rw [Dict.mem_keys_set]
      rintro (h' | h')
      · exact h.error h'
      · exact hne h'

theorem ignored_step {cfg : RedeemCfg} {v : String} {c : Controller} (h : Ignored v c) {e : RedeemEvent}
    (hr : ∀ n, e ≠ .redeem v n) (hc : e ≠ .crash) : Ignored v (c.step cfg e) := by
  cases e with
  | redeem w n =>
    simp only [Controller.step]
    split
    · refine { h with todo := ?_ }
      intro x hx
      simp only [List.mem_singleton] at hx
      subst hx
      intro hw
      exact hr n (by rw [show w = v from hw])
    · exact h
  | timer =>
    simp only [Controller.step]
    split
    · refine { h with todo := ?_ }
      intro x hx
      obtain ⟨w, hw, rfl⟩ := List.mem_map.mp hx
      intro e
      simp only [taskVoucher] at e
      subst e
      rcases List.mem_append.mp hw with hw | hw
      · exact h.error hw
      · exact h.unpaid hw
    · exact h
  | answer i a =>
    simp only [Controller.step]
    split
    · exact h
    · rename_i s hs
      have hsm : s ∈ c.waiting := List.mem_of_getElem? hs
      split
      · refine ⟨?_, ?_, h.error, h.unpaid⟩
        · intro x hx
          rcases List.mem_cons.mp hx with rfl | hx
          · exact h.waiting s hsm
          · exact h.todo x hx
        · intro s' hs'
          rcases List.mem_append.mp hs' with hs' | hs'
          · exact h.waiting s' (List.mem_of_mem_take hs')
          · exact h.waiting s' (List.mem_of_mem_drop hs')
      · exact h
  | work env =>
    simp only [Controller.step]
    cases et : c.todo with
    | nil => exact h
    | cons task todo =>
      dsimp only
      exact ignored_run_task (c := { c with todo := todo })
        ⟨fun x hx => h.todo x (by rw [et]; exact List.mem_cons_of_mem _ hx), h.waiting, h.error, h.unpaid⟩
        env task (h.todo task (by rw [et]; exact List.mem_cons_self))
  | other op =>
    simp only [Controller.step]
    split
    · exact ⟨h.todo, h.waiting, h.error, h.unpaid⟩
    · exact h
  | crash => exact absurd rfl hc

theorem ignored_run {cfg : RedeemCfg} {v : String} (events : List RedeemEvent) {c : Controller}
    (h : Ignored v c) (hl : LeftAlone v events) :
    Ignored v (c.run cfg events) ∧ voucherRow (c.run cfg events).store v = voucherRow c.store v := by
  induction events generalizing c with
  | nil => exact ⟨h, rfl⟩
  | cons e es ih =>
    have hs := ignored_step (cfg := cfg) h (e := e)
      (fun n he => hl.1 n (by rw [he]; exact List.mem_cons_self))
      (fun he => hl.2 (by rw [he]; exact List.mem_cons_self))
    have := ih hs ⟨fun n hm => hl.1 n (List.mem_cons_of_mem _ hm), fun hm => hl.2 (List.mem_cons_of_mem _ hm)⟩
    exact ⟨this.1, this.2.trans (ignored_row h e)⟩

/-- Requests are sent about vouchers the controller knows of. -/
theorem ignored_sent {cfg : RedeemCfg} {v : String} (events : List RedeemEvent) {c : Controller}
    (h : Ignored v c) (hl : LeftAlone v events) (g : Nat) (ts : List String)
    (hc : .sent v g ts ∉ c.log) : .sent v g ts ∉ (c.run cfg events).log := by
  induction events generalizing c with
  | nil => exact hc
  | cons e es ih =>
    have hs := ignored_step (cfg := cfg) h (e := e)
      (fun n he => hl.1 n (by rw [he]; exact List.mem_cons_self))
      (fun he => hl.2 (by rw [he]; exact List.mem_cons_self))
    refine ih hs ⟨fun n hm => hl.1 n (List.mem_cons_of_mem _ hm), fun hm => hl.2 (List.mem_cons_of_mem _ hm)⟩ ?_
    intro h'
    rcases step_records cfg c e with hl | ⟨w, f, rest, n, ht, hs, hl⟩ |
      ⟨f, ts', rest, row', ht, hrow', hp, hstore, hl⟩ | ⟨w, d', a, hl⟩ |
      ⟨f, pk, us, rest, now, ht, _, hl⟩ | hl <;> rw [hl] at h' <;> simp [hc] at h'
    have := h.todo _ (by rw [ht]; exact List.mem_cons_self)
    exact this h'.1.symm

/-! ### Before the recovery -/

theorem ignored_history {cfg : RedeemCfg} {v : String} (events : List RedeemEvent) {c : Controller}
    (hr : RInv cfg c) (h : Ignored v c) (hn : voucherRow c.store v = none) (hl : NotSubmitted v events) :
    Ignored v (c.run cfg events) := by
  induction events generalizing c with
  | nil => exact h
  | cons e es ih =>
    have hrow : voucherRow (c.step cfg e).store v = none := (ignored_row h e).trans hn
    refine ih (rinv_step hr e) ?_ hrow fun n hm => hl n (List.mem_cons_of_mem _ hm)
    by_cases he : e = .crash
    · subst he
      have hr' := rinv_step hr .crash
      refine ⟨?_, by simp [Controller.step], by simp [Controller.step, Dict.keys], by simp [Controller.step, Dict.keys]⟩
      intro x hx
      obtain ⟨w, row, hw, _, rfl⟩ := (check_pending_mem hr'.wf hr'.rows x).mp hx
      intro e
      simp only [taskVoucher] at e
      subst e
      rw [hrow] at hw
      exact absurd hw (by simp)
    · exact ignored_step h (fun n he => hl n (by rw [he]; exact List.mem_cons_self)) he

/-! ### The record makes no difference -/

theorem run_task_log (cfg : RedeemCfg) (env : Env) (task : Task) (c : Controller) (l : List Happening) :
    ∃ l', task.run cfg env { c with log := l } = { task.run cfg env c with log := l' } := by
  have hs : ∀ w n, redeem_start cfg w n { c with log := l } = redeem_start cfg w n c := fun _ _ => rfl
  have hg : ∀ w, get_voucher { c with log := l } w = get_voucher c w := fun _ => rfl
  cases task with
  | redeem w n =>
    simp only [Task.run, hs]
    split <;> exact ⟨_, rfl⟩
  | retry w =>
    simp only [Task.run, hg]
    split
    · exact ⟨_, rfl⟩
    · split
      · exact ⟨_, rfl⟩
      · split <;> exact ⟨_, rfl⟩
  | iterate f =>
    simp only [Task.run]
    split
    · split <;> exact ⟨_, rfl⟩
    · exact ⟨_, rfl⟩
  | perform f ts =>
    simp only [Task.run, contact_issuer]
    split
    · exact ⟨_, rfl⟩
    · split <;> exact ⟨_, rfl⟩
  | answered f a =>
    simp only [Task.run, resume]
    cases a with
    | success pk us => dsimp only; split <;> exact ⟨_, rfl⟩
    | _ => exact ⟨_, rfl⟩

theorem step_mod_log (cfg : RedeemCfg) (c : Controller) (l : List Happening) (e : RedeemEvent) :
    ∃ l', ({ c with log := l } : Controller).step cfg e = { c.step cfg e with log := l' } := by
  cases e with
  | redeem w n => simp only [Controller.step]; split <;> exact ⟨_, rfl⟩
  | timer => simp only [Controller.step, retry_redemption]; split <;> exact ⟨_, rfl⟩
  | answer i a =>
    simp only [Controller.step]
    split
    · exact ⟨_, rfl⟩
    · split <;> exact ⟨_, rfl⟩
  | work env =>
    simp only [Controller.step]
    split
    · exact ⟨_, rfl⟩
    · rename_i task todo _
      exact run_task_log cfg env task { c with todo := todo } l
  | other op => simp only [Controller.step]; split <;> exact ⟨_, rfl⟩
  | crash => exact ⟨_, rfl⟩

theorem run_mod_log (cfg : RedeemCfg) (events : List RedeemEvent) (c : Controller) (l : List Happening) :
    ∃ l', ({ c with log := l } : Controller).run cfg events = { c.run cfg events with log := l' } := by
  induction events generalizing c l with
  | nil => exact ⟨l, rfl⟩
  | cons e es ih =>
    obtain ⟨l', h⟩ := step_mod_log cfg c l e
    obtain ⟨l'', h'⟩ := ih (c.step cfg e) l'
    refine ⟨l'', ?_⟩
    show (({ c with log := l } : Controller).step cfg e).run cfg es = _
    rw [h]; exact h'

theorem smoothRun_mod_log (cfg : RedeemCfg) (events : List RedeemEvent) (c : Controller) (l : List Happening)
    (h : SmoothRun cfg c events) : SmoothRun cfg { c with log := l } events := by
  induction events generalizing c l with
  | nil => trivial
  | cons e es ih =>
    obtain ⟨l', he⟩ := step_mod_log cfg c l e
    cases e with
    | work env => exact ⟨h.1, h.2.1, by rw [he]; exact ih _ _ h.2.2⟩
    | answer i a =>
      cases a with
      | success pk us => exact ⟨h.1, h.2.1, h.2.2.1, by rw [he]; exact ih _ _ h.2.2.2⟩
      | _ => exact h.elim
    | _ => exact h.elim

/-! ### The recovered node -/

/-- A node with nothing to do and the database of another node. -/
theorem taken_over_inv {cfg : RedeemCfg} {c : Controller} (hr : RInv cfg c) {t : Temp} (ht : t = {}) :
    RInv cfg { store := { app := c.store.app, temp := t }, log := c.log ++ [.restarted] } := by
  subst ht
  have h := rinv_step hr .crash
  have hcalls := check_pending_calls (c.step cfg .crash).store
  exact h.start (l := []) (by simp) (resumed_calls hcalls)

end ZKAP
