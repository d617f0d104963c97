import Verif.Lemmas.ControllerValue

/-! Facts about what single events of a controller can record. -/
namespace ZKAP
open Spec

/-- What an event can record, and what the controller looks like then. -/
theorem step_records (cfg : RedeemCfg) (c : Controller) (e : RedeemEvent) :
    (c.step cfg e).log = c.log ∨
    (∃ f d rest n, c.todo = .redeem f n :: rest ∧
      redeem_start cfg f n { c with todo := rest } = .ok (some d) ∧
      (c.step cfg e).log = c.log ++ [.begun d.voucher d.counter]) ∨
    (∃ f ts rest row, c.todo = .perform f ts :: rest ∧
      voucherRow c.store f.voucher = some row ∧ row.state = "pending" ∧
      (c.step cfg e).store = c.store ∧
      (c.step cfg e).log = c.log ++ [.sent f.voucher f.counter ts]) ∨
    (∃ v d a, (c.step cfg e).log = c.log ++ [.answer v d a]) ∨
    (∃ f pk us rest now, c.todo = .answered f (.success pk us) :: rest ∧
      (transact (store_insert_unblinded now f.voucher pk us
        (f.counter + 1 == cfg.num_redemption_groups)
        (decide (pk ∈ cfg.allowed_public_keys))) c.store) = (.ok (), (c.step cfg e).store) ∧
      (c.step cfg e).log = c.log ++ [.stored f.voucher f.counter pk us]) ∨
    (c.step cfg e).log = c.log ++ [.restarted] := by
  cases e with
  | redeem v n => simp only [Controller.step]; split <;> exact .inl rfl
  | timer => simp only [Controller.step]; split <;> exact .inl rfl
  | answer i a =>
    simp only [Controller.step]
    split
    · exact .inl rfl
    · split
      · exact .inr (.inr (.inr (.inl ⟨_, _, _, rfl⟩)))
      · exact .inl rfl
  | other op => simp only [Controller.step]; split <;> exact .inl rfl
  | crash => exact .inr (.inr (.inr (.inr (.inr rfl))))
  | work env =>
    simp only [Controller.step]
    cases ht : c.todo with
    | nil => exact .inl rfl
    | cons task todo =>
      dsimp only
      cases task with
      | redeem v n =>
        simp only [Task.run]
        cases hs : redeem_start cfg v n { c with todo := todo } with
        | error e => exact .inl rfl
        | ok o =>
          cases o with
          | none => exact .inl rfl
          | some f => exact .inr (.inl ⟨v, f, todo, n, rfl, hs, rfl⟩)
      | retry v =>
        simp only [Task.run]
        split
        · exact .inl rfl
        · split
          · exact .inl rfl
          · split <;> exact .inl rfl
      | iterate f =>
        simp only [Task.run]
        split
        · split <;> exact .inl rfl
        · exact .inl rfl
      | perform f ts =>
        simp only [Task.run, contact_issuer, get_object_eq]
        cases hrow : voucherRow c.store f.voucher with
        | none => exact .inl rfl
        | some row =>
          dsimp only
          by_cases hp : row.state = "pending"
          · rw [from_row_pending hp]
            exact .inr (.inr (.inl ⟨f, ts, todo, row, rfl, hrow, hp, rfl, rfl⟩))
          · rcases from_row_other hp with ⟨e, he, hne⟩ | ⟨d, hd⟩ | ⟨d, k, hd⟩
            · rw [he]; exact .inl rfl
            · rw [hd]; exact .inl rfl
            · rw [hd]; exact .inl rfl
      | answered f a =>
        simp only [Task.run, resume]
        cases a with
        | success pk us =>
          dsimp only [redeem_success]
          rcases insert_effect env.now f.voucher pk us (f.counter + 1 == cfg.num_redemption_groups)
              (decide (pk ∈ cfg.allowed_public_keys)) c.store with ⟨err, he⟩ | ⟨row, hrow, he⟩
          · rw [he]; exact .inl rfl
          · rw [he]
            exact .inr (.inr (.inr (.inr (.inl ⟨f, pk, us, todo, env.now, rfl, he, rfl⟩))))
        | alreadySpent => exact .inl rfl
        | unpaid => exact .inl rfl
        | failed d => exact .inl rfl

/-- Requests come from events. -/
theorem sent_from_event {cfg : RedeemCfg} {v : String} {g : Nat} {ts : List String}
    (history : List RedeemEvent) {c : Controller} (hc : .sent v g ts ∉ c.log)
    (h : .sent v g ts ∈ (c.run cfg history).log) :
    ∃ before e later, history = before ++ e :: later ∧
      ((c.run cfg before).step cfg e).log = (c.run cfg before).log ++ [.sent v g ts] := by
  induction history generalizing c with
  | nil => exact absurd h hc
  | cons e es ih =>
    by_cases h' : .sent v g ts ∈ (c.step cfg e).log
    · refine ⟨[], e, es, rfl, ?_⟩
      show (c.step cfg e).log = c.log ++ [.sent v g ts]
      rcases step_records cfg c e with hl | ⟨w, f, rest, n, ht, hs, hl⟩ |
        ⟨f, ts', rest, row', ht, hrow', hp, hstore, hl⟩ | ⟨w, d', a, hl⟩ |
        ⟨f, pk, us, rest, now, ht, _, hl⟩ | hl <;> rw [hl] at h' ⊢ <;> simp [hc] at h' ⊢
      exact ⟨h'.1.symm, h'.2.1.symm, h'.2.2.symm⟩
    · obtain ⟨b, e', l, rfl, hh⟩ := ih h' h
      exact ⟨e :: b, e', l, rfl, hh⟩

/-! ### Where a redemption begins -/

/-- Redemptions begin at the first unredeemed group, unless the voucher was reported
unpaid. -/
def Begins (v : String) (log : List Happening) : Prop :=
  ∀ l₁ d l₂, log = l₁ ++ .begun v d :: l₂ → ¬ ReportedUnpaid v l₁ →
    d = (redeemedGroups v l₁).length

theorem begins_step {cfg : RedeemCfg} {v : String} {c : Controller} (hr : RInv cfg c)
    (h : Begins v c.log) (e : RedeemEvent) : Begins v (c.step cfg e).log := by
  have hsnoc : ∀ x, (∀ d, x ≠ .begun v d) → Begins v (c.log ++ [x]) := by
    intro x hx l₁ d l₂ el hn
    rcases snoc_split el with ⟨_, h2, _⟩ | ⟨l₂', rfl, h2⟩
    · exact absurd h2.symm (hx d)
    · exact h l₁ d l₂' h2 hn
  rcases step_records cfg c e with hl | ⟨w, f, rest, n, ht, hs, hl⟩ | ⟨f, ts, rest, row, _, _, _, _, hl⟩ |
    ⟨w, d, a, hl⟩ | ⟨f, pk, us, rest, now, _, _, hl⟩ | hl
  · rw [hl]; exact h
  · rw [hl]
    intro l₁ d l₂ el hn
    rcases snoc_split el with ⟨_, h2, h3⟩ | ⟨l₂', rfl, h2⟩
    · simp only [Happening.begun.injEq] at h2
      obtain ⟨hv, rfl⟩ := h2
      obtain ⟨hfv, hcase⟩ := redeem_start_some hs
      have hwv : v = w := hv.trans hfv
      subst hwv
      rw [h3] at hn
      rw [h3, hr.counter v]
      rcases hcase with ⟨hnone, _, h0⟩ | ⟨row, hrow, hp, _, _, ⟨hu, h0⟩ | ⟨_, _, h0⟩⟩
      · dsimp only at hnone; rw [h0, rowCounter, hnone]; rfl
      · exact absurd (hr.unpaid v hu) hn
      · dsimp only at hrow; rw [h0, rowCounter, hrow]; rfl
    · exact h l₁ d l₂' h2 hn
  · rw [hl]; exact hsnoc _ (by simp)
  · rw [hl]; exact hsnoc _ (by simp)
  · rw [hl]; exact hsnoc _ (by simp)
  · rw [hl]; exact hsnoc _ (by simp)

theorem begins_run {cfg : RedeemCfg} {v : String} (events : List RedeemEvent) {c : Controller}
    (hr : RInv cfg c) (h : Begins v c.log) : Begins v (c.run cfg events).log := by
  induction events generalizing c with
  | nil => exact h
  | cons e es ih => exact ih (rinv_step hr e) (begins_step hr h e)

/-! ### Finished vouchers -/

theorem final_step {cfg : RedeemCfg} {c : Controller} (hr : RInv cfg c) {v : String}
    {row : VoucherRow} (hrow : voucherRow c.store v = some row) (hst : row.state ≠ "pending")
    (e : RedeemEvent) :
    voucherRow (c.step cfg e).store v = some row ∧
    ∃ l, (c.step cfg e).log = c.log ++ l ∧ (∀ d ts, .sent v d ts ∉ l) ∧
      (∀ d, .begun v d ∉ l) ∧ (∀ d pk us, .stored v d pk us ∉ l) := by
  constructor
  · cases e with
    | redeem w n => simp only [Controller.step]; split <;> exact hrow
    | timer => simp only [Controller.step]; split <;> exact hrow
    | answer i a =>
      simp only [Controller.step]
      split
      · exact hrow
      · split <;> exact hrow
    | other op =>
      simp only [Controller.step]
      split
      · rename_i hop
        simp only [Bool.and_eq_true] at hop
        obtain ⟨_, h2⟩ := other_effect op hop.2 c.store
        dsimp only
        unfold voucherRow at hrow ⊢
        rw [h2]; exact hrow
      · exact hrow
    | crash => exact hrow
    | work env =>
      simp only [Controller.step]
      cases ht : c.todo with
      | nil => exact hrow
      | cons task todo =>
        dsimp only
        cases task with
        | redeem w n => simp only [Task.run]; split <;> exact hrow
        | retry w =>
          simp only [Task.run]
          split
          · exact hrow
          · split
            · exact hrow
            · split <;> exact hrow
        | iterate f =>
          simp only [Task.run]
          split
          rotate_left
          · exact hrow
          unfold get_random_tokens
          cases hg : token_count_for_group cfg.num_redemption_groups f.total f.counter with
          | error e => exact hrow
          | ok n =>
            dsimp only
            rcases add_effect env.order env.now f.voucher f.total f.counter
                (env.random f.voucher f.counter n.toNat) c.store with
              ⟨err, he⟩ | ⟨ts, he, hp, hne⟩ | ⟨ts, hget, he, hnil⟩
            · rw [he]; exact hrow
            · rw [he]; exact hrow
            · rw [he]
              dsimp only
              rw [voucherRow_added]
              split
              · rename_i h; subst h; rw [hrow]; rfl
              · exact hrow
        | perform f ts =>
          simp only [Task.run, contact_issuer]
          split
          · exact hrow
          · split <;> exact hrow
        | answered f a =>
          have hne : v ≠ f.voucher := by
            rintro rfl
            obtain ⟨⟨row', hrow', hp, _⟩, _⟩ := hr.answered f a todo ht
            rw [hrow, Option.some.injEq] at hrow'
            rw [hrow'] at hst
            exact hst hp
          simp only [Task.run, resume]
          cases a with
          | success pk us =>
            dsimp only [redeem_success]
            rcases insert_effect env.now f.voucher pk us (f.counter + 1 == cfg.num_redemption_groups)
                (decide (pk ∈ cfg.allowed_public_keys)) c.store with ⟨err, he⟩ | ⟨row', hrow', he⟩
            · rw [he]; exact hrow
            · rw [he]
              dsimp only
              rw [voucherRow_inserted, if_neg hne]; exact hrow
          | alreadySpent =>
            dsimp only [redeem_failure]
            rw [(doubleSpent_effect env.now f.voucher c.store).2, if_neg hne]; exact hrow
          | unpaid => exact hrow
          | failed d => exact hrow
  · rcases step_records cfg c e with hl | ⟨w, f, rest, n, ht, hs, hl⟩ |
      ⟨f, ts, rest, row', ht, hrow', hp, _, hl⟩ | ⟨w, d, a, hl⟩ |
      ⟨f, pk, us, rest, now, ht, _, hl⟩ | hl
    · exact ⟨[], by simp [hl]⟩
    · refine ⟨_, hl, by simp, ?_, by simp⟩
      intro d hm
      simp only [List.mem_singleton, Happening.begun.injEq] at hm
      obtain ⟨hfv, hcase⟩ := redeem_start_some hs
      have hwv : v = w := hm.1.trans hfv
      subst hwv
      rcases hcase with ⟨hnone, _⟩ | ⟨row', hrow', hp, _⟩
      · dsimp only at hnone; rw [hrow] at hnone; simp at hnone
      · dsimp only at hrow'; rw [hrow, Option.some.injEq] at hrow'; rw [hrow'] at hst; exact hst hp
    · refine ⟨_, hl, ?_, by simp, by simp⟩
      intro d ts' hm
      simp only [List.mem_singleton, Happening.sent.injEq] at hm
      rw [← hm.1, hrow, Option.some.injEq] at hrow'
      rw [hrow'] at hst; exact hst hp
    · exact ⟨_, hl, by simp⟩
    · refine ⟨_, hl, by simp, by simp, ?_⟩
      intro d pk' us' hm
      simp only [List.mem_singleton, Happening.stored.injEq] at hm
      obtain ⟨⟨row', hrow', hp, _⟩, _⟩ := hr.answered f _ rest ht
      rw [← hm.1, hrow, Option.some.injEq] at hrow'
      rw [hrow'] at hst
      exact hst hp
    · exact ⟨_, hl, by simp⟩

theorem final_run {cfg : RedeemCfg} (events : List RedeemEvent) {c : Controller} (hr : RInv cfg c)
    {v : String} {row : VoucherRow} (hrow : voucherRow c.store v = some row)
    (hst : row.state ≠ "pending") :
    voucherRow (c.run cfg events).store v = some row ∧
    ∃ l, (c.run cfg events).log = c.log ++ l ∧ (∀ d ts, .sent v d ts ∉ l) ∧
      (∀ d, .begun v d ∉ l) ∧ (∀ d pk us, .stored v d pk us ∉ l) := by
  induction events generalizing c with
  | nil => exact ⟨hrow, [], by simp [Controller.run]⟩
  | cons e es ih =>
    obtain ⟨h1, l, hl, h2, h3, h4⟩ := final_step hr hrow hst e
    obtain ⟨h1', l', hl', h2', h3', h4'⟩ := ih (rinv_step hr e) h1
    refine ⟨h1', l ++ l', ?_, ?_, ?_, ?_⟩
    · show ((c.step cfg e).run cfg es).log = _
      rw [hl', hl, List.append_assoc]
    · intro d ts hm
      rcases List.mem_append.mp hm with hm | hm
      · exact h2 d ts hm
      · exact h2' d ts hm
    · intro d hm
      rcases List.mem_append.mp hm with hm | hm
      · exact h3 d hm
      · exact h3' d hm
    · intro d pk us hm
      rcases List.mem_append.mp hm with hm | hm
      · exact h4 d pk us hm
      · exact h4' d pk us hm

/-! ### Vouchers in the error state -/

/-- The voucher is stuck in the error state. -/
structure ErrorStuck (v : String) (c : Controller) : Prop where
  error : v ∈ c.error.keys
  unpaid : v ∉ c.unpaid.keys
  known : voucherRow c.store v ≠ none
  frames : ∀ f ∈ frames c, f.voucher ≠ v

theorem errorStuck_step {cfg : RedeemCfg} {c : Controller} (hr : RInv cfg c) {v : String}
    (h : ErrorStuck v c) (e : RedeemEvent) (he : e ≠ .crash) :
    ErrorStuck v (c.step cfg e) ∧ ∀ d ts l, (c.step cfg e).log = c.log ++ l → .sent v d ts ∉ l := by
  have hkeep : ∀ c' : Controller, v ∈ c'.error.keys → v ∉ c'.unpaid.keys →
      voucherRow c'.store v = voucherRow c.store v →
      (∀ f ∈ frames c', f ∈ frames c) → ErrorStuck v c' := by
    intro c' h1 h2 h3 h4
    exact ⟨h1, h2, by rw [h3]; exact h.known, fun f hf => h.frames f (h4 f hf)⟩
  constructor
  · cases e with
    | redeem w n =>
      simp only [Controller.step]
      split
      · refine hkeep _ h.error h.unpaid rfl ?_
        intro f hf
        simp only [frames, List.filterMap_cons, taskFrame, List.filterMap_nil, List.append_nil] at hf
        exact List.mem_append_left _ hf
      · exact h
    | timer =>
      simp only [Controller.step]
      split
      · refine hkeep _ h.error h.unpaid rfl ?_
        intro f hf
        have : (retry_redemption c).filterMap taskFrame = [] := by
          apply frames_calls
          intro x hx
          obtain ⟨w, _, rfl⟩ := List.mem_map.mp hx
          rfl
        simp only [frames, this, List.append_nil] at hf
        exact List.mem_append_left _ hf
      · exact h
    | answer i a =>
      simp only [Controller.step]
      split
      · exact h
      · rename_i s hs
        split
        · refine hkeep _ h.error h.unpaid rfl ?_
          intro f hf
          have hp := take_drop_perm _ _ _ hs
          simp only [frames, List.filterMap_cons, taskFrame, List.mem_append, List.mem_cons] at hf ⊢
          rcases hf with hf | rfl | hf
          · left
            obtain ⟨s', hs', rfl⟩ := List.mem_map.mp hf
            exact List.mem_map_of_mem (hp.mem_iff.mp (List.mem_cons_of_mem _ hs'))
          · left
            exact List.mem_map_of_mem (f := fun s : Suspended => s.frame) (hp.mem_iff.mp List.mem_cons_self)
          · exact .inr hf
        · exact h
    | other op =>
      simp only [Controller.step]
      split
      · rename_i hop
        simp only [Bool.and_eq_true] at hop
        obtain ⟨_, h2⟩ := other_effect op hop.2 c.store
        refine hkeep _ h.error h.unpaid ?_ (fun f hf => hf)
        unfold voucherRow; rw [h2]
      · exact h
    | crash => exact absurd rfl he
    | work env =>
      simp only [Controller.step]
      cases ht : c.todo with
      | nil => exact h
      | cons task todo =>
        dsimp only
        have hcalls : ∀ x ∈ todo, x.isCall = true := by
          have := hr.calls; rw [ht] at this; simpa using this
        have hfr : frames c = c.waiting.map (·.frame) ++ (taskFrame task).toList := by
          simp only [frames, ht, List.filterMap_cons, frames_calls hcalls]
          cases taskFrame task <;> rfl
        have hsub : ∀ c' : Controller, c'.todo = todo → c'.waiting = c.waiting →
            ∀ f' ∈ frames c', f' ∈ frames c := by
          intro c' h1 h2 f' hf'
          simp only [frames, h1, h2, frames_calls hcalls, List.append_nil] at hf'
          rw [hfr]; exact List.mem_append_left _ hf'
        have hdrop : ErrorStuck v { c with todo := todo } :=
          hkeep _ h.error h.unpaid rfl (hsub _ rfl rfl)
        cases task with
        | redeem w n =>
          simp only [Task.run]
          cases hs : redeem_start cfg w n { c with todo := todo } with
          | error e => exact hdrop
          | ok o =>
            cases o with
            | none => exact hdrop
            | some f =>
              obtain ⟨hfv, hcase⟩ := redeem_start_some hs
              refine ⟨h.error, h.unpaid, h.known, ?_⟩
              intro f' hf'
              simp only [frames, List.filterMap_cons, taskFrame, List.mem_append, List.mem_cons,
                frames_calls hcalls, List.not_mem_nil, or_false] at hf'
              rcases hf' with hf' | rfl
              · exact h.frames f' (by rw [hfr]; exact List.mem_append_left _ hf')
              · intro hv
                have hwv : w = v := hfv.symm.trans hv
                subst hwv
                rcases hcase with ⟨hnone, _⟩ | ⟨row, hrow, hp, _, _, ⟨hu, _⟩ | ⟨_, hne, _⟩⟩
                · exact h.known hnone
                · exact h.unpaid hu
                · exact hne h.error
        | retry w =>
          have hk : ∀ l, (∀ x ∈ l, x.isCall = true) → ErrorStuck v { c with todo := l } := by
            intro l hl
            refine hkeep _ h.error h.unpaid rfl ?_
            intro f hf
            simp only [frames, frames_calls hl, List.append_nil] at hf
            rw [hfr]; exact List.mem_append_left _ hf
          simp only [Task.run]
          split
          · exact hk todo hcalls
          · split
            · exact hk [] (by simp)
            · split
              · refine hk _ ?_
                intro x hx
                rcases List.mem_cons.mp hx with rfl | hx
                · rfl
                · exact hcalls x hx
              · exact hk todo hcalls
        | iterate f =>
          have hfv : f.voucher ≠ v := h.frames f (by rw [hfr]; simp [taskFrame])
          simp only [Task.run]
          split
          rotate_left
          · exact hdrop
          unfold get_random_tokens
          cases hg : token_count_for_group cfg.num_redemption_groups f.total f.counter with
          | error e => exact hdrop
          | ok n =>
            dsimp only
            have hsub2 : ∀ (t : Tables) (ts : List String),
                ∀ f' ∈ frames { c with store := t, todo := Task.perform f ts :: todo }, f' ∈ frames c := by
              intro t ts f' hf'
              simp only [frames, List.filterMap_cons, taskFrame, frames_calls hcalls] at hf'
              rw [hfr]; exact hf'
            rcases add_effect env.order env.now f.voucher f.total f.counter
                (env.random f.voucher f.counter n.toNat) c.store with
              ⟨err, he⟩ | ⟨ts, he, hp, hne⟩ | ⟨ts, hget, he, hnil⟩
            · rw [he]; exact hdrop
            · rw [he]; exact hkeep _ h.error h.unpaid rfl (hsub2 _ _)
            · rw [he]
              refine hkeep _ h.error h.unpaid ?_ (hsub2 _ _)
              dsimp only
              rw [voucherRow_added, if_neg (Ne.symm hfv)]
        | perform f ts =>
          simp only [Task.run, contact_issuer]
          split
          · exact hdrop
          · split
            · refine hkeep _ h.error h.unpaid rfl ?_
              intro f' hf'
              simp only [frames, frames_calls hcalls, List.append_nil] at hf'
              rw [hfr]
              simpa [taskFrame] using hf'
            · exact hdrop
        | answered f a =>
          have hfv : f.voucher ≠ v := h.frames f (by rw [hfr]; simp [taskFrame])
          simp only [Task.run, resume]
          cases a with
          | success pk us =>
            dsimp only [redeem_success]
            rcases insert_effect env.now f.voucher pk us (f.counter + 1 == cfg.num_redemption_groups)
                (decide (pk ∈ cfg.allowed_public_keys)) c.store with ⟨err, he⟩ | ⟨row', hrow', he⟩
            · rw [he]; exact hkeep _ h.error h.unpaid rfl (hsub _ rfl rfl)
            · rw [he]
              refine ⟨h.error, h.unpaid, ?_, ?_⟩
              · dsimp only
                rw [voucherRow_inserted, if_neg (Ne.symm hfv)]; exact h.known
              · intro f' hf'
                simp only [frames, List.filterMap_cons, taskFrame, List.mem_append, List.mem_cons,
                  frames_calls hcalls, List.not_mem_nil, or_false] at hf'
                rcases hf' with hf' | rfl
                · exact h.frames f' (by rw [hfr]; exact List.mem_append_left _ hf')
                · exact hfv
          | alreadySpent =>
            refine hkeep _ h.error h.unpaid ?_ (hsub _ rfl rfl)
            dsimp only [redeem_failure]
            rw [(doubleSpent_effect env.now f.voucher c.store).2, if_neg (Ne.symm hfv)]
          | unpaid =>
            refine hkeep _ h.error ?_ rfl (hsub _ rfl rfl)
            intro hm
            rcases (Dict.mem_keys_set _ _ _ _).mp hm with hm | hm
            · exact h.unpaid hm
            · exact hfv hm.symm
          | failed d =>
            refine hkeep _ ?_ h.unpaid rfl (hsub _ rfl rfl)
            exact (Dict.mem_keys_set _ _ _ _).mpr (.inl h.error)
  · intro d ts l hl hm
    rcases step_records cfg c e with hl' | ⟨w, f, rest, n, ht, hs, hl'⟩ |
      ⟨f, ts', rest, row', ht, hrow', hp, _, hl'⟩ | ⟨w, d', a, hl'⟩ |
      ⟨f, pk, us, rest, now, ht, _, hl'⟩ | hl' <;> rw [hl'] at hl
    · have : l = [] := by simpa using hl
      simp [this] at hm
    · rw [← List.append_cancel_left hl] at hm; simp at hm
    · rw [← List.append_cancel_left hl] at hm
      simp only [List.mem_singleton, Happening.sent.injEq] at hm
      exact h.frames f (by simp [frames, ht, taskFrame]) hm.1.symm
    · rw [← List.append_cancel_left hl] at hm; simp at hm
    · rw [← List.append_cancel_left hl] at hm; simp at hm
    · rw [← List.append_cancel_left hl] at hm; simp at hm

theorem errorStuck_run {cfg : RedeemCfg} (events : List RedeemEvent) (he : .crash ∉ events)
    {c : Controller} (hr : RInv cfg c) {v : String} (h : ErrorStuck v c) :
    ∃ l, (c.run cfg events).log = c.log ++ l ∧ ∀ d ts, .sent v d ts ∉ l := by
  induction events generalizing c with
  | nil => exact ⟨[], by simp [Controller.run]⟩
  | cons e es ih =>
    simp only [List.mem_cons, not_or] at he
    obtain ⟨h1, h2⟩ := errorStuck_step hr h e (Ne.symm he.1)
    obtain ⟨l', hl', h2'⟩ := ih he.2 (rinv_step hr e) h1
    obtain ⟨l, hl⟩ := step_log cfg c e
    refine ⟨l ++ l', ?_, ?_⟩
    · show ((c.step cfg e).run cfg es).log = _
      rw [hl', hl, List.append_assoc]
    · intro d ts hm
      rcases List.mem_append.mp hm with hm | hm
      · exact h2 d ts l hl hm
      · exact h2' d ts hm

/-! ### The controller as a user of the store -/

theorem step_op {cfg : RedeemCfg} (c : Controller) (e : RedeemEvent) :
    ∃ ops, (c.step cfg e).store = runStore ops c.store ∧
      ∀ op ∈ ops, ∀ x, IssuesSpendable x op → ∃ f pk us rest, c.todo = .answered f (.success pk us) :: rest ∧
        x ∈ us ∧ pk ∈ cfg.allowed_public_keys := by
  cases e with
  | redeem v n => simp only [Controller.step]; split <;> exact ⟨[], by simp [runStore]⟩
  | timer => simp only [Controller.step]; split <;> exact ⟨[], by simp [runStore]⟩
  | answer i a =>
    simp only [Controller.step]
    split
    · exact ⟨[], by simp [runStore]⟩
    · split <;> exact ⟨[], by simp [runStore]⟩
  | other op =>
    simp only [Controller.step]
    split
    · rename_i hop
      simp only [Bool.and_eq_true] at hop
      refine ⟨[op], rfl, ?_⟩
      intro op' hm x hx
      rw [List.mem_singleton.mp hm] at hx
      cases op <;> simp [IssuesSpendable, notRedeeming] at hx hop
    · exact ⟨[], by simp [runStore]⟩
  | crash => exact ⟨[.restart], rfl, by simp [IssuesSpendable]⟩
  | work env =>
    simp only [Controller.step]
    cases ht : c.todo with
    | nil => exact ⟨[], by simp [runStore]⟩
    | cons task todo =>
      dsimp only
      cases task with
      | redeem w n => simp only [Task.run]; split <;> exact ⟨[], by simp [runStore]⟩
      | retry w =>
        simp only [Task.run]
        split
        · exact ⟨[], by simp [runStore]⟩
        · split
          · exact ⟨[], by simp [runStore]⟩
          · split <;> exact ⟨[], by simp [runStore]⟩
      | iterate f =>
        simp only [Task.run]
        split
        rotate_left
        · exact ⟨[], by simp [runStore]⟩
        unfold get_random_tokens
        cases hg : token_count_for_group cfg.num_redemption_groups f.total f.counter with
        | error e => exact ⟨[], by simp [runStore]⟩
        | ok n =>
          refine ⟨[.add env.order env.now f.voucher f.total f.counter
            (env.random f.voucher f.counter n.toNat)], ?_, by simp [IssuesSpendable]⟩
          simp only [runStore, StoreOp.step, StoreOp.prog, transact_map]
          split <;> (rename_i he; simp [he])
      | perform f ts =>
        simp only [Task.run, contact_issuer]
        split
        · exact ⟨[], by simp [runStore]⟩
        · split <;> exact ⟨[], by simp [runStore]⟩
      | answered f a =>
        simp only [Task.run, resume]
        cases a with
        | success pk us =>
          refine ⟨[.insert env.now f.voucher pk us (f.counter + 1 == cfg.num_redemption_groups)
            (decide (pk ∈ cfg.allowed_public_keys))], ?_, ?_⟩
          · simp only [runStore, StoreOp.step, StoreOp.prog, transact_map, redeem_success]
            split <;> (rename_i he; simp [he])
          · intro op hm x hx
            rw [List.mem_singleton.mp hm] at hx
            simp only [IssuesSpendable, decide_eq_true_eq] at hx
            exact ⟨f, pk, us, todo, rfl, hx⟩
        | alreadySpent =>
          refine ⟨[.doubleSpent env.now f.voucher], ?_, by simp [IssuesSpendable]⟩
          simp [runStore, StoreOp.step, StoreOp.prog, transact_map, redeem_failure]
        | unpaid => exact ⟨[], by simp [runStore, redeem_failure]⟩
        | failed d => exact ⟨[], by simp [runStore, redeem_failure]⟩

/-- Answers waiting to be dealt with have been recorded. -/
def AnswersLogged (c : Controller) : Prop :=
  ∀ f a rest, c.todo = .answered f a :: rest → .answer f.voucher f.counter a ∈ c.log

theorem answersLogged_step {cfg : RedeemCfg} {c : Controller} (hr : RInv cfg c)
    (h : AnswersLogged c) (e : RedeemEvent) : AnswersLogged (c.step cfg e) := by
  intro f a rest et
  cases e with
  | redeem v n =>
    simp only [Controller.step] at et ⊢
    split at et
    · simp at et
    · rename_i hc; rw [if_neg hc]; exact h f a rest et
  | timer =>
    simp only [Controller.step] at et ⊢
    split at et
    · refine (no_answered_calls ?_ et).elim
      intro x hx
      obtain ⟨w, _, rfl⟩ := List.mem_map.mp hx
      rfl
    · rename_i hc; rw [if_neg hc]; exact h f a rest et
  | answer i a' =>
    simp only [Controller.step] at et ⊢
    split at et
    · exact h f a rest et
    · split at et
      · rename_i hc
        rw [if_pos hc]
        simp only [List.cons.injEq, Task.answered.injEq] at et
        obtain ⟨⟨rfl, rfl⟩, rfl⟩ := et
        simp
      · rename_i hc; rw [if_neg hc]; exact h f a rest et
  | other op =>
    simp only [Controller.step] at et ⊢
    split at et
    · rename_i hc; rw [if_pos hc]; exact h f a rest et
    · rename_i hc; rw [if_neg hc]; exact h f a rest et
  | crash => exact (no_answered_calls (check_pending_calls _) et).elim
  | work env =>
    simp only [Controller.step] at et ⊢
    cases ht : c.todo with
    | nil => rw [ht] at et; dsimp only at et; rw [ht] at et; simp at et
    | cons task todo =>
      have hcalls : ∀ x ∈ todo, x.isCall = true := by
        have := hr.calls; rw [ht] at this; simpa using this
      rw [ht] at et
      dsimp only at et
      exfalso
      cases task with
      | redeem w n =>
        simp only [Task.run] at et
        split at et
        · exact no_answered_calls hcalls et
        · exact no_answered_calls hcalls et
        · simp at et
      | retry w =>
        simp only [Task.run] at et
        split at et
        · exact no_answered_calls hcalls et
        · split at et
          · simp at et
          · split at et
            · simp at et
            · exact no_answered_calls hcalls et
      | iterate f =>
        simp only [Task.run] at et
        split at et
        · split at et
          · exact no_answered_calls hcalls et
          · simp at et
        · exact no_answered_calls hcalls et
      | perform f ts =>
        simp only [Task.run, contact_issuer] at et
        split at et
        · exact no_answered_calls hcalls et
        · split at et
          · exact no_answered_calls hcalls et
          · exact no_answered_calls hcalls et
      | answered f a =>
        simp only [Task.run, resume] at et
        cases a with
        | success pk us =>
          dsimp only at et
          split at et
          · exact no_answered_calls hcalls et
          · simp at et
        | alreadySpent => exact no_answered_calls hcalls et
        | unpaid => exact no_answered_calls hcalls et
        | failed d => exact no_answered_calls hcalls et

/-- What a controller does to the store is a sequence of store operations, and tokens become
spendable only by answers with an allowed key. -/
theorem run_ops {cfg : RedeemCfg} (events : List RedeemEvent) {c : Controller} (hr : RInv cfg c)
    (ha : AnswersLogged c) :
    ∃ ops, (c.run cfg events).store = runStore ops c.store ∧
      ∀ op ∈ ops, ∀ x, IssuesSpendable x op → ∃ v d pk us,
        .answer v d (.success pk us) ∈ (c.run cfg events).log ∧ x ∈ us ∧
        pk ∈ cfg.allowed_public_keys := by
  induction events generalizing c with
  | nil => exact ⟨[], by simp [Controller.run, runStore]⟩
  | cons e es ih =>
    obtain ⟨ops, ho, hi⟩ := step_op (cfg := cfg) c e
    obtain ⟨ops', ho', hi'⟩ := ih (rinv_step hr e) (answersLogged_step hr ha e)
    refine ⟨ops ++ ops', ?_, ?_⟩
    · show ((c.step cfg e).run cfg es).store = _
      rw [ho', ho, runStore_append]
    · intro op hm x hx
      rcases List.mem_append.mp hm with hm | hm
      · obtain ⟨f, pk, us, rest, ht, h1, h2⟩ := hi op hm x hx
        have hlog := ha f _ rest ht
        obtain ⟨l, hl⟩ := run_log cfg (e :: es) c
        exact ⟨f.voucher, f.counter, pk, us, by rw [hl]; exact List.mem_append_left _ hlog, h1, h2⟩
      · exact hi' op hm x hx

theorem answersLogged_run {cfg : RedeemCfg} (events : List RedeemEvent) {c : Controller}
    (hr : RInv cfg c) (h : AnswersLogged c) : AnswersLogged (c.run cfg events) := by
  induction events generalizing c with
  | nil => exact h
  | cons e es ih => exact ih (rinv_step hr e) (answersLogged_step hr h e)

end ZKAP
