import Verif.Spec.Configurations
import Verif.Lemmas.Finish

/-! Lemmas about nodes whose configuration changes. -/
namespace ZKAP
open Spec

theorem RInv.congr {cfg cfg' : RedeemCfg} {c : Controller} (h : RInv cfg c)
    (hg : cfg.num_redemption_groups = cfg'.num_redemption_groups) : RInv cfg' c where
  wf := h.wf
  nodup := h.nodup
  active := h.active
  waiting := by rw [← hg]; exact h.waiting
  answered := by rw [← hg]; exact h.answered
  iterate := h.iterate
  perform := by rw [← hg]; exact h.perform
  calls := h.calls
  rows := h.rows
  unpaid := h.unpaid
  counter := h.counter
  tokens := h.tokens
  sizes := by rw [← hg]; exact h.sizes
  nonempty := h.nonempty

theorem rinv_period {groups : Nat} {p q : Period} {c : Controller} (h : RInv (q.cfg groups) c) :
    RInv (p.cfg groups) (c.period groups p) :=
  rinv_run _ _ (rinv_step (cfg := p.cfg groups) (h.congr rfl) .crash)

theorem periods_snoc (groups : Nat) (c : Controller) (ps : List Period) (p : Period) :
    c.periods groups (ps ++ [p]) = (c.periods groups ps).period groups p := by
  simp [Controller.periods]

theorem periods_append (groups : Nat) (c : Controller) (ps qs : List Period) :
    c.periods groups (ps ++ qs) = (c.periods groups ps).periods groups qs := by
  simp [Controller.periods]

theorem rinv_periods (groups : Nat) (ps : List Period) {c : Controller} {q : Period}
    (h : RInv (q.cfg groups) c) : RInv (q.cfg groups) (c.periods groups ps) := by
  induction ps generalizing c with
  | nil => exact h
  | cons p ps ih => exact ih ((rinv_period h).congr rfl)

theorem rinv_node (groups : Nat) (ps : List Period) (q : Period) :
    RInv (q.cfg groups) (nodeAfter groups ps) := rinv_periods groups ps (rinv_init _)

theorem wf_node (groups : Nat) (ps : List Period) : StoreWF (nodeAfter groups ps).store :=
  (rinv_node groups ps ⟨0, [], []⟩).wf

/-! ### Answers of the process that runs -/

/-- An answer that is about to be dealt with was so before, or has just come. -/
theorem answered_step {cfg : RedeemCfg} {c : Controller} (hr : RInv cfg c) (e : RedeemEvent)
    {f : Frame} {a : IssuerAnswer} {rest : List Task} (et : (c.step cfg e).todo = .answered f a :: rest) :
    c.todo = .answered f a :: rest ∨
      (c.step cfg e).log = c.log ++ [.answer f.voucher f.counter a] := by
  cases e with
  | redeem v n =>
    simp only [Controller.step] at et ⊢
    split at et
    · simp at et
    · exact .inl et
  | timer =>
    simp only [Controller.step] at et ⊢
    split at et
    · refine (no_answered_calls ?_ et).elim
      intro x hx
      obtain ⟨w, _, rfl⟩ := List.mem_map.mp hx
      rfl
    · exact .inl et
  | answer i a' =>
    simp only [Controller.step] at et ⊢
    split at et
    · exact .inl et
    · split at et
      · rename_i hc
        right
        rw [if_pos hc]
        simp only [List.cons.injEq, Task.answered.injEq] at et
        obtain ⟨⟨rfl, rfl⟩, rfl⟩ := et
        rfl
      · exact .inl et
  | other op =>
    simp only [Controller.step] at et ⊢
    split at et
    · exact .inl et
    · exact .inl et
  | crash => exact (no_answered_calls (check_pending_calls _) et).elim
  | work env =>
    simp only [Controller.step] at et ⊢
    cases ht : c.todo with
    | nil => rw [ht] at et; dsimp only at et; rw [ht] at et; simp at et
    | cons task todo =>
      have hcalls : ∀ x ∈ todo, x.isCall = true := by
        have := hr.calls; rw [ht] at this; simpa using this
      rw [ht] at et
      dsimp only at et
      exfalso
      cases task with
      | redeem w n =>
        simp only [Task.run] at et
        split at et
        · exact no_answered_calls hcalls et
        · exact no_answered_calls hcalls et
        · simp at et
      | retry w =>
        simp only [Task.run] at et
        split at et
        · exact no_answered_calls hcalls et
        · split at et
          · simp at et
          · split at et
            · simp at et
            · exact no_answered_calls hcalls et
      | iterate f =>
        simp only [Task.run] at et
        split at et
        · split at et
          · exact no_answered_calls hcalls et
          · simp at et
        · exact no_answered_calls hcalls et
      | perform f ts =>
        simp only [Task.run, contact_issuer] at et
        split at et
        · exact no_answered_calls hcalls et
        · split at et
          · exact no_answered_calls hcalls et
          · exact no_answered_calls hcalls et
      | answered f a =>
        simp only [Task.run, resume] at et
        cases a with
        | success pk us =>
          dsimp only at et
          split at et
          · exact no_answered_calls hcalls et
          · simp at et
        | alreadySpent => exact no_answered_calls hcalls et
        | unpaid => exact no_answered_calls hcalls et
        | failed d => exact no_answered_calls hcalls et

/-- An answer that is about to be dealt with came after the record was `base`. -/
def AnswersSince (base : List Happening) (c : Controller) : Prop :=
  ∃ new, c.log = base ++ new ∧
    ∀ f a rest, c.todo = .answered f a :: rest → .answer f.voucher f.counter a ∈ new

theorem answersSince_step {cfg : RedeemCfg} {base : List Happening} {c : Controller} (hr : RInv cfg c)
    (h : AnswersSince base c) (e : RedeemEvent) : AnswersSince base (c.step cfg e) := by
  obtain ⟨new, hn, hw⟩ := h
  obtain ⟨l, hl⟩ := step_log cfg c e
  refine ⟨new ++ l, by rw [hl, hn, List.append_assoc], ?_⟩
  intro f a rest et
  rcases answered_step hr e et with h | h
  · exact List.mem_append_left _ (hw f a rest h)
  · have : l = [.answer f.voucher f.counter a] := List.append_cancel_left (hl.symm.trans h)
    rw [this]
    simp

theorem run_ops_since {cfg : RedeemCfg} {base : List Happening} (events : List RedeemEvent)
    {c : Controller} (hr : RInv cfg c) (ha : AnswersSince base c) :
    ∃ ops new, (c.run cfg events).store = runStore ops c.store ∧ (c.run cfg events).log = base ++ new ∧
      ∀ op ∈ ops, ∀ x, IssuesSpendable x op → ∃ v d pk us,
        .answer v d (.success pk us) ∈ new ∧ x ∈ us ∧ pk ∈ cfg.allowed_public_keys := by
  induction events generalizing c with
  | nil =>
    obtain ⟨new, hn, _⟩ := ha
    exact ⟨[], new, by simp [Controller.run, runStore], hn, by simp⟩
  | cons e es ih =>
    obtain ⟨ops, ho, hi⟩ := step_op (cfg := cfg) c e
    obtain ⟨ops', new', ho', hn', hi'⟩ := ih (rinv_step hr e) (answersSince_step hr ha e)
    obtain ⟨new, hn, hw⟩ := ha
    refine ⟨ops ++ ops', new', ?_, hn', ?_⟩
    · show ((c.step cfg e).run cfg es).store = _
      rw [ho', ho, runStore_append]
    · intro op hm x hx
      rcases List.mem_append.mp hm with hm | hm
      · obtain ⟨f, pk, us, rest, ht, h1, h2⟩ := hi op hm x hx
        have hlog := hw f _ rest ht
        obtain ⟨l, hl⟩ := run_log cfg (e :: es) c
        have : new' = new ++ l := by
          have h3 : base ++ new' = base ++ (new ++ l) := by
            rw [← List.append_assoc, ← hn, ← hl]
            exact hn'.symm
          exact List.append_cancel_left h3
        exact ⟨f.voucher, f.counter, pk, us, by rw [this]; exact List.mem_append_left _ hlog, h1, h2⟩
      · exact hi' op hm x hx

/-- What a process does to the store. -/
theorem period_ops (groups : Nat) (c : Controller) {q : Period} (h : RInv (q.cfg groups) c) (p : Period) :
    ∃ ops new, (c.period groups p).store = runStore ops (StoreOp.restart.step c.store).2 ∧
      (c.period groups p).log = c.log ++ new ∧
      ∀ op ∈ ops, ∀ x, IssuesSpendable x op → ∃ v d pk us,
        .answer v d (.success pk us) ∈ new ∧ x ∈ us ∧ pk ∈ p.allowed_public_keys := by
  have hr := rinv_step (cfg := p.cfg groups) (h.congr rfl) .crash
  refine run_ops_since (cfg := p.cfg groups) p.events hr ⟨[.restarted], rfl, ?_⟩
  intro f a rest et
  exact (no_answered_calls (check_pending_calls _) et).elim

/-- Who stored a token as spendable. -/
theorem stored_by (groups : Nat) (ps : List Period) {x : String}
    (hx : StoredIn (nodeAfter groups ps).store.app true x) :
    ∃ before p later pk, ps = before ++ p :: later ∧ SentTo groups before p pk x ∧
      pk ∈ p.allowed_public_keys := by
  obtain ⟨n, hn⟩ : ∃ n, ps.length = n := ⟨_, rfl⟩
  induction n generalizing ps with
  | zero =>
    cases List.length_eq_zero_iff.mp hn
    simp [nodeAfter, Controller.periods, StoredIn] at hx
  | succ n ih =>
    rcases List.eq_nil_or_concat ps with rfl | ⟨ps', p, rfl⟩
    · simp at hn
    rw [List.concat_eq_append] at hx hn ⊢
    have hr := rinv_node groups ps' p
    obtain ⟨ops, new, ho, hlog, hi⟩ := period_ops groups _ hr p
    have hnode : nodeAfter groups (ps' ++ [p]) = (nodeAfter groups ps').period groups p :=
      periods_snoc groups {} ps' p
    by_cases hold : StoredIn (nodeAfter groups ps').store.app true x
    · obtain ⟨before, q, later, pk, rfl, h1, h2⟩ := ih ps' hold (by simpa using hn)
      exact ⟨before, q, later ++ [p], pk, by simp, h1, h2⟩
    · by_cases hiss : ∃ op ∈ ops, IssuesSpendable x op
      · obtain ⟨op, hm, hio⟩ := hiss
        obtain ⟨v, d, pk, us, h1, h2, h3⟩ := hi op hm x hio
        exact ⟨ps', p, [], pk, rfl, ⟨new, v, d, us, hnode ▸ hlog, h1, h2⟩, h3⟩
      · exfalso
        rw [hnode, ho] at hx
        exact gone_run ops (fun op hm hc => hiss ⟨op, hm, hc⟩) (step_wf_store hr.wf .restart) hold hx

/-! ### Sequestered tokens -/

/-- Which calls of the store are not the controller's own. -/
theorem step_op_uses {cfg : RedeemCfg} (c : Controller) (e : RedeemEvent) :
    ∃ ops, (c.step cfg e).store = runStore ops c.store ∧
      ∀ op ∈ ops, ∀ x, UsesUp x op → e = .other op := by
  cases e with
  | redeem v n => simp only [Controller.step]; split <;> exact ⟨[], by simp [runStore]⟩
  | timer => simp only [Controller.step]; split <;> exact ⟨[], by simp [runStore]⟩
  | answer i a =>
    simp only [Controller.step]
    split
    · exact ⟨[], by simp [runStore]⟩
    · split <;> exact ⟨[], by simp [runStore]⟩
  | other op =>
    simp only [Controller.step]
    split
    · refine ⟨[op], rfl, ?_⟩
      intro op' hm x hx
      rw [List.mem_singleton.mp hm]
    · exact ⟨[], by simp [runStore]⟩
  | crash => exact ⟨[.restart], rfl, by simp [UsesUp]⟩
  | work env =>
    simp only [Controller.step]
    cases ht : c.todo with
    | nil => exact ⟨[], by simp [runStore]⟩
    | cons task todo =>
      dsimp only
      cases task with
      | redeem w n => simp only [Task.run]; split <;> exact ⟨[], by simp [runStore]⟩
      | retry w =>
        simp only [Task.run]
        split
        · exact ⟨[], by simp [runStore]⟩
        · split
          · exact ⟨[], by simp [runStore]⟩
          · split <;> exact ⟨[], by simp [runStore]⟩
      | iterate f =>
        simp only [Task.run]
        split
        rotate_left
        · exact ⟨[], by simp [runStore]⟩
        unfold get_random_tokens
        cases hg : token_count_for_group cfg.num_redemption_groups f.total f.counter with
        | error e => exact ⟨[], by simp [runStore]⟩
        | ok n =>
          refine ⟨[.add env.order env.now f.voucher f.total f.counter
            (env.random f.voucher f.counter n.toNat)], ?_, by simp [UsesUp]⟩
          simp only [runStore, StoreOp.step, StoreOp.prog, transact_map]
          split <;> (rename_i he; simp [he])
      | perform f ts =>
        simp only [Task.run, contact_issuer]
        split
        · exact ⟨[], by simp [runStore]⟩
        · split <;> exact ⟨[], by simp [runStore]⟩
      | answered f a =>
        simp only [Task.run, resume]
        cases a with
        | success pk us =>
          refine ⟨[.insert env.now f.voucher pk us (f.counter + 1 == cfg.num_redemption_groups)
            (decide (pk ∈ cfg.allowed_public_keys))], ?_, by simp [UsesUp]⟩
          simp only [runStore, StoreOp.step, StoreOp.prog, transact_map, redeem_success]
          split <;> (rename_i he; simp [he])
        | alreadySpent =>
          refine ⟨[.doubleSpent env.now f.voucher], ?_, by simp [UsesUp]⟩
          simp [runStore, StoreOp.step, StoreOp.prog, transact_map, redeem_failure]
        | unpaid => exact ⟨[], by simp [runStore, redeem_failure]⟩
        | failed d => exact ⟨[], by simp [runStore, redeem_failure]⟩

theorem not_bad_step {t : Tables} {x : String} {op : StoreOp} (hu : ¬ UsesUp x op)
    (h : x ∉ t.app.invalid.map (·.token)) (hw : StoreWF t) : x ∉ (op.step t).2.app.invalid.map (·.token) := by
  by_cases hn : Neutral op
  · rw [(step_neutral hn t).2.2.1]
    exact h
  cases op with
  | insert now v pk ts c s =>
    rw [step_insert]
    split
    · exact h
    · split
      · exact h
      · exact h
  | getTokens o n =>
    rw [step_getTokens hw]
    split <;> exact h
  | discard ts => rw [step_discard hw]; exact h
  | invalidate reason ts =>
    rw [step_invalidate]
    split
    · simp only [List.map_append, List.map_map, List.mem_append, not_or]
      refine ⟨h, ?_⟩
      intro hm
      obtain ⟨y, hy, rfl⟩ := List.mem_map.mp hm
      exact hu hy
    · exact h
  | reset ts => rw [step_reset hw]; exact h
  | restart => exact h
  | add => exact absurd trivial hn
  | doubleSpent => exact absurd trivial hn
  | maintStart => exact absurd trivial hn
  | maintObserve => exact absurd trivial hn
  | maintFinish => exact absurd trivial hn

/-- A stored token stays where it is until a storage call reports it. -/
theorem unreported_step {t : Tables} {b : Bool} {x : String} {op : StoreOp} (hu : ¬ UsesUp x op)
    (hi : x ∉ t.app.invalid.map (·.token)) (hw : StoreWF t) (h : StoredIn t.app b x) :
    StoredIn (op.step t).2.app b x := by
  by_cases hn : Neutral op
  · rw [(step_neutral hn t).stored]
    exact h
  cases op with
  | insert now v pk ts c s =>
    rw [step_insert]
    split
    · exact h
    · split
      · rw [storedIn_inserted hw]
        exact .inr h
      · exact h
  | getTokens o n =>
    rw [step_getTokens hw]
    split <;> exact h
  | discard ts =>
    rw [step_discard hw, storedIn_filter]
    exact ⟨h, hu⟩
  | invalidate reason ts =>
    rw [step_invalidate]
    split
    · refine (storedIn_filter t.app b x (t.app.invalid.map (·.token) ++ ts)).mpr ⟨h, ?_⟩
      simp only [List.mem_append, not_or]
      exact ⟨hi, hu⟩
    · exact h
  | reset ts => rw [step_reset hw]; exact h
  | restart => exact h
  | add => exact absurd trivial hn
  | doubleSpent => exact absurd trivial hn
  | maintStart => exact absurd trivial hn
  | maintObserve => exact absurd trivial hn
  | maintFinish => exact absurd trivial hn

theorem stored_runStore {b : Bool} {x : String} (ops : List StoreOp) {t : Tables}
    (hu : ∀ op ∈ ops, ¬ UsesUp x op) (hw : StoreWF t) (hi : x ∉ t.app.invalid.map (·.token)) :
    x ∉ (runStore ops t).app.invalid.map (·.token) ∧
      (StoredIn t.app b x → StoredIn (runStore ops t).app b x) := by
  induction ops generalizing t with
  | nil => exact ⟨hi, id⟩
  | cons op ops ih =>
    have h1 := hu op (List.mem_cons_self ..)
    obtain ⟨h2, h3⟩ := ih (t := (op.step t).2) (fun o ho => hu o (List.mem_cons_of_mem _ ho))
      (step_wf_store hw op) (not_bad_step h1 hi hw)
    exact ⟨h2, fun h => h3 (unreported_step h1 hi hw h)⟩

theorem run_ops_uses {cfg : RedeemCfg} (events : List RedeemEvent) (c : Controller) :
    ∃ ops, (c.run cfg events).store = runStore ops c.store ∧
      ∀ op ∈ ops, ∀ x, UsesUp x op → .other op ∈ events := by
  induction events generalizing c with
  | nil => exact ⟨[], by simp [Controller.run, runStore]⟩
  | cons e es ih =>
    obtain ⟨ops, ho, hi⟩ := step_op_uses (cfg := cfg) c e
    obtain ⟨ops', ho', hi'⟩ := ih (c.step cfg e)
    refine ⟨ops ++ ops', ?_, ?_⟩
    · show ((c.step cfg e).run cfg es).store = _
      rw [ho', ho, runStore_append]
    · intro op hm x hx
      rcases List.mem_append.mp hm with hm | hm
      · rw [hi op hm x hx]
        exact List.mem_cons_self ..
      · exact List.mem_cons_of_mem _ (hi' op hm x hx)

theorem stored_periods (groups : Nat) {b : Bool} {x : String} (qs : List Period) {c : Controller} {q : Period}
    (hr : RInv (q.cfg groups) c) (hu : NeverUsed qs x) (hi : x ∉ c.store.app.invalid.map (·.token)) :
    x ∉ (c.periods groups qs).store.app.invalid.map (·.token) ∧
      (StoredIn c.store.app b x → StoredIn (c.periods groups qs).store.app b x) := by
  induction qs generalizing c with
  | nil => exact ⟨hi, id⟩
  | cons p qs ih =>
    obtain ⟨ops, ho, hx⟩ := run_ops_uses (cfg := p.cfg groups) p.events (c.step (p.cfg groups) .crash)
    have hr' := rinv_step (cfg := p.cfg groups) (hr.congr rfl) .crash
    obtain ⟨h1, h2⟩ := stored_runStore (b := b) (x := x) ops
      (fun op hm hc => hu p (List.mem_cons_self ..) op (hx op hm x hc) hc) hr'.wf hi
    rw [← ho] at h1 h2
    obtain ⟨h3, h4⟩ := ih (c := c.period groups p) ((rinv_period hr).congr rfl)
      (fun p' hp => hu p' (List.mem_cons_of_mem _ hp)) h1
    exact ⟨h3, fun h => h4 (h2 h)⟩

/-! ### What vouchers are worth -/

theorem row_kept_step {cfg : RedeemCfg} (c : Controller) (e : RedeemEvent) {v : String} {row : VoucherRow}
    (h : voucherRow c.store v = some row) :
    ∃ row', voucherRow (c.step cfg e).store v = some row' ∧ row'.expected_tokens = row.expected_tokens := by
  rcases row_step (cfg := cfg) c e v with hs | ⟨f, rest, now, _, _, hnone, _, _⟩ |
      ⟨f, pk, us, rest, now, row', _, _, hrow', hs⟩ | ⟨f, rest, now, row', _, _, hrow', _, hs⟩
  · exact ⟨row, hs.trans h, rfl⟩
  · rw [h] at hnone; simp at hnone
  · rw [h] at hrow'; cases hrow'
    exact ⟨_, hs, rfl⟩
  · rw [h] at hrow'; cases hrow'
    exact ⟨_, hs, rfl⟩

theorem row_kept_run {cfg : RedeemCfg} (events : List RedeemEvent) (c : Controller) {v : String}
    {row : VoucherRow} (h : voucherRow c.store v = some row) :
    ∃ row', voucherRow (c.run cfg events).store v = some row' ∧ row'.expected_tokens = row.expected_tokens := by
  induction events generalizing c row with
  | nil => exact ⟨row, h, rfl⟩
  | cons e es ih =>
    obtain ⟨r1, h1, e1⟩ := row_kept_step (cfg := cfg) c e h
    obtain ⟨r2, h2, e2⟩ := ih (c.step cfg e) h1
    exact ⟨r2, h2, e2.trans e1⟩

theorem row_kept_periods (groups : Nat) (qs : List Period) (c : Controller) {v : String}
    {row : VoucherRow} (h : voucherRow c.store v = some row) :
    ∃ row', voucherRow (c.periods groups qs).store v = some row' ∧
      row'.expected_tokens = row.expected_tokens := by
  induction qs generalizing c row with
  | nil => exact ⟨row, h, rfl⟩
  | cons p qs ih =>
    obtain ⟨r1, h1, e1⟩ := row_kept_run (cfg := p.cfg groups) p.events (c.step (p.cfg groups) .crash) (row := row) h
    obtain ⟨r2, h2, e2⟩ := ih (c.period groups p) h1
    exact ⟨r2, h2, e2.trans e1⟩

/-- While a voucher is unknown, the numbers of tokens it may be entered with. -/
def Entering (cfg : RedeemCfg) (A : Nat → Prop) (v : String) (c : Controller) : Prop :=
  voucherRow c.store v = none →
    (∀ m, .redeem v m ∈ c.todo → A (m.getD cfg.default_token_count)) ∧
    (∀ f rest, c.todo = .iterate f :: rest → f.voucher = v → A f.total)

theorem unknown_before {cfg : RedeemCfg} (c : Controller) (e : RedeemEvent) {v : String}
    (h : voucherRow (c.step cfg e).store v = none) : voucherRow c.store v = none := by
  cases hc : voucherRow c.store v with
  | none => rfl
  | some row =>
    obtain ⟨r, hr, _⟩ := row_kept_step (cfg := cfg) c e hc
    rw [h] at hr
    simp at hr

theorem no_iterate_calls {l : List Task} (h : ∀ x ∈ l, x.isCall = true) {f : Frame} {rest : List Task}
    (e : l = .iterate f :: rest) : False := by
  subst e; simp [Task.isCall] at h

theorem get_voucher_unknown {c : Controller} {w : String} (h : voucherRow c.store w = none) :
    get_voucher c w = .error .keyError := by
  unfold get_voucher
  rw [get_object_eq, h]

theorem entering_step {cfg : RedeemCfg} {A : Nat → Prop} {v : String} {c : Controller} (hr : RInv cfg c)
    (h : Entering cfg A v c) (e : RedeemEvent)
    (he : ∀ m, e = .redeem v m → A (m.getD cfg.default_token_count)) :
    Entering cfg A v (c.step cfg e) := by
  intro hn
  have hn0 := unknown_before c e hn
  obtain ⟨h1, h2⟩ := h hn0
  cases e with
  | redeem w n =>
    simp only [Controller.step]
    split
    · refine ⟨?_, by simp⟩
      intro m hm
      simp only [List.mem_singleton, Task.redeem.injEq] at hm
      exact he m (by rw [hm.1, hm.2])
    · exact ⟨h1, h2⟩
  | timer =>
    simp only [Controller.step]
    split
    · refine ⟨?_, ?_⟩
      · intro m hm
        obtain ⟨w, _, hw⟩ := List.mem_map.mp hm
        simp at hw
      · intro f rest et
        have : Task.iterate f ∈ retry_redemption c := by
          rw [show retry_redemption c = .iterate f :: rest from et]; exact List.mem_cons_self ..
        obtain ⟨w, _, hw⟩ := List.mem_map.mp this
        simp at hw
    · exact ⟨h1, h2⟩
  | answer i a =>
    simp only [Controller.step]
    split
    · exact ⟨h1, h2⟩
    · split
      · refine ⟨fun m hm => ?_, by simp⟩
        simp only [List.mem_cons, reduceCtorEq, false_or] at hm
        exact h1 m hm
      · exact ⟨h1, h2⟩
  | other op =>
    simp only [Controller.step]
    split
    · exact ⟨h1, h2⟩
    · exact ⟨h1, h2⟩
  | crash =>
    have hr' := rinv_step hr .crash
    have hmem := check_pending_mem hr'.wf hr'.rows
    refine ⟨?_, ?_⟩
    · intro m hm
      obtain ⟨w, row, hrow, _, e⟩ := (hmem _).mp hm
      simp only [Task.redeem.injEq] at e
      rw [← e.1, hn] at hrow
      simp at hrow
    · intro f rest et
      obtain ⟨w, row, _, _, e⟩ := (hmem (.iterate f)).mp (by
        have : (c.step cfg .crash).todo = .iterate f :: rest := et
        show _ ∈ (c.step cfg .crash).todo
        rw [this]; exact List.mem_cons_self ..)
      simp at e
  | work env =>
    simp only [Controller.step]
    cases et : c.todo with
    | nil => dsimp only; rw [et]; simp
    | cons task todo =>
      rw [et] at h1 h2
      have hcalls : ∀ x ∈ todo, x.isCall = true := by
        have := hr.calls; rw [et] at this; simpa using this
      have hpop : ∀ m, Task.redeem v m ∈ todo → A (m.getD cfg.default_token_count) :=
        fun m hm => h1 m (List.mem_cons_of_mem _ hm)
      have hhead : ∀ f rest, todo = .iterate f :: rest → f.voucher = v → A f.total := by
        intro f rest ht
        have := hcalls (.iterate f) (by rw [ht]; exact List.mem_cons_self ..)
        simp [Task.isCall] at this
      dsimp only
      cases task with
      | redeem w n =>
        simp only [Task.run]
        split
        · exact ⟨hpop, hhead⟩
        · exact ⟨hpop, hhead⟩
        · rename_i f hs
          obtain ⟨hv, hcase⟩ := redeem_start_some hs
          refine ⟨fun m hm => ?_, ?_⟩
          · simp only [List.mem_cons, reduceCtorEq, false_or] at hm
            exact hpop m hm
          · intro f' rest e hf
            simp only [List.cons.injEq, Task.iterate.injEq] at e
            obtain ⟨rfl, _⟩ := e
            have hwv : w = v := hv.symm.trans hf
            subst hwv
            rcases hcase with ⟨_, ht, _⟩ | ⟨row, hrow, _⟩
            · rw [ht]
              exact h1 n (List.mem_cons_self ..)
            · rw [show voucherRow c.store w = some row from hrow] at hn0
              simp at hn0
      | retry w =>
        simp only [Task.run]
        split
        · exact ⟨hpop, hhead⟩
        · split
          · simp
          · rename_i obj hg
            split
            · refine ⟨fun m hm => ?_, by simp⟩
              simp only [List.mem_cons, Task.redeem.injEq] at hm
              rcases hm with ⟨rfl, rfl⟩ | hm
              · rw [get_voucher_unknown (c := { c with todo := todo }) hn0] at hg
                simp at hg
              · exact hpop m hm
            · exact ⟨hpop, hhead⟩
      | iterate f =>
        simp only [Task.run]
        split
        · split
          · exact ⟨hpop, hhead⟩
          · refine ⟨fun m hm => ?_, by simp⟩
            simp only [List.mem_cons, reduceCtorEq, false_or] at hm
            exact hpop m hm
        · exact ⟨hpop, hhead⟩
      | perform f ts =>
        simp only [Task.run, contact_issuer]
        split
        · exact ⟨hpop, hhead⟩
        · split
          · exact ⟨hpop, hhead⟩
          · exact ⟨hpop, hhead⟩
      | answered f a =>
        have hfit := (hr.answered f a todo et).1
        simp only [Task.run, resume]
        cases a with
        | success pk us =>
          dsimp only
          split
          · exact ⟨hpop, hhead⟩
          · refine ⟨fun m hm => ?_, ?_⟩
            · simp only [List.mem_cons, reduceCtorEq, false_or] at hm
              exact hpop m hm
            · intro f' rest e hf
              simp only [List.cons.injEq, Task.iterate.injEq] at e
              obtain ⟨rfl, _⟩ := e
              obtain ⟨row, hrow, _⟩ := hfit
              rw [show f.voucher = v from hf, hn0] at hrow
              simp at hrow
        | alreadySpent => exact ⟨hpop, hhead⟩
        | unpaid => exact ⟨hpop, hhead⟩
        | failed d => exact ⟨hpop, hhead⟩

/-- A voucher that becomes known is entered with one of these numbers. -/
theorem entered_step {cfg : RedeemCfg} {A : Nat → Prop} {v : String} {c : Controller}
    (h : Entering cfg A v c) (e : RedeemEvent) {row : VoucherRow} (hn : voucherRow c.store v = none)
    (hrow : voucherRow (c.step cfg e).store v = some row) : A row.expected_tokens := by
  obtain ⟨_, h2⟩ := h hn
  rcases row_step (cfg := cfg) c e v with hs | ⟨f, rest, now, ht, hv, _, _, hs⟩ |
      ⟨f, pk, us, rest, now, row', _, _, hrow', hs⟩ | ⟨f, rest, now, row', _, _, hrow', _, hs⟩
  · rw [hs, hn] at hrow; simp at hrow
  · rw [hs] at hrow; cases hrow
    exact h2 f rest ht hv
  · rw [hn] at hrow'; simp at hrow'
  · rw [hn] at hrow'; simp at hrow'

theorem entered_run {cfg : RedeemCfg} {A : Nat → Prop} {v : String} (events : List RedeemEvent)
    {c : Controller} (hr : RInv cfg c) (h : Entering cfg A v c)
    (he : ∀ m, .redeem v m ∈ events → A (m.getD cfg.default_token_count)) {row : VoucherRow}
    (hn : voucherRow c.store v = none) (hrow : voucherRow (c.run cfg events).store v = some row) :
    A row.expected_tokens := by
  induction events generalizing c with
  | nil => rw [show c.run cfg [] = c from rfl, hn] at hrow; simp at hrow
  | cons e es ih =>
    cases hc : voucherRow (c.step cfg e).store v with
    | none =>
      exact ih (rinv_step hr e) (entering_step hr h e (fun m hm => he m (by rw [hm]; exact List.mem_cons_self ..)))
        (fun m hm => he m (List.mem_cons_of_mem _ hm)) hc hrow
    | some r =>
      obtain ⟨r', h1, h2⟩ := row_kept_run (cfg := cfg) es (c.step cfg e) hc
      rw [show (c.step cfg e).run cfg es = c.run cfg (e :: es) from rfl, hrow] at h1
      cases h1
      rw [h2]
      exact entered_step h e hn hc

end ZKAP
