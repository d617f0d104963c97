import Verif.Lemmas.ControllerSmooth

/-! What a voucher is worth. -/
namespace ZKAP
open Spec

/-- The size of a group, for totals and numbers of groups that make sense. -/
def groupSize (N T c : Nat) : Nat := T / N + if c < T % N then 1 else 0

theorem token_count_eq (N T c : Nat) :
    token_count_for_group N T c =
      if N ≤ T ∧ c < N then .ok (groupSize N T c : Int) else .error .valueError := by
  unfold token_count_for_group
  by_cases h1 : (T : Int) < N
  · rw [if_pos h1, if_neg (by omega)]
  · rw [if_neg h1]
    by_cases h2 : c < N
    · have h2' : ((decide ((c : Int) ≥ N) || decide ((c : Int) < 0)) = true) = False := by
        simp only [Bool.or_eq_true, decide_eq_true_eq, eq_iff_iff, iff_false]; omega
      rw [if_neg (by rw [h2']; exact id), if_neg (by omega)]
      conv => rhs; rw [if_pos ⟨by omega, h2⟩]
      dsimp only
      have hm : (T : Int).fmod N = ((T % N : Nat) : Int) := by
        rw [Int.fmod_eq_emod_of_nonneg _ (by omega)]; exact (Int.natCast_emod T N).symm
      have hd : (T : Int).fdiv N = ((T / N : Nat) : Int) := by
        rw [Int.fdiv_eq_ediv_of_nonneg _ (by omega)]; exact (Int.natCast_ediv T N).symm
      rw [hm, hd, groupSize]
      by_cases h3 : c < T % N
      · rw [if_pos (by exact_mod_cast h3), if_pos h3]; simp
      · rw [if_neg (by exact_mod_cast h3), if_neg h3]; simp
    · have h2' : (decide ((c : Int) ≥ N) || decide ((c : Int) < 0)) = true := by
        simp only [Bool.or_eq_true, decide_eq_true_eq]; omega
      rw [if_pos h2', if_neg (fun h => h2 h.2)]

/-- The tokens of the first groups. -/
def groupsTotal (N T k : Nat) : Nat := ((List.range k).map (groupSize N T)).sum

theorem groupsTotal_succ (N T k : Nat) : groupsTotal N T (k + 1) = groupsTotal N T k + groupSize N T k := by
  simp [groupsTotal, List.range_succ]

theorem groupsTotal_eq (N T k : Nat) : groupsTotal N T k = k * (T / N) + min k (T % N) := by
  induction k with
  | zero => simp [groupsTotal]
  | succ k ih =>
    rw [groupsTotal_succ, ih, groupSize, Nat.succ_mul]
    split <;> omega

theorem groupsTotal_all {N T : Nat} (hN : 0 < N) : groupsTotal N T N = T := by
  rw [groupsTotal_eq]
  have := Nat.mod_lt T hN
  rw [Nat.min_eq_right (by omega)]
  exact Nat.div_add_mod T N

structure TInv (cfg : RedeemCfg) (v : String) (c : Controller) : Prop where
  answered : ∀ f pk us rest, c.todo = .answered f (.success pk us) :: rest → f.voucher = v →
    us.length = groupSize cfg.num_redemption_groups f.total f.counter
  total : ∀ row, voucherRow c.store v = some row →
    tokensStored v c.log = groupsTotal cfg.num_redemption_groups row.expected_tokens row.counter
  complete : ∀ row, voucherRow c.store v = some row → row.state = "redeemed" →
    row.counter = cfg.num_redemption_groups
  reached : ∀ row, voucherRow c.store v = some row → 0 < cfg.num_redemption_groups →
    row.counter = cfg.num_redemption_groups → row.state = "redeemed"

theorem tinv_init (cfg : RedeemCfg) (v : String) : TInv cfg v {} := by
  constructor <;> simp [voucherRow]

theorem TInv.keep {cfg : RedeemCfg} {v : String} {c c' : Controller} (h : TInv cfg v c)
    (ht : ∀ f pk us rest, c'.todo = .answered f (.success pk us) :: rest → f.voucher ≠ v)
    (hr : voucherRow c'.store v = voucherRow c.store v)
    (hl : tokensStored v c'.log = tokensStored v c.log) : TInv cfg v c' where
  answered f pk us rest e hv := absurd hv (ht f pk us rest e)
  total row hrow := by rw [hl]; exact h.total row (hr ▸ hrow)
  complete row hrow := h.complete row (hr ▸ hrow)
  reached row hrow := h.reached row (hr ▸ hrow)

theorem fullAnswers_prefix {v : String} {log l : List Happening}
    (h : FullAnswers v (log ++ l)) : FullAnswers v log :=
  fun l₁ c ts l₂ pk us l₃ e hn => h l₁ c ts l₂ pk us (l₃ ++ l) (by rw [e]; simp) hn

theorem no_answered_calls {l : List Task} (h : ∀ x ∈ l, x.isCall = true) {f : Frame}
    {a : IssuerAnswer} {rest : List Task} (e : l = .answered f a :: rest) : False := by
  subst e; simp [Task.isCall] at h

theorem tokensStored_snoc (v : String) (log : List Happening) (x : Happening)
    (hx : ∀ w d pk us, x = .stored w d pk us → w ≠ v) :
    tokensStored v (log ++ [x]) = tokensStored v log := by
  rw [tokensStored_append]
  cases x <;> simp_all [tokensStored]

theorem tinv_step {cfg : RedeemCfg} {v : String} {c : Controller} (hr : RInv cfg c)
    (hs : ∀ f pk us rest, c.todo = .answered f (.success pk us) :: rest → f.voucher = v → f.counter = rowCounter c.store v)
    (h : TInv cfg v c) (e : RedeemEvent) (hfull : FullAnswers v (c.step cfg e).log) :
    TInv cfg v (c.step cfg e) := by
  cases e with
  | redeem w n =>
    simp only [Controller.step]
    split
    · exact h.keep (by simp) rfl rfl
    · exact h
  | timer =>
    simp only [Controller.step]
    split
    · refine h.keep ?_ rfl rfl
      intro f pk us rest e
      exfalso
      refine no_answered_calls ?_ e
      intro x hx
      obtain ⟨w, _, rfl⟩ := List.mem_map.mp hx
      rfl
    · exact h
  | answer i a =>
    simp only [Controller.step] at hfull ⊢
    split at hfull
    · rename_i hn; exact h
    · rename_i s hsw
      split at hfull
      · rename_i hcall
        rw [if_pos hcall]
        have hsm : s ∈ c.waiting := List.mem_of_getElem? hsw
        obtain ⟨⟨row, hrow, hp, htot⟩, hlt, hperm, l₁, l₂, hlog, hlast⟩ := hr.waiting s hsm
        refine { h with answered := ?_, total := ?_ }
        · intro f pk us rest e hv
          simp only [List.cons.injEq, Task.answered.injEq] at e
          obtain ⟨⟨rfl, rfl⟩, rfl⟩ := e
          subst hv
          have hlen := hfull l₁ s.frame.counter s.tokens l₂ pk us []
            (by dsimp only; rw [hlog]; simp) (fun ts' => hlast _ ts')
          have hne : s.tokens ≠ [] := hr.nonempty s.frame.voucher s.frame.counter _ (by rw [hlog]; simp)
          have hne' : select_random_tokens s.frame.voucher s.frame.counter c.store ≠ [] := by
            intro e; rw [e] at hperm; exact hne (List.perm_nil.mp hperm)
          obtain ⟨row', hrow', hsz⟩ := hr.sizes _ _ hne'
          rw [hrow] at hrow'
          simp only [Option.some.injEq] at hrow'
          subst hrow'
          rw [token_count_eq, htot, ← hperm.length_eq] at hsz
          split at hsz
          · simp only [Except.ok.injEq, Int.natCast_inj] at hsz
            rw [hlen, hsz]
          · simp at hsz
        · intro row' hrow'
          rw [tokensStored_snoc _ _ _ (by simp)]
          exact h.total row' hrow'
      · rename_i hcall
        rw [if_neg hcall]
        exact h
  | other op =>
    simp only [Controller.step]
    split
    · rename_i hop
      simp only [Bool.and_eq_true, List.isEmpty_iff] at hop
      obtain ⟨h1, h2⟩ := other_effect op hop.2 c.store
      refine h.keep (by simp [hop.1]) ?_ rfl
      unfold voucherRow; rw [h2]
    · exact h
  | crash =>
    simp only [Controller.step, StoreOp.step]
    refine h.keep ?_ rfl ?_
    · intro f pk us rest e
      exact (no_answered_calls (check_pending_calls _) e).elim
    · rw [tokensStored_snoc _ _ _ (by simp)]
  | work env =>
    simp only [Controller.step]
    split
    · exact h
    · rename_i task todo et
      have hcalls : ∀ x ∈ todo, x.isCall = true := by
        have := hr.calls; rw [et] at this; simpa using this
      have hdrop : TInv cfg v { c with todo := todo } :=
        h.keep (fun f pk us rest e => (no_answered_calls hcalls e).elim) rfl rfl
      cases task with
      | redeem w n =>
        simp only [Task.run]
        split
        · exact hdrop
        · exact hdrop
        · refine h.keep (by simp) rfl ?_
          rw [tokensStored_snoc _ _ _ (by simp)]
      | retry w =>
        simp only [Task.run]
        split
        · exact hdrop
        · split
          · exact h.keep (by simp) rfl rfl
          · split
            · exact h.keep (by simp) rfl rfl
            · exact hdrop
      | iterate f =>
        simp only [Task.run]
        split
        rotate_left
        · exact hdrop
        unfold get_random_tokens
        cases hg : token_count_for_group cfg.num_redemption_groups f.total f.counter with
        | error e => exact hdrop
        | ok n =>
          dsimp only
          rcases add_effect env.order env.now f.voucher f.total f.counter
              (env.random f.voucher f.counter n.toNat) c.store with
            ⟨err, he⟩ | ⟨ts, he, hp, hne⟩ | ⟨ts, hget, he, hnil⟩
          · rw [he]; exact hdrop
          · rw [he]; exact h.keep (by simp) rfl rfl
          · rw [he]
            dsimp only
            have hrow := voucherRow_added env.now f.voucher f.total f.counter ts c.store v
            by_cases hv : v = f.voucher
            · subst hv
              cases ho : voucherRow c.store f.voucher with
              | some row =>
                refine h.keep (by simp) ?_ rfl
                dsimp only
                rw [hrow, if_pos rfl, ho]; rfl
              | none =>
                rw [if_pos rfl, ho, Option.getD_none] at hrow
                constructor
                · simp
                · intro row hr'
                  dsimp only at hr'
                  rw [hrow, Option.some.injEq] at hr'
                  have := hr.tokens f.voucher
                  rw [rowTokens, ho] at this
                  rw [← hr']
                  simpa [newRow, groupsTotal] using this
                · intro row hr' hst
                  dsimp only at hr'
                  rw [hrow, Option.some.injEq] at hr'
                  rw [← hr'] at hst
                  simp [newRow] at hst
                · intro row hr' hN hc
                  dsimp only at hr'
                  rw [hrow, Option.some.injEq] at hr'
                  rw [← hr'] at hc
                  simp only [newRow] at hc
                  omega
            · refine h.keep (by simp) ?_ rfl
              dsimp only
              rw [hrow, if_neg hv]
      | perform f ts =>
        simp only [Task.run, contact_issuer]
        split
        · exact hdrop
        · split
          · refine h.keep (fun f pk us rest e => (no_answered_calls hcalls e).elim) rfl ?_
            rw [tokensStored_snoc _ _ _ (by simp)]
          · exact hdrop
      | answered f a =>
        have hk : ∀ c' : Controller, c'.todo = todo → voucherRow c'.store v = voucherRow c.store v →
            c'.log = c.log → TInv cfg v c' := by
          intro c' h1 h2 h3
          refine h.keep (fun f pk us rest e => ?_) h2 (by rw [h3])
          rw [h1] at e
          exact (no_answered_calls hcalls e).elim
        simp only [Task.run, resume]
        cases a with
        | success pk us =>
          dsimp only [redeem_success]
          rcases insert_effect env.now f.voucher pk us (f.counter + 1 == cfg.num_redemption_groups)
              (decide (pk ∈ cfg.allowed_public_keys)) c.store with ⟨err, he⟩ | ⟨row, hrow, he⟩
          · rw [he]; exact hk _ rfl rfl rfl
          · rw [he]
            dsimp only
            have hri := voucherRow_inserted env.now f.voucher pk us
              (f.counter + 1 == cfg.num_redemption_groups)
              (decide (pk ∈ cfg.allowed_public_keys)) c.store v
            by_cases hv : v = f.voucher
            · subst hv
              rw [if_pos rfl, hrow, Option.map_some] at hri
              have hlen := h.answered f pk us todo et rfl
              obtain ⟨⟨row', hrow', _, htot⟩, hlt, _⟩ := hr.answered f _ todo et
              rw [hrow, Option.some.injEq] at hrow'
              subst hrow'
              have hfc : f.counter = rowCounter c.store f.voucher := hs f pk us todo et rfl
              have hrc : rowCounter c.store f.voucher = row.counter := by
                unfold rowCounter; rw [hrow]; rfl
              constructor
              · simp
              · intro row' hr'
                dsimp only at hr' ⊢
                rw [hri, Option.some.injEq] at hr'
                rw [← hr', tokensStored_append, h.total row hrow]
                simp only [redeemedRow, tokensStored, if_true]
                rw [groupsTotal_succ, hlen, htot, hfc, hrc]
                omega
              · intro row' hr' hst
                dsimp only at hr' ⊢
                rw [hri, Option.some.injEq] at hr'
                subst hr'
                simp only [redeemedRow] at hst ⊢
                split at hst
                · rename_i hcm
                  simp only [beq_iff_eq] at hcm
                  omega
                · simp at hst
              · intro row' hr' hN hc
                dsimp only at hr' ⊢
                rw [hri, Option.some.injEq] at hr'
                subst hr'
                simp only [redeemedRow] at hc ⊢
                rw [if_pos]
                simp only [beq_iff_eq]
                omega
            · rw [if_neg hv] at hri
              refine h.keep (by simp) hri ?_
              rw [tokensStored_snoc]
              intro w d pk' us' e
              simp only [Happening.stored.injEq] at e
              rw [← e.1]; exact Ne.symm hv
        | alreadySpent =>
          obtain ⟨_, hrd⟩ := doubleSpent_effect env.now f.voucher c.store
          have hv' := hrd v
          dsimp only [redeem_failure]
          generalize (transact (store_mark_double_spent env.now f.voucher) c.store).2 = t at hv'
          by_cases hv : v = f.voucher
          · subst hv
            rw [if_pos rfl] at hv'
            constructor
            · intro f' pk us rest e
              exact (no_answered_calls hcalls e).elim
            · intro row hrow
              dsimp only at hrow ⊢
              rw [hv'] at hrow
              cases ho : voucherRow c.store f.voucher with
              | none => rw [ho] at hrow; simp at hrow
              | some r =>
                rw [ho, Option.map_some, Option.some.injEq] at hrow
                rw [h.total r ho, ← hrow]
                split <;> rfl
            · intro row hrow hst
              dsimp only at hrow ⊢
              rw [hv'] at hrow
              cases ho : voucherRow c.store f.voucher with
              | none => rw [ho] at hrow; simp at hrow
              | some r =>
                rw [ho, Option.map_some, Option.some.injEq] at hrow
                rw [← hrow] at hst ⊢
                split at hst
                · simp at hst
                · rename_i hp
                  rw [if_neg hp]
                  exact h.complete r ho hst
            · intro row hrow hN hc
              dsimp only at hrow ⊢
              rw [hv'] at hrow
              obtain ⟨⟨row', hrow', hp', _⟩, hlt, _⟩ := hr.answered f _ todo et
              rw [hrow', Option.map_some, if_pos hp', Option.some.injEq] at hrow
              rw [← hrow] at hc
              dsimp only at hc
              rw [h.reached row' hrow' hN hc] at hp'
              exact absurd hp' (by decide)
          · rw [if_neg hv] at hv'
            exact hk _ rfl hv' rfl
        | unpaid => exact hk _ rfl rfl rfl
        | failed d => exact hk _ rfl rfl rfl

theorem tinv_run {cfg : RedeemCfg} {v : String} (events : List RedeemEvent) {c : Controller}
    (hr : RInv cfg c) (hs : SInv v c) (h : TInv cfg v c)
    (hno : NoUnpaidRestart v (c.run cfg events).log)
    (hfull : FullAnswers v (c.run cfg events).log) : TInv cfg v (c.run cfg events) := by
  induction events generalizing c with
  | nil => exact h
  | cons e es ih =>
    obtain ⟨l, hl⟩ := run_log cfg es (c.step cfg e)
    have hl' : (c.run cfg (e :: es)).log = (c.step cfg e).log ++ l := hl
    have hno' : NoUnpaidRestart v (c.step cfg e).log := by
      rw [hl'] at hno; exact noUnpaidRestart_prefix hno
    have hfull' : FullAnswers v (c.step cfg e).log := by
      rw [hl'] at hfull; exact fullAnswers_prefix hfull
    exact ih (rinv_step hr e) (sinv_step hr hs e hno') (tinv_step hr
      (fun f pk us rest ht hv => hs.frames f (List.mem_append_right _ (by rw [ht]; simp [taskFrame])) hv) h e hfull') hno hfull

end ZKAP
