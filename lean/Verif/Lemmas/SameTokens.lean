import Verif.Lemmas.IssuedValue

/-! Lemmas about the random tokens of requests, with issuers that redeem each group of a voucher for one list of random
tokens. -/
namespace ZKAP
open Spec

structure KeptInv (v : String) (c : Controller) : Prop where
  «open» : ∀ d l₁ ts l₂, c.log = l₁ ++ .sent v d ts :: l₂ → NotStored v d l₂ →
    ts.Perm (select_random_tokens v d c.store)
  same : ∀ d l₁ ts l₂ ts' l₃, c.log = l₁ ++ .sent v d ts :: (l₂ ++ .sent v d ts' :: l₃) →
    NotStored v d l₂ → ts.Perm ts'

theorem keptInv_init (v : String) : KeptInv v {} := by
  constructor <;> simp

theorem KeptInv.keep {v : String} {c c' : Controller} (h : KeptInv v c)
    (hs : ∀ d, select_random_tokens v d c'.store = select_random_tokens v d c.store)
    (hl : c'.log = c.log ∨ ∃ x, c'.log = c.log ++ [x] ∧ Silent v x) : KeptInv v c' := by
  rcases hl with hl | ⟨x, hl, hx⟩
  · exact {
      «open» := fun d l₁ ts l₂ e hn => by rw [hs]; exact h.open d l₁ ts l₂ (hl ▸ e) hn
      same := fun d l₁ ts l₂ ts' l₃ e hn => h.same d l₁ ts l₂ ts' l₃ (hl ▸ e) hn }
  · have hsent : ∀ d ts, x ≠ .sent v d ts := by
      rintro d ts rfl; exact hx rfl
    exact {
      «open» := fun d l₁ ts l₂ e hn => by
        rw [hs]
        rw [hl] at e
        rcases snoc_split e with ⟨_, h2, _⟩ | ⟨l₂', rfl, h2⟩
        · exact absurd h2.symm (hsent d ts)
        · exact h.open d l₁ ts l₂' h2 (fun pk us hm => hn pk us (List.mem_append_left _ hm))
      same := fun d l₁ ts l₂ ts' l₃ e hn => by
        rw [hl, ← List.cons_append, ← List.append_assoc] at e
        rcases snoc_split e with ⟨_, h2, _⟩ | ⟨l₃', rfl, h2⟩
        · exact absurd h2.symm (hsent d ts')
        · exact h.same d l₁ ts l₂ ts' l₃' (by rw [h2]; simp) hn }

theorem keptInv_step {cfg : RedeemCfg} {v : String} {c : Controller} (hr : RInv cfg c) (h : KeptInv v c)
    (hs : ∀ f pk us rest, c.todo = .answered f (.success pk us) :: rest → f.voucher = v → f.counter = rowCounter c.store v)
    (e : RedeemEvent) : KeptInv v (c.step cfg e) := by
  cases e with
  | redeem w n =>
    simp only [Controller.step]
    split
    · exact h.keep (fun _ => rfl) (.inl rfl)
    · exact h
  | timer =>
    simp only [Controller.step]
    split
    · exact h.keep (fun _ => rfl) (.inl rfl)
    · exact h
  | answer i a =>
    simp only [Controller.step]
    split
    · exact h
    · split
      · exact h.keep (fun _ => rfl) (.inr ⟨_, rfl, trivial⟩)
      · exact h
  | other op =>
    simp only [Controller.step]
    split
    · rename_i hop
      simp only [Bool.and_eq_true] at hop
      obtain ⟨h1, h2⟩ := other_effect op hop.2 c.store
      refine h.keep ?_ (.inl rfl)
      intro d
      unfold select_random_tokens
      rw [h1]
    · exact h
  | crash =>
    simp only [Controller.step, StoreOp.step]
    exact h.keep (fun _ => rfl) (.inr ⟨_, rfl, trivial⟩)
  | work env =>
    simp only [Controller.step]
    split
    · exact h
    · rename_i task todo et
      have hk : ∀ l, KeptInv v { c with todo := l } := fun l => h.keep (fun _ => rfl) (.inl rfl)
      cases task with
      | redeem w n =>
        simp only [Task.run]
        split
        · exact hk _
        · exact hk _
        · exact h.keep (fun _ => rfl) (.inr ⟨_, rfl, trivial⟩)
      | retry w =>
        simp only [Task.run]
        split
        · exact hk todo
        · split
          · exact hk []
          · split
            · exact hk _
            · exact hk todo
      | iterate f =>
        simp only [Task.run]
        split
        rotate_left
        · exact hk todo
        unfold get_random_tokens
        cases hg : token_count_for_group cfg.num_redemption_groups f.total f.counter with
        | error e => exact hk todo
        | ok n =>
          dsimp only
          rcases add_effect env.order env.now f.voucher f.total f.counter
              (env.random f.voucher f.counter n.toNat) c.store with
            ⟨err, he⟩ | ⟨ts, he, hp, hne⟩ | ⟨ts, hget, he, hnil⟩
          · rw [he]; exact hk todo
          · rw [he]; exact h.keep (fun _ => rfl) (.inl rfl)
          · rw [he]
            dsimp only
            have hsel := select_added env.now f.voucher f.total f.counter ts c.store
            exact {
              «open» := fun d l₁ ts' l₂ el hn => by
                have h1 := h.open d l₁ ts' l₂ el hn
                rw [hsel]
                by_cases hvd : v = f.voucher ∧ d = f.counter
                · obtain ⟨rfl, rfl⟩ := hvd
                  rw [hnil] at h1
                  have h2 : .sent f.voucher f.counter ts' ∈ c.log := by
                    have : c.log = l₁ ++ .sent f.voucher f.counter ts' :: l₂ := el
                    rw [this]; simp
                  exact absurd (List.perm_nil.mp h1) (hr.nonempty _ _ _ h2)
                · rw [if_neg hvd, List.append_nil]; exact h1
              same := h.same }
      | perform f ts =>
        simp only [Task.run, contact_issuer, get_object_eq]
        cases hrow : voucherRow c.store f.voucher with
        | none => exact hk todo
        | some row =>
          dsimp only
          by_cases hp : row.state = "pending"
          · rw [from_row_pending hp]
            dsimp only
            by_cases hv : f.voucher = v
            · subst hv
              obtain ⟨_, _, _, hperm, _⟩ := hr.perform f ts todo et
              exact {
                «open» := fun d l₁ ts' l₂ el hn => by
                  rcases snoc_split el with ⟨_, h2, _⟩ | ⟨l₂', rfl, h2⟩
                  · simp only [Happening.sent.injEq, true_and] at h2
                    obtain ⟨rfl, rfl⟩ := h2
                    exact hperm
                  · exact h.open d l₁ ts' l₂' h2 (fun pk us hm => hn pk us (List.mem_append_left _ hm))
                same := fun d l₁ ts₁ l₂ ts₂ l₃ el hn => by
                  dsimp only at el
                  rw [← List.cons_append, ← List.append_assoc] at el
                  rcases snoc_split el with ⟨_, h2, h3⟩ | ⟨l₃', rfl, h2⟩
                  · simp only [Happening.sent.injEq, true_and] at h2
                    obtain ⟨rfl, rfl⟩ := h2
                    exact (h.open _ l₁ ts₁ l₂ h3.symm hn).trans hperm.symm
                  · exact h.same d l₁ ts₁ l₂ ts₂ l₃' (by rw [h2]; simp) hn }
            · exact h.keep (fun _ => rfl) (.inr ⟨_, rfl, hv⟩)
          · rcases from_row_other hp with ⟨e, he, hne⟩ | ⟨d, hd⟩ | ⟨d, k, hd⟩
            · rw [he]; exact hk todo
            · rw [hd]; exact hk todo
            · rw [hd]; exact hk todo
      | answered f a =>
        simp only [Task.run, resume]
        cases a with
        | success pk us =>
          dsimp only [redeem_success]
          rcases insert_effect env.now f.voucher pk us (f.counter + 1 == cfg.num_redemption_groups)
              (decide (pk ∈ cfg.allowed_public_keys)) c.store with ⟨err, he⟩ | ⟨row, hrow, he⟩
          · rw [he]
            exact h.keep (fun _ => rfl) (.inl rfl)
          · rw [he]
            dsimp only
            have hsel := select_inserted env.now f.voucher pk us
              (f.counter + 1 == cfg.num_redemption_groups)
              (decide (pk ∈ cfg.allowed_public_keys)) c.store hrow
            by_cases hv : f.voucher = v
            · subst hv
              have hfcount : f.counter = rowCounter c.store f.voucher := hs f pk us todo et rfl
              have hrc : rowCounter c.store f.voucher = row.counter := by
                unfold rowCounter; rw [hrow]; rfl
              exact {
                «open» := fun d l₁ ts l₂ el hn => by
                  rcases snoc_split el with ⟨_, h2, _⟩ | ⟨l₂', rfl, h2⟩
                  · simp at h2
                  · have hd : d ≠ f.counter := fun hd => hn pk us (by simp [hd])
                    rw [hsel, if_neg (by rw [← hrc, ← hfcount]; exact fun hh => hd hh.2)]
                    exact h.open d l₁ ts l₂' h2 (fun pk us hm => hn pk us (List.mem_append_left _ hm))
                same := fun d l₁ ts₁ l₂ ts₂ l₃ el hn => by
                  dsimp only at el
                  rw [← List.cons_append, ← List.append_assoc] at el
                  rcases snoc_split el with ⟨_, h2, h3⟩ | ⟨l₃', rfl, h2⟩
                  · simp at h2
                  · exact h.same d l₁ ts₁ l₂ ts₂ l₃' (by rw [h2]; simp) hn }
            · refine h.keep ?_ (.inr ⟨_, rfl, hv⟩)
              intro d
              dsimp only
              rw [hsel, if_neg (fun hh => hv hh.1.symm)]
        | alreadySpent =>
          refine h.keep ?_ (.inl rfl)
          intro d
          obtain ⟨ht, _⟩ := doubleSpent_effect env.now f.voucher c.store
          dsimp only [redeem_failure]
          unfold select_random_tokens
          rw [ht]
        | unpaid => exact h.keep (fun _ => rfl) (.inl rfl)
        | failed d => exact h.keep (fun _ => rfl) (.inl rfl)

theorem keptInv_issued {L : Ristretto} {cfg : RedeemCfg} {v : String} {es : List RedeemEvent} {c : Controller}
    (real : IssuedRun L cfg c es) (hr : RInv cfg c) (ho : OnceInv L v c) (h : KeptInv v c)
    (once : SignedOnce (c.run cfg es).log) : KeptInv v (c.run cfg es) := by
  induction real with
  | nil => exact h
  | @cons c e es he _ ih =>
    obtain ⟨l, hl⟩ := run_log cfg es (c.step cfg e)
    have : SignedOnce ((c.step cfg e).log ++ l) := by rw [← hl]; exact once
    exact ih (rinv_step hr _) (onceInv_step hr ho he (SignedOnce.prefix this))
      (keptInv_step hr h (fun f pk us rest ht hv => (ho.ready f pk us rest ht hv).1) _) once

end ZKAP
