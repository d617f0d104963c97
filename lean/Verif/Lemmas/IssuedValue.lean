import Verif.Lemmas.SignedOnce
import Verif.Lemmas.ControllerValue
import Verif.Lemmas.Loss
import Verif.Spec.IssuedValue

/-! Lemmas about what a voucher gives with a real issuer. -/
namespace ZKAP
open Spec

theorem try_map_len {α β ε} {f : α → Except ε β} : ∀ {l : List α} {r : List β}, try_map f l = .ok r → r.length = l.length := by
  intro l
  induction l with
  | nil => intro r h; cases h; rfl
  | cons x xs ih =>
    intro r h
    unfold try_map at h
    cases hx : f x with
    | error e => rw [hx] at h; exact nomatch h
    | ok y =>
      rw [hx] at h
      cases hxs : try_map f xs with
      | error e => rw [hxs] at h; exact nomatch h
      | ok ys =>
        rw [hxs] at h
        cases h
        rw [List.length_cons, List.length_cons, ih hxs]

/-- The client makes one token of each random token, or none at all. -/
theorem answer_length {L : Ristretto} {issuer : RedeemRequest → Option Json} {voucher : String} {counter : Nat}
    {ts : List String} {pk : String} {us : List String}
    (h : to_answer (redeemWithCounter L issuer voucher counter (ts.map ascii)) = .success pk us) : us.length = ts.length := by
  unfold to_answer at h
  split at h
  · rename_i pk' toks he
    cases h
    unfold redeemWithCounter at he
    split at he
    · exact nomatch he
    · rename_i tokens hb
      obtain ⟨result, v, _, _, _, hr⟩ := redeem_response_ok L he
      obtain ⟨proofj, sigsj, sigs, PK, signed, proof, unblinded, _, _, _, _, hpk, _, _, hun, ht⟩ :=
        redeem_succeeded_inv L hr
      obtain ⟨-, hlen, hz⟩ := invalid_or_unblind_some L hun
      unfold basic_random_tokens at hb
      have h1 := try_map_len hb
      have h2 := try_map_len ht
      rw [hz, List.length_zipWith] at h2
      rw [List.length_map] at h1 ⊢
      omega
  · exact nomatch h
  · exact nomatch h
  · exact nomatch h

theorem full_real {L : Ristretto} {cfg : RedeemCfg} {v : String} {c : Controller} (hr : RInv cfg c)
    (h : FullAnswers v c.log) {e : RedeemEvent} (he : RealEvent L c e) : FullAnswers v (c.step cfg e).log := by
  by_cases hq : isAnswer e = false
  · rcases log_no_answer (cfg := cfg) c e hq with hl | ⟨x, hl, hx⟩
    · rw [hl]; exact h
    · rw [hl]; exact fullAnswers_snoc h (fun c pk us hxe => absurd hxe (hx _ _ _))
  · cases e with
    | answer i a =>
      rcases log_answer (cfg := cfg) c i a with hl | ⟨s, hw, hl⟩
      · rw [hl]; exact h
      · rw [hl]
        refine fullAnswers_snoc h ?_
        intro d pk us hx l₁ ts l₂ e hn
        simp only [Happening.answer.injEq] at hx
        obtain ⟨rfl, rfl, rfl⟩ := hx
        obtain ⟨m₁, m₂, hm, hno⟩ := (hr.waiting s (List.mem_of_getElem? hw)).2.2.2
        have : ts = s.tokens :=
          latest_unique (show l₁ ++ .sent _ _ ts :: l₂ = m₁ ++ .sent _ _ s.tokens :: m₂ from e.symm.trans hm) hn
            (fun x => hno _ x)
        rw [this]
        obtain ⟨issuer, ha⟩ := he.answer i pk us rfl s hw
        exact answer_length ha
    | _ => exact absurd rfl hq

theorem full_issued {L : Ristretto} {cfg : RedeemCfg} {v : String} {es : List RedeemEvent} {c : Controller}
    (real : IssuedRun L cfg c es) (hr : RInv cfg c) (h : FullAnswers v c.log) : FullAnswers v (c.run cfg es).log := by
  induction real with
  | nil => exact h
  | cons he _ ih => exact ih (rinv_step hr _) (full_real hr h he)

theorem fullAnswers_nil (v : String) : FullAnswers v [] := by
  intro l₁ c ts l₂ pk us l₃ e
  simp at e

theorem tinv_issued {L : Ristretto} {cfg : RedeemCfg} {v : String} {es : List RedeemEvent} {c : Controller}
    (real : IssuedRun L cfg c es) (hr : RInv cfg c) (ho : OnceInv L v c) (h : TInv cfg v c) (hf : FullAnswers v c.log)
    (once : SignedOnce (c.run cfg es).log) : TInv cfg v (c.run cfg es) := by
  induction real with
  | nil => exact h
  | @cons c e es he _ ih =>
    obtain ⟨l, hl⟩ := run_log cfg es (c.step cfg e)
    have : SignedOnce ((c.step cfg e).log ++ l) := by rw [← hl]; exact once
    have hf' := full_real hr hf he
    exact ih (rinv_step hr _) (onceInv_step hr ho he (SignedOnce.prefix this))
      (tinv_step hr (fun f pk us rest ht hv => (ho.ready f pk us rest ht hv).1) h _ hf') hf' once

/-- Only groups that exist are redeemed. -/
theorem groups_exist {cfg : RedeemCfg} {v : String} (es : List RedeemEvent) : ∀ {c : Controller}, RInv cfg c →
    (∀ g ∈ redeemedGroups v c.log, g < cfg.num_redemption_groups) →
    ∀ g ∈ redeemedGroups v (c.run cfg es).log, g < cfg.num_redemption_groups := by
  induction es with
  | nil => exact fun _ h => h
  | cons e es ih =>
    intro c hr h
    refine ih (c := c.step cfg e) (rinv_step hr e) ?_
    rcases step_records cfg c e with h' | ⟨f, d, rest, n, _, _, h'⟩ | ⟨f, ts', rest, row, ht, _, _, _, h'⟩ | ⟨w, d, a, h'⟩ |
      ⟨f, pk, us, rest, now, ht, hins, h'⟩ | h'
    case inr.inr.inr.inr.inl =>
      intro g hg
      rw [h', redeemedGroups_append] at hg
      rcases List.mem_append.mp hg with hg | hg
      · exact h g hg
      · rw [redeemedGroups] at hg
        split at hg
        · rcases List.mem_cons.mp hg with rfl | hg
          · exact (hr.answered f _ rest ht).2.1
          · exact nomatch hg
        · exact nomatch hg
    all_goals
      first
      | (rw [h']; exact h)
      | (rw [h', redeemedGroups_append]; simpa [redeemedGroups] using h)

theorem groupsTotal_le {N T k : Nat} (hN : 0 < N) (hk : k ≤ N) : groupsTotal N T k ≤ T := by
  rw [groupsTotal_eq]
  have h1 := Nat.mul_le_mul_right (T / N) hk
  have h2 := Nat.div_add_mod T N
  have h3 : min k (T % N) ≤ T % N := Nat.min_le_right ..
  omega

/-- From the invariants to what a voucher gives. -/
theorem gives_of {cfg : RedeemCfg} (hN : 0 < cfg.num_redemption_groups) {v : String} {es : List RedeemEvent}
    (hg : redeemedGroups v (Controller.run cfg {} es).log = List.range (rowCounter (Controller.run cfg {} es).store v))
    (ht : TInv cfg v (Controller.run cfg {} es)) {row : VoucherRow}
    (hrow : voucherRow (Controller.run cfg {} es).store v = some row) :
    GivesItsValue cfg (Controller.run cfg {} es).log row := by
  have hr := rinv_run cfg es (rinv_init cfg)
  have he := groups_exist (v := v) es (rinv_init cfg) (fun g h => nomatch h)
  have hv : row.number = v := voucherRow_number hrow
  subst hv
  generalize Controller.run cfg {} es = c at *
  have hc : rowCounter c.store row.number = row.counter := by unfold rowCounter; rw [hrow]; rfl
  rw [hc] at hg
  have hle : row.counter ≤ cfg.num_redemption_groups := by
    rcases Nat.eq_zero_or_pos row.counter with h0 | h0
    · omega
    · have := he (row.counter - 1) (by rw [hg]; exact List.mem_range.mpr (by omega))
      omega
  have htok := hr.tokens row.number
  rw [rowTokens, hrow] at htok
  simp only [Option.map_some, Option.getD_some] at htok
  have hst : tokensStored row.number c.log ≤ row.expected_tokens := by
    rw [ht.total row hrow]
    exact groupsTotal_le hN hle
  refine ⟨hg, by omega, hst, fun hred => ?_⟩
  have hcomp := ht.complete row hrow hred
  refine ⟨?_, hcomp⟩
  rw [ht.total row hrow, hcomp, groupsTotal_all hN]

end ZKAP
