import Verif.Lemmas.IssuedValue
import Verif.Props.Recurrence

/-! C173: with a real issuer a voucher gives what it is for, and no more. -/
namespace ZKAP
open Spec

/-- **C173**: in the life of a node with fresh random numbers and an issuer that redeems each group of a voucher for one list
of random tokens, every voucher gives its value. -/
theorem C173_value (L : Ristretto) (cfg : RedeemCfg) (hN : 0 < cfg.num_redemption_groups) (v : Int)
    (events : List WholeEvent) (fresh : FreshLife L cfg v {} events)
    (signed : SignedOnce (WholeNode.run cfg (ristretto_signer L) v {} events).redeeming.log) (voucher : String)
    (row : VoucherRow)
    (hrow : voucherRow (WholeNode.run cfg (ristretto_signer L) v {} events).storage.store voucher = some row) :
    GivesItsValue cfg (WholeNode.run cfg (ristretto_signer L) v {} events).redeeming.log row := by
  obtain ⟨es, real, s, t⟩ := as_controller L cfg v events {} rfl fresh
  rw [← t, s] at hrow
  rw [s] at signed ⊢
  have ho := onceInv_run real (rinv_init cfg) (onceInv_init L voucher) signed
  exact gives_of hN ho.groups
    (tinv_issued real (rinv_init cfg) (onceInv_init L voucher) (tinv_init cfg voucher) (fullAnswers_nil _) signed) hrow

/-- **C173**, the other case: whatever the issuer signs, every voucher gives its value that is not started again after it was
called unpaid and some of its groups have been redeemed. -/
theorem C173_value_smooth (L : Ristretto) (cfg : RedeemCfg) (hN : 0 < cfg.num_redemption_groups) (v : Int)
    (events : List WholeEvent) (fresh : FreshLife L cfg v {} events) (voucher : String)
    (smooth : NoUnpaidRestart voucher (WholeNode.run cfg (ristretto_signer L) v {} events).redeeming.log)
    (row : VoucherRow)
    (hrow : voucherRow (WholeNode.run cfg (ristretto_signer L) v {} events).storage.store voucher = some row) :
    GivesItsValue cfg (WholeNode.run cfg (ristretto_signer L) v {} events).redeeming.log row := by
  obtain ⟨es, real, s, t⟩ := as_controller L cfg v events {} rfl fresh
  rw [← t, s] at hrow
  rw [s] at smooth ⊢
  have hf := full_issued real (rinv_init cfg) (fullAnswers_nil voucher)
  exact gives_of hN (sinv_run es (rinv_init cfg) (sinv_init voucher) smooth).groups
    (tinv_run es (rinv_init cfg) (sinv_init voucher) (tinv_init cfg voucher) smooth hf) hrow

/-! ### Examples -/

/-- In `spentLife` a voucher is redeemed. -/
theorem spent_row : ∃ row, voucherRow (twoNode (spentLife (toyGives 1) (toyGives 5))).storage.store "voucher" = some row ∧
    row.state = "redeemed" ∧ row.expected_tokens = 2 := by
  have h : (voucherRow (twoNode (spentLife (toyGives 1) (toyGives 5))).storage.store "voucher").map
    (fun r => (r.state, r.expected_tokens)) = some ("redeemed", 2) := by decide +kernel
  obtain ⟨row, h1, h2⟩ := Option.map_eq_some_iff.mp h
  exact ⟨row, h1, congrArg Prod.fst h2, congrArg Prod.snd h2⟩

/-- It gives two tokens. -/
example : tokensStored "voucher" (twoNode (spentLife (toyGives 1) (toyGives 5))).redeeming.log = 2 := by
  obtain ⟨row, h1, h2, h3⟩ := spent_row
  have h := C173_value_smooth toy twoCfg (by decide) 10 _ spentLife_fresh "voucher" (smooth_of_paid spent_held.2.2 _) row h1
  have hn : row.number = "voucher" := voucherRow_number h1
  have := (h.redeemed h2).1
  rw [hn, h3] at this
  exact this

/-- In `soundLife` a voucher is started again from its first group, with an issuer that does not redeem the group again. -/
theorem sound_row : ∃ row, voucherRow (twoNode soundLife).storage.store "voucher" = some row ∧ row.expected_tokens = 2 := by
  have h : (voucherRow (twoNode soundLife).storage.store "voucher").map (fun r => r.expected_tokens) = some 2 := by
    decide +kernel
  exact Option.map_eq_some_iff.mp h

example : tokensStored "voucher" (twoNode soundLife).redeeming.log ≤ 2 := by
  obtain ⟨row, h1, h2⟩ := sound_row
  have h := C173_value toy twoCfg (by decide) 10 soundLife soundLife_fresh (signedOnce_of sound_held.2.2.1) "voucher" row h1
  have hn : row.number = "voucher" := voucherRow_number h1
  have := h.limit
  rw [hn, h2] at this
  exact this

/-- With an issuer that redeems the group again, the voucher gives more than it is for: the condition on the issuer is
needed. -/
example : FreshLife toy twoCfg 10 {} backLife ∧ 2 < tokensStored "voucher" (twoNode backLife).redeeming.log ∧
    (voucherRow (twoNode backLife).storage.store "voucher").map (fun r => r.expected_tokens) = some 2 :=
  ⟨backLife_fresh, by decide +kernel, by decide +kernel⟩

end ZKAP
