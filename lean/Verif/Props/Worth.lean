import Verif.Lemmas.Worth
import Verif.Props.Balance
import Verif.Props.IssuedValue

/-! C175: a node gets no more than its vouchers are for. -/
namespace ZKAP
open Spec

/-- **C175** for a storage client, with tokens from anywhere and passes made in any way: it sends no more different passes
than its vouchers are recorded to have given, over all restarts. -/
theorem C175_client (sign : Signer) (works : Signs sign) (one : OnePreimage sign) (v : Int) (hv : 0 < v)
    (events : List SessionEvent) (fresh : NoReissueIn sign v {} events) (passes : List Bytes)
    (h : DifferentPasses (sessionAfter sign v events).log passes) :
    passes.length ≤ givenByVouchers (sessionAfter sign v events).store := by
  obtain ⟨l, hl⟩ := given_run works hv events (sessionInv_init sign v) fresh (given_init sign)
  exact given_limit one hl h

/-- **C175** for a node: it sends no more different passes than its vouchers are recorded to have given. -/
theorem C175_node (L : Ristretto) (hL : Lawful L) (hS : Sound L) (k : L.Scalar) (cfg : RedeemCfg) (keys : OnlyKey L k cfg)
    (v : Int) (hv : 0 < v) (events : List WholeEvent) (real : RealLife L cfg v {} events) (passes : List Bytes)
    (h : DifferentPasses (WholeNode.run cfg (ristretto_signer L) v {} events).storage.log passes) :
    passes.length ≤ givenByVouchers (WholeNode.run cfg (ristretto_signer L) v {} events).storage.store := by
  obtain ⟨history, hh⟩ := own_history L k cfg keys v events real
  obtain ⟨h1, -, h3⟩ := bought_all L hL hS hh.bought v
  rw [← hh.run, h1] at h ⊢
  exact C175_client _ (each_signs _) (each_onePreimage L hL) v hv history (h3 hh.reissue) passes h

theorem each_row (L : Ristretto) (cfg : RedeemCfg) (v : Int) (events : List WholeEvent)
    (fresh : FreshLife L cfg v {} events) (wf : StoreWF (WholeNode.run cfg (ristretto_signer L) v {} events).storage.store)
    (gives : ∀ voucher row, voucherRow (WholeNode.run cfg (ristretto_signer L) v {} events).storage.store voucher = some row →
      GivesItsValue cfg (WholeNode.run cfg (ristretto_signer L) v {} events).redeeming.log row) :
    givenByVouchers (WholeNode.run cfg (ristretto_signer L) v {} events).storage.store ≤
      worth (WholeNode.run cfg (ristretto_signer L) v {} events).storage.store ∧
    ((∀ row ∈ (WholeNode.run cfg (ristretto_signer L) v {} events).storage.store.app.vouchers, row.state = "redeemed") →
      givenByVouchers (WholeNode.run cfg (ristretto_signer L) v {} events).storage.store =
        worth (WholeNode.run cfg (ristretto_signer L) v {} events).storage.store) := by
  have row : ∀ row ∈ (WholeNode.run cfg (ristretto_signer L) v {} events).storage.store.app.vouchers,
      GivesItsValue cfg (WholeNode.run cfg (ristretto_signer L) v {} events).redeeming.log row := fun r hr =>
    gives r.number r (voucherRow_of_mem wf hr)
  constructor
  · refine sum_le_sum _ _ _ fun r hr => ?_
    have := row r hr
    rw [this.shown]
    exact this.limit
  · intro all
    refine congrArg List.sum (List.map_congr_left fun r hr => ?_)
    have := row r hr
    rw [this.shown]
    exact (this.redeemed (all r hr)).1

/-- **C175**: with fresh random numbers and an issuer that redeems each group of a voucher for one list of random tokens,
a node sends in its life no more different passes than its vouchers are for, together; what it has paid and what it has left
are no more than that, and exactly that if all its vouchers are redeemed. -/
theorem C175_worth (L : Ristretto) (hL : Lawful L) (hS : Sound L) (k : L.Scalar) (cfg : RedeemCfg) (keys : OnlyKey L k cfg)
    (hN : 0 < cfg.num_redemption_groups) (v : Int) (hv : 0 < v) (events : List WholeEvent)
    (fresh : FreshLife L cfg v {} events)
    (signed : SignedOnce (WholeNode.run cfg (ristretto_signer L) v {} events).redeeming.log) :
    NoMoreThanWorth (WholeNode.run cfg (ristretto_signer L) v {} events).storage.store
      (WholeNode.run cfg (ristretto_signer L) v {} events).storage.log (nodePaidIn cfg (ristretto_signer L) v {} events) := by
  have real := C171_real_life L hL cfg v events fresh signed
  have hb := C174_node L hL hS k cfg keys v hv events real
  obtain ⟨h1, h2⟩ := each_row L cfg v events fresh (node_shifts L hL hS k cfg keys v hv events .crash real).1
    fun voucher row => C173_value L cfg hN v events fresh signed voucher row
  unfold Balanced at hb
  exact ⟨fun ps h => Nat.le_trans (C175_node L hL hS k cfg keys v hv events real ps h) h1, hb ▸ h1, fun h => hb ▸ h2 h⟩

/-- **C175**, the other case: any issuer, if no voucher that it called unpaid is started again after some of its groups have
been redeemed. -/
theorem C175_worth_smooth (L : Ristretto) (hL : Lawful L) (hS : Sound L) (k : L.Scalar) (cfg : RedeemCfg)
    (keys : OnlyKey L k cfg) (hN : 0 < cfg.num_redemption_groups) (v : Int) (hv : 0 < v) (events : List WholeEvent)
    (fresh : FreshLife L cfg v {} events)
    (smooth : ∀ w, NoUnpaidRestart w (WholeNode.run cfg (ristretto_signer L) v {} events).redeeming.log) :
    NoMoreThanWorth (WholeNode.run cfg (ristretto_signer L) v {} events).storage.store
      (WholeNode.run cfg (ristretto_signer L) v {} events).storage.log (nodePaidIn cfg (ristretto_signer L) v {} events) := by
  have real := C171_real_life_smooth L hL cfg v events fresh smooth
  have hb := C174_node L hL hS k cfg keys v hv events real
  obtain ⟨h1, h2⟩ := each_row L cfg v events fresh (node_shifts L hL hS k cfg keys v hv events .crash real).1
    fun voucher row => C173_value_smooth L cfg hN v events fresh voucher (smooth voucher) row
  unfold Balanced at hb
  exact ⟨fun ps h => Nat.le_trans (C175_node L hL hS k cfg keys v hv events real ps h) h1, hb ▸ h1, fun h => hb ▸ h2 h⟩

/-! ### Examples -/

/-- In `spentLife` a node redeems a voucher for two tokens and spends both. -/
theorem spent_worth : worth (twoNode (spentLife (toyGives 1) (toyGives 5))).storage.store = 2 := by decide +kernel

example : NoMoreThanWorth (twoNode (spentLife (toyGives 1) (toyGives 5))).storage.store
    (twoNode (spentLife (toyGives 1) (toyGives 5))).storage.log 2 := by
  have h := C175_worth_smooth toy toy_lawful toy_sound (3 : Fin 6) twoCfg toyCfg_key (by decide) 10 (by decide) _ spentLife_fresh
    (smooth_of_paid spent_held.2.2)
  rw [spent_books.2] at h
  exact h

/-- It sends two different passes: the limit is reached. -/
theorem spent_sent : (((twoNode (spentLife (toyGives 1) (toyGives 5))).storage.log.flatMap fun x =>
    match x with
    | .sent _ r => preimages r
    | _ => []).eraseDups).length = 2 := by decide +kernel

theorem spent_sent_nodup : (((twoNode (spentLife (toyGives 1) (toyGives 5))).storage.log.flatMap fun x =>
    match x with
    | .sent _ r => preimages r
    | _ => []).eraseDups).Nodup := by decide +kernel

example : ∃ passes, DifferentPasses (twoNode (spentLife (toyGives 1) (toyGives 5))).storage.log passes ∧ passes.length = 2 := by
  refine ⟨_, ⟨spent_sent_nodup, fun b hb => ?_⟩, spent_sent⟩
  obtain ⟨x, hx, hb⟩ := List.mem_flatMap.mp (List.mem_eraseDups.mp hb)
  split at hb
  · exact ⟨_, _, hx, hb⟩
  · exact nomatch hb

/-- With an issuer that redeems a group again for other random tokens, a node gets more than its voucher is for: the condition
on the issuer is needed. -/
example : worth (twoNode backLife).storage.store = 2 ∧ 2 < givenByVouchers (twoNode backLife).storage.store := by
  decide +kernel

end ZKAP
