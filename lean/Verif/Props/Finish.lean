import Verif.Props.Controller
import Verif.Lemmas.Finish

/-!
C120: once nothing goes wrong any more, every pending voucher is redeemed.

The past is a list of `RedeemEvent`s of any kind.  Then the node is started again, and from then on
only two things happen: the node does its work, and the issuer signs what it is asked to sign.
-/
namespace ZKAP
open Spec

/-- The node, started again after a history. -/
def restartedAfter (cfg : RedeemCfg) (history : List RedeemEvent) : Controller :=
  (controllerAfter cfg history).step cfg .crash

theorem restartedAfter_inv (cfg : RedeemCfg) (history : List RedeemEvent) :
    RInv cfg (restartedAfter cfg history) := rinv_step (controllerAfter_inv cfg history) .crash

/-- **C120** as stated: a pending voucher has been redeemed when the node has nothing left to do,
after a restart from which on nothing goes wrong. -/
def C120_statement : Prop :=
  ∀ (cfg : RedeemCfg) (history events : List RedeemEvent) (v : String) (row : VoucherRow),
    voucherRow (controllerAfter cfg history).store v = some row → row.state = "pending" →
    SmoothRun cfg (restartedAfter cfg history) events →
    Idle ((restartedAfter cfg history).run cfg events) →
    ∃ row', voucherRow ((restartedAfter cfg history).run cfg events).store v = some row' ∧
      row'.state = "redeemed"

/-- Reported unpaid, one group redeemed, a failure, and the same group redeemed again. -/
def exStuck : List RedeemEvent :=
  exUnpaid ++ [.answer 0 (.success "key" ["d", "e", "f"]), .work (exEnv "t")]

/-- Two pieces of work. -/
def exStuckEvents : List RedeemEvent :=
  [.work (freshEnv (restartedAfter exRedeemCfg exStuck).store),
    .work (freshEnv (restartedAfter exRedeemCfg exStuck).store)]

/-- **C120** does not hold: a voucher whose first group has been redeemed twice, as happens after a
report that it is unpaid, has all of its groups counted, but is pending.  No restart changes this. -/
theorem C120_stuck_fails : ¬ C120_statement := by
  intro h
  have := h exRedeemCfg exStuck exStuckEvents "v"
    { number := "v", created := "p", state := "pending", finished := some "t", token_count := some 6,
      counter := 2, expected_tokens := 5, sequestered_count := 0 }
    (by decide +kernel) (by decide +kernel)
    ⟨by decide +kernel, freshEnv_fresh _, by decide +kernel, freshEnv_fresh _, trivial⟩
    ⟨by decide +kernel, by decide +kernel⟩
  obtain ⟨row', h1, h2⟩ := this
  have h3 : (voucherRow ((restartedAfter exRedeemCfg exStuck).run exRedeemCfg exStuckEvents).store "v").map
      (·.state) = some "pending" := by decide +kernel
  rw [h1] at h3
  simp only [Option.map_some, Option.some.injEq] at h3
  rw [h3] at h2
  exact absurd h2 (by decide)

/-- **C120**, for vouchers with groups left, after every history. -/
theorem C120_groups_left_partial (cfg : RedeemCfg) (history events : List RedeemEvent) (v : String)
    (row : VoucherRow) (hrow : voucherRow (controllerAfter cfg history).store v = some row)
    (hp : row.state = "pending") (hlt : row.counter < cfg.num_redemption_groups)
    (hs : SmoothRun cfg (restartedAfter cfg history) events)
    (hi : Idle ((restartedAfter cfg history).run cfg events)) :
    ∃ row', voucherRow ((restartedAfter cfg history).run cfg events).store v = some row' ∧
      row'.state = "redeemed" := by
  have hr := controllerAfter_inv cfg history
  have hl : RowsLarge cfg (restartedAfter cfg history) :=
    rowsLarge_run [.crash] (rowsLarge_run history (by intro v row h; simp [voucherRow] at h))
  obtain ⟨hsm, hret⟩ := crash_smooth hr
  exact cared_idle (smooth_run events (restartedAfter_inv cfg history) hl hsm hret
    (crash_cared hr hrow hp hlt) hs) hi

/-- **C120**, for vouchers that are not begun again after a report that they are unpaid, once a group
of them has been redeemed.  Missing: those that are (C32). -/
theorem C120_redeemed_partial (cfg : RedeemCfg) (history events : List RedeemEvent) (v : String)
    (row : VoucherRow) (hN : 0 < cfg.num_redemption_groups)
    (hno : NoUnpaidRestart v (controllerAfter cfg history).log)
    (hrow : voucherRow (controllerAfter cfg history).store v = some row)
    (hp : row.state = "pending")
    (hs : SmoothRun cfg (restartedAfter cfg history) events)
    (hi : Idle ((restartedAfter cfg history).run cfg events)) :
    ∃ row', voucherRow ((restartedAfter cfg history).run cfg events).store v = some row' ∧
      row'.state = "redeemed" :=
  C120_groups_left_partial cfg history events v row hrow hp
    (pendingShort_run hN history (rinv_init cfg) (sinv_init v)
      (by intro row h; simp [voucherRow] at h) hno row hrow hp) hs hi

/-- **C120**: the work comes to an end, and it is not much: with `N` groups, there are at most
`4 N + 2` events for each pending voucher.  This is for every history. -/
theorem C120_bounded (cfg : RedeemCfg) (history events : List RedeemEvent)
    (hs : SmoothRun cfg (restartedAfter cfg history) events) :
    events.length ≤
      pendingVouchers (controllerAfter cfg history).store * (4 * cfg.num_redemption_groups + 2) := by
  have := smooth_bounded events (restartedAfter_inv cfg history) hs
  have hw := crash_weight (controllerAfter_inv cfg history)
  unfold restartedAfter at this
  omega

/-- **C120**: as long as the node is not idle something can happen, whatever random tokens and
whatever signatures there will be. -/
theorem C120_goes_on (cfg : RedeemCfg) (c : Controller) (env : Env) (pk : String) (us : List String)
    (hi : ¬ Idle c) (he : FreshRandom env c.store) (hu : NewTokens us c.store) :
    SmoothRun cfg c [.work env] ∨ SmoothRun cfg c [.answer 0 (.success pk us)] := by
  by_cases ht : c.todo = []
  · right
    refine ⟨?_, by rw [ht]; rfl, hu, trivial⟩
    refine List.length_pos_iff.mpr fun hw => hi ⟨ht, hw⟩
  · exact .inl ⟨ht, he, trivial⟩

/-- **C120**: such runs exist after every history, and end with an idle node. -/
theorem C120_finishes (cfg : RedeemCfg) (history : List RedeemEvent) :
    ∃ events, SmoothRun cfg (restartedAfter cfg history) events ∧
      Idle ((restartedAfter cfg history).run cfg events) :=
  smooth_exists cfg "key" _ _ (restartedAfter_inv cfg history) (Nat.le_refl _)

/-! ### Example -/

/-- After the first group the node crashes; then the voucher is redeemed. -/
example : ∃ events row, SmoothRun exRedeemCfg (restartedAfter exRedeemCfg exFirst) events ∧
    Idle ((restartedAfter exRedeemCfg exFirst).run exRedeemCfg events) ∧ events.length ≤ 10 ∧
    voucherRow ((restartedAfter exRedeemCfg exFirst).run exRedeemCfg events).store "v" = some row ∧
    row.state = "redeemed" := by
  obtain ⟨events, hs, hi⟩ := C120_finishes exRedeemCfg exFirst
  obtain ⟨row, h1, h2⟩ := C120_groups_left_partial exRedeemCfg exFirst events "v"
    { number := "v", created := "p", state := "pending", finished := some "q", token_count := some 3,
      counter := 1, expected_tokens := 5, sequestered_count := 0 }
    (by decide +kernel) (by decide +kernel) (by decide +kernel) hs hi
  have hb := C120_bounded exRedeemCfg exFirst events hs
  have hc : pendingVouchers (controllerAfter exRedeemCfg exFirst).store = 1 := by decide +kernel
  rw [hc] at hb
  exact ⟨events, row, hs, hi, hb, h1, h2⟩

/-- The whole of it, event by event. -/
example :
    (voucherRow ((restartedAfter exRedeemCfg exFirst).run exRedeemCfg
      ([.work (freshEnv (controllerAfter exRedeemCfg exFirst).store),
        .work (freshEnv (controllerAfter exRedeemCfg exFirst).store),
        .work (freshEnv (controllerAfter exRedeemCfg exFirst).store),
        .answer 0 (.success "key" ["d", "e"]), .work (exEnv "s"), .work (exEnv "s")])).store "v").map
      (fun r => (r.state, r.token_count)) = some ("redeemed", some 5) := by decide +kernel

end ZKAP
