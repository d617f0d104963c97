import Verif.Props.Finish
import Verif.Lemmas.RecoverRedeem

/-!
C129: the vouchers of a recovered database are redeemed.

`source` is what the lost node went through, as far as its replica knows; `before` is what the new node
went through until it recovered the replica.
-/
namespace ZKAP
open Spec

/-- The new node when it has recovered the replica. -/
def nodeRecovered (cfg : RedeemCfg) (before source : List RedeemEvent) : Controller :=
  (controllerAfter cfg before).recovered (controllerAfter cfg source).store.app

/-- The new node has nothing to do, and no vouchers. -/
def NewNode (cfg : RedeemCfg) (before : List RedeemEvent) : Prop :=
  (controllerAfter cfg before).todo = [] ∧ (controllerAfter cfg before).store.app.vouchers = []

/-- **C129** as stated: nobody has to do anything for a pending voucher of the recovered database to be
redeemed in the end. -/
def C129_statement : Prop :=
  ∀ (cfg : RedeemCfg) (before source : List RedeemEvent) (v : String),
    NewNode cfg before → NotSubmitted v before →
    InState (controllerAfter cfg source) v "pending" →
    ∃ events, LeftAlone v events ∧ InState ((nodeRecovered cfg before source).run cfg events) v "redeemed"

theorem recovered_eq {cfg : RedeemCfg} {before : List RedeemEvent} (hn : NewNode cfg before)
    (source : List RedeemEvent) :
    nodeRecovered cfg before source =
      { controllerAfter cfg before with
        store := { (controllerAfter cfg before).store with app := (controllerAfter cfg source).store.app } } := by
  unfold nodeRecovered Controller.recovered
  rw [if_pos (by rw [hn.1, hn.2]; rfl)]

/-- A node that has vouchers, or is busy, is not recovered: it stays as it is. -/
theorem C129_not_new (cfg : RedeemCfg) (before source : List RedeemEvent) (h : ¬ NewNode cfg before) :
    nodeRecovered cfg before source = controllerAfter cfg before := by
  unfold nodeRecovered Controller.recovered
  rw [if_neg]
  intro hc
  simp only [Bool.and_eq_true, List.isEmpty_iff] at hc
  exact h hc

theorem recovered_ignored {cfg : RedeemCfg} {before : List RedeemEvent} {v : String} (hn : NewNode cfg before)
    (hb : NotSubmitted v before) (source : List RedeemEvent) : Ignored v (nodeRecovered cfg before source) := by
  have h := ignored_history (cfg := cfg) (v := v) before (rinv_init cfg)
    ⟨by simp, by simp, by simp [Dict.keys], by simp [Dict.keys]⟩ rfl hb
  rw [recovered_eq hn]
  exact ⟨h.todo, h.waiting, h.error, h.unpaid⟩

theorem recovered_row {cfg : RedeemCfg} {before : List RedeemEvent} (hn : NewNode cfg before)
    (source : List RedeemEvent) (v : String) :
    voucherRow (nodeRecovered cfg before source).store v = voucherRow (controllerAfter cfg source).store v := by
  rw [recovered_eq hn]; rfl

/-- Left alone, the voucher stays exactly as it was recovered, and the issuer is not asked about it:
whatever replica, whatever voucher, whatever else happens and however long it takes. -/
theorem C129_never (cfg : RedeemCfg) (before source events : List RedeemEvent) (v : String)
    (hn : NewNode cfg before) (hb : NotSubmitted v before) (hl : LeftAlone v events) :
    voucherRow ((nodeRecovered cfg before source).run cfg events).store v =
        voucherRow (controllerAfter cfg source).store v ∧
      ∀ g ts, .sent v g ts ∈ ((nodeRecovered cfg before source).run cfg events).log →
        .sent v g ts ∈ (nodeRecovered cfg before source).log := by
  have h := recovered_ignored hn hb source
  refine ⟨(ignored_run events h hl).2.trans (recovered_row hn source v), ?_⟩
  intro g ts hm
  refine Classical.byContradiction fun hc => ?_
  exact ignored_sent events h hl g ts hc hm

/-- **C129** does not hold: the controller looks for vouchers to redeem when it is created, and is not
told of the recovery. -/
theorem C129_fails : ¬ C129_statement := by
  intro h
  obtain ⟨events, hl, row, hrow, hs⟩ := h exRedeemCfg [] exFirst "v" ⟨rfl, rfl⟩ (by simp [NotSubmitted])
    ⟨_, rfl, rfl⟩
  have hv := (C129_never exRedeemCfg [] exFirst events "v" ⟨rfl, rfl⟩ (by simp [NotSubmitted]) hl).1
  rw [hrow] at hv
  have hp : (voucherRow (controllerAfter exRedeemCfg exFirst).store "v").map (·.state) = some "pending" := by
    decide +kernel
  rw [← hv] at hp
  simp only [Option.map_some, Option.some.injEq] at hp
  rw [hp] at hs
  exact absurd hs (by decide)

/-- The new node has not dealt with any voucher, and no token is in use. -/
structure Untouched (cfg : RedeemCfg) (before : List RedeemEvent) : Prop where
  todo : (controllerAfter cfg before).todo = []
  vouchers : (controllerAfter cfg before).store.app.vouchers = []
  waiting : (controllerAfter cfg before).waiting = []
  active : (controllerAfter cfg before).active = []
  error : (controllerAfter cfg before).error = []
  unpaid : (controllerAfter cfg before).unpaid = []
  in_use : (controllerAfter cfg before).store.temp.in_use = []

/-- The recovered node, but for its record. -/
def takenOver (cfg : RedeemCfg) (source : List RedeemEvent) : Controller :=
  { store := { app := (controllerAfter cfg source).store.app, temp := {} },
    log := (controllerAfter cfg source).log ++ [.restarted] }

theorem recovered_taken_over {cfg : RedeemCfg} {before : List RedeemEvent} (hu : Untouched cfg before)
    (source : List RedeemEvent) :
    nodeRecovered cfg before source =
      { takenOver cfg source with log := (controllerAfter cfg before).log } := by
  rw [recovered_eq ⟨hu.todo, hu.vouchers⟩]
  have hwf := (controllerAfter_inv cfg before).wf
  have ht : (controllerAfter cfg before).store.temp = {} := by
    have h1 := hu.in_use
    have h2 := hwf.to_discard
    have h3 := hwf.to_reset
    cases hx : (controllerAfter cfg before).store.temp with
    | mk a b d => rw [hx] at h1 h2 h3; simp only at h1 h2 h3; rw [h1, h2, h3]
  have h1 := hu.todo
  have h2 := hu.waiting
  have h3 := hu.active
  have h4 := hu.error
  have h5 := hu.unpaid
  cases hx : controllerAfter cfg before with
  | mk s e u a w t l =>
    rw [hx] at h1 h2 h3 h4 h5 ht
    simp only at h1 h2 h3 h4 h5 ht
    subst h1 h2 h3 h4 h5
    simp only [takenOver, ht]

theorem takenOver_inv (cfg : RedeemCfg) (source : List RedeemEvent) : RInv cfg (takenOver cfg source) :=
  taken_over_inv (controllerAfter_inv cfg source) rfl

theorem takenOver_large (cfg : RedeemCfg) (source : List RedeemEvent) : RowsLarge cfg (takenOver cfg source) := by
  have : RowsLarge cfg (controllerAfter cfg source) :=
    rowsLarge_run source (by intro v row h; simp [voucherRow] at h)
  exact this

/-- **C129**, for nodes that are started again: whatever else has happened since the recovery, if from
then on the issuer signs what it is asked to sign the voucher has been redeemed when the node has nothing
left to do.  Vouchers with groups left, that is all but those of C120. -/
theorem C129_restarted_partial (cfg : RedeemCfg) (before source meanwhile events : List RedeemEvent) (v : String)
    (row : VoucherRow) (hu : Untouched cfg before) (hb : NotSubmitted v before)
    (hrow : voucherRow (controllerAfter cfg source).store v = some row) (hp : row.state = "pending")
    (hlt : row.counter < cfg.num_redemption_groups) (hm : LeftAlone v meanwhile)
    (hs : SmoothRun cfg (((nodeRecovered cfg before source).run cfg meanwhile).step cfg .crash) events)
    (hi : Idle ((((nodeRecovered cfg before source).run cfg meanwhile).step cfg .crash).run cfg events)) :
    InState ((((nodeRecovered cfg before source).run cfg meanwhile).step cfg .crash).run cfg events) v
      "redeemed" := by
  have hv := (C129_never cfg before source meanwhile v ⟨hu.todo, hu.vouchers⟩ hb hm).1
  rw [recovered_taken_over hu] at hs hi hv ⊢
  obtain ⟨l1, h1⟩ := run_mod_log cfg meanwhile (takenOver cfg source) (controllerAfter cfg before).log
  rw [h1] at hs hi hv ⊢
  obtain ⟨l2, h2⟩ := step_mod_log cfg ((takenOver cfg source).run cfg meanwhile) l1 .crash
  rw [h2] at hs hi ⊢
  have hr := rinv_run cfg meanwhile (takenOver_inv cfg source)
  have hl := rowsLarge_run [.crash] (rowsLarge_run meanwhile (takenOver_large cfg source))
  obtain ⟨hsm, hret⟩ := crash_smooth hr
  have hc := crash_cared hr (hv.trans hrow) hp hlt
  have hs' := smoothRun_mod_log cfg events _ (((takenOver cfg source).run cfg meanwhile).step cfg .crash).log hs
  obtain ⟨l3, h3⟩ := run_mod_log cfg events (((takenOver cfg source).run cfg meanwhile).step cfg .crash) l2
  rw [h3] at hi ⊢
  exact cared_idle (smooth_run events (rinv_step hr .crash) hl hsm hret hc hs') hi

/-- **C129**, for vouchers that are submitted once more after the recovery: a restart is not needed. -/
theorem C129_submitted_partial (cfg : RedeemCfg) (before source events : List RedeemEvent) (v : String)
    (n : Option Nat) (row : VoucherRow) (hu : Untouched cfg before)
    (hrow : voucherRow (controllerAfter cfg source).store v = some row) (hp : row.state = "pending")
    (hlt : row.counter < cfg.num_redemption_groups)
    (hs : SmoothRun cfg ((nodeRecovered cfg before source).step cfg (.redeem v n)) events)
    (hi : Idle (((nodeRecovered cfg before source).step cfg (.redeem v n)).run cfg events)) :
    InState (((nodeRecovered cfg before source).step cfg (.redeem v n)).run cfg events) v "redeemed" := by
  rw [recovered_taken_over hu] at hs hi ⊢
  obtain ⟨l2, h2⟩ := step_mod_log cfg (takenOver cfg source) (controllerAfter cfg before).log (.redeem v n)
  rw [h2] at hs hi ⊢
  have hr := takenOver_inv cfg source
  have hl := rowsLarge_run [.redeem v n] (takenOver_large cfg source)
  have hs' := smoothRun_mod_log cfg events _ ((takenOver cfg source).step cfg (.redeem v n)).log hs
  obtain ⟨l3, h3⟩ := run_mod_log cfg events ((takenOver cfg source).step cfg (.redeem v n)) l2
  rw [h3] at hi ⊢
  have hst : (takenOver cfg source).step cfg (.redeem v n) = { takenOver cfg source with todo := [.redeem v n] } := rfl
  have hsm : Smooth ((takenOver cfg source).step cfg (.redeem v n)) :=
    ⟨rfl, rfl, by intro f a rest e; rw [hst] at e; simp at e⟩
  have hc : Cared cfg v ((takenOver cfg source).step cfg (.redeem v n)) :=
    ⟨row, hrow, .inr ⟨hp, hlt, .inl ⟨by rw [hst]; simp [busy, takenOver, resumed], ⟨n, by simp [hst]⟩,
      by rw [hst]; simp [frames, takenOver, taskFrame]⟩⟩⟩
  exact cared_idle (smooth_run events (rinv_step hr _) hl hsm (by simp [hst]) hc hs') hi

/-- Such runs exist, with every replica and whatever happens in between. -/
theorem C129_finishes (cfg : RedeemCfg) (before source meanwhile : List RedeemEvent) (hu : Untouched cfg before) :
    ∃ events, SmoothRun cfg (((nodeRecovered cfg before source).run cfg meanwhile).step cfg .crash) events ∧
      Idle ((((nodeRecovered cfg before source).run cfg meanwhile).step cfg .crash).run cfg events) := by
  rw [recovered_taken_over hu]
  obtain ⟨l1, h1⟩ := run_mod_log cfg meanwhile (takenOver cfg source) (controllerAfter cfg before).log
  rw [h1]
  obtain ⟨l2, h2⟩ := step_mod_log cfg ((takenOver cfg source).run cfg meanwhile) l1 .crash
  rw [h2]
  have hr := rinv_run cfg meanwhile (takenOver_inv cfg source)
  obtain ⟨events, hs, hi⟩ := smooth_exists cfg "key" _ _ (rinv_step hr .crash) (Nat.le_refl _)
  refine ⟨events, smoothRun_mod_log cfg events _ l2 hs, ?_⟩
  obtain ⟨l3, h3⟩ := run_mod_log cfg events (((takenOver cfg source).run cfg meanwhile).step cfg .crash) l2
  rw [h3]
  exact hi

/-- A voucher that comes with a recovered database is not taken for a new one: if it is submitted again
it keeps its number of tokens and goes on with its first group left. -/
theorem C129_goes_on (cfg : RedeemCfg) (before source : List RedeemEvent) (v : String) (n : Option Nat)
    (row : VoucherRow) (env : Env) (hu : Untouched cfg before)
    (hrow : voucherRow (controllerAfter cfg source).store v = some row) (hp : row.state = "pending") :
    ((nodeRecovered cfg before source).run cfg [.redeem v n, .work env]).todo =
      [.iterate ⟨v, row.expected_tokens, row.counter⟩] := by
  rw [recovered_taken_over hu]
  have hst : redeem_start cfg v n { takenOver cfg source with todo := [], log := (controllerAfter cfg before).log } =
      .ok (some ⟨v, row.expected_tokens, row.counter⟩) :=
    redeem_start_pending hrow hp (by simp [takenOver, Dict.keys]) rfl rfl
  show (Task.run cfg env (.redeem v n)
    { takenOver cfg source with todo := [], log := (controllerAfter cfg before).log }).todo = _
  simp only [Task.run]
  dsimp only at hst
  rw [hst]

/-! ### Examples -/

/-- A new node in use: the timer has fired. -/
example : Untouched exRedeemCfg [.timer, .crash] :=
  ⟨by decide +kernel, by decide +kernel, by decide +kernel, by decide +kernel, by decide +kernel,
    by decide +kernel, by decide +kernel⟩

/-- The first of two groups has been redeemed when the node is lost.  The timer of the new node makes no
difference. -/
example : voucherRow ((nodeRecovered exRedeemCfg [] exFirst).run exRedeemCfg
    [.timer, .work (exEnv "x"), .timer]).store "v" =
      some { number := "v", created := "p", state := "pending", finished := some "q", token_count := some 3,
             counter := 1, expected_tokens := 5, sequestered_count := 0 } := by decide +kernel

/-- After a restart the second group is redeemed. -/
example : ∃ events, InState ((((nodeRecovered exRedeemCfg [] exFirst).run exRedeemCfg [.timer]).step
    exRedeemCfg .crash).run exRedeemCfg events) "v" "redeemed" := by
  have hu : Untouched exRedeemCfg [] := ⟨rfl, rfl, rfl, rfl, rfl, rfl, rfl⟩
  obtain ⟨events, hs, hi⟩ := C129_finishes exRedeemCfg [] exFirst [.timer] hu
  exact ⟨events, C129_restarted_partial exRedeemCfg [] exFirst [.timer] events "v"
    { number := "v", created := "p", state := "pending", finished := some "q", token_count := some 3,
      counter := 1, expected_tokens := 5, sequestered_count := 0 } hu (by simp [NotSubmitted])
    (by decide +kernel) rfl (by decide) ⟨by simp [NotSubmitted], by simp⟩ hs hi⟩

/-- The same after it has been submitted again. -/
example :
    (voucherRow ((nodeRecovered exRedeemCfg [] exFirst).run exRedeemCfg
      ([.redeem "v" none, .work (exEnv "x"), .work (exEnv "x"), .work (exEnv "x"),
        .answer 0 (.success "key" ["d", "e"]), .work (exEnv "s"), .work (exEnv "s")])).store "v").map
      (fun r => (r.state, r.token_count)) = some ("redeemed", some 5) := by decide +kernel

end ZKAP
