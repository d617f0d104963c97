import Verif.Props.Controller
import Verif.Lemmas.Loss

/-!
C119: a voucher that is only redeemed by this installation is never refused as double-spent,
whatever happens to the node.

A history is a list of `InstallationEvent`s: events at the node, requests dealt with by the
issuer (whose answers may be lost), requests that fail, uploads to the replica and losses of the
node followed by a recovery, in any order.
-/
namespace ZKAP
open Spec

/-- A new installation after a history. -/
def installationAfter (cfg : RedeemCfg) (history : List InstallationEvent) : Installation :=
  ({} : Installation).run cfg history

/-- **C119** as stated: if the issuer signs whatever may be signed, in full, no request for a
voucher is ever refused as double-spent. -/
def C119_statement : Prop :=
  ∀ (cfg : RedeemCfg) (history : List InstallationEvent) (v : String) (g : Nat),
    SignsAll cfg history → (v, g) ∉ (installationAfter cfg history).refused

/-- Three pieces of work. -/
def exWork (p : String) : List InstallationEvent := (exSend p).map .node

/-- The node is lost after the issuer has signed, before the random tokens have been uploaded.
The voucher is entered again. -/
def exLostNode : List InstallationEvent :=
  [.node (.redeem "v" none)] ++ exWork "p" ++ [.issue 0 "key" ["a", "b", "c"] false, .lose,
    .node (.redeem "v" none)] ++ exWork "q" ++
  [.issue 0 "key" ["d", "e", "f"] true, .node (.work (exEnv "r"))]

/-- Reported unpaid; then paid; one group redeemed, then a failure, then the retry. -/
def exUnpaidRetry : List InstallationEvent :=
  [.node (.redeem "v" none)] ++ exWork "p" ++
  [.unpaid 0, .node (.work (exEnv "q")), .node .timer, .node (.work (exEnv "q"))] ++ exWork "q" ++
  [.issue 0 "key" ["a", "b", "c"] true] ++ exWork "r" ++
  [.fail 0 "oops", .node (.work (exEnv "s")), .node .timer, .node (.work (exEnv "s"))] ++
  exWork "s" ++ [.issue 0 "key" ["d", "e", "f"] true, .node (.work (exEnv "t"))]

/-- To check `AtEveryIssue` by going through the events. -/
def checkIssues (cfg : RedeemCfg) (p : Installation → Suspended → List String → Bool) :
    Installation → List InstallationEvent → Bool
  | _, [] => true
  | w, e :: es =>
    (match e with
      | .issue i _ us _ =>
        match (w.node cfg).waiting[i]? with
        | none => true
        | some s => p w s us
      | _ => true) && checkIssues cfg p (w.step cfg e) es

theorem checkIssues_spec {cfg : RedeemCfg} {p : Installation → Suspended → List String → Bool}
    {events : List InstallationEvent} (h : checkIssues cfg p {} events = true) :
    AtEveryIssue cfg events (fun w s us => p w s us = true) := by
  have key : ∀ (before : List InstallationEvent) (w : Installation) (i : Nat) (key : String)
      (us : List String) (d : Bool) (after : List InstallationEvent) (s : Suspended),
      checkIssues cfg p w (before ++ .issue i key us d :: after) = true →
      ((w.run cfg before).node cfg).waiting[i]? = some s → p (w.run cfg before) s us = true := by
    intro before
    induction before with
    | nil =>
      intro w i key us d after s hc hw
      have hw' : (w.node cfg).waiting[i]? = some s := hw
      simp only [List.nil_append, checkIssues, Bool.and_eq_true] at hc
      rw [hw'] at hc
      exact hc.1
    | cons e es ih =>
      intro w i key us d after s hc hw
      simp only [List.cons_append, checkIssues, Bool.and_eq_true] at hc
      exact ih (w.step cfg e) i key us d after s hc.2 hw
  intro before i k us d after s he hw
  rw [he] at h
  exact key before {} i k us d after s h hw

theorem exLostNode_signs : SignsAll exRedeemCfg exLostNode := by
  have := checkIssues_spec (cfg := exRedeemCfg) (p := fun _ s us => us.length == s.tokens.length)
    (events := exLostNode) (by decide +kernel)
  simpa [SignsAll] using this

theorem exUnpaidRetry_signs : SignsAll exRedeemCfg exUnpaidRetry := by
  have := checkIssues_spec (cfg := exRedeemCfg) (p := fun _ s us => us.length == s.tokens.length)
    (events := exUnpaidRetry) (by decide +kernel)
  simpa [SignsAll] using this

/-- **C119** does not hold: nothing waits for the random tokens to be uploaded before they are
sent to the issuer.  When the node is lost in between, they are lost with it, the voucher is
submitted with other tokens and refused. -/
theorem C119_lost_node_fails : ¬ C119_statement := fun h =>
  h exRedeemCfg exLostNode "v" 0 exLostNode_signs (by decide +kernel)

/-- **C119** also does not hold for nodes that are never lost or even restarted: a voucher that was
once reported unpaid is redeemed from its first group again after a failure (C32), with other
tokens, and refused. -/
theorem C119_unpaid_retry_fails :
    ∃ (cfg : RedeemCfg) (history : List InstallationEvent) (v : String) (g : Nat),
      SignsAll cfg history ∧ InstallationEvent.lose ∉ history ∧ .node .crash ∉ history ∧
      (v, g) ∈ (installationAfter cfg history).refused ∧
      (∃ row, voucherRow ((installationAfter cfg history).node cfg).store v = some row ∧
        row.state = "double-spend" ∧ row.token_count.getD 0 < row.expected_tokens) :=
  ⟨exRedeemCfg, exUnpaidRetry, "v", 0, exUnpaidRetry_signs,
    by simp [exUnpaidRetry, exWork, exSend], by simp [exUnpaidRetry, exWork, exSend],
    by decide +kernel,
    { number := "v", created := "p", expected_tokens := 5, state := "double-spend",
      finished := some "t", token_count := some 3, counter := 1 },
    by decide +kernel⟩

/-- What a refusal costs: in the first history the voucher is worth five tokens and none is ever
obtained. -/
example :
    (voucherRow ((installationAfter exRedeemCfg exLostNode).node exRedeemCfg).store "v").map
      (fun r => (r.state, r.token_count, r.expected_tokens)) = some ("double-spend", none, 5) ∧
    (voucherRow ((installationAfter exRedeemCfg exUnpaidRetry).node exRedeemCfg).store "v").map
      (fun r => (r.state, r.token_count, r.expected_tokens)) = some ("double-spend", some 3, 5) := by
  decide +kernel

/-! ### What holds -/

/-- **C119** holds for a voucher whose random tokens are in the replica by the time the
issuer deals with them, and which is not begun anew after having been reported unpaid: no request
for it is ever refused, and it is never marked double-spent. -/
theorem C119_never_refused_partial (cfg : RedeemCfg) (history : List InstallationEvent) (v : String)
    (hup : UploadedFirst cfg v history) (hnu : NoUnpaidBegin cfg v history) :
    (∀ g, (v, g) ∉ (installationAfter cfg history).refused) ∧
    ∀ row, voucherRow ((installationAfter cfg history).node cfg).store v = some row →
      row.state ≠ "double-spend" := by
  have h := lossInv_run history hup hnu
  refine ⟨h.refused, ?_⟩
  refine spentAnswered_run _ (rinv_init cfg) ?_ ?_ h.log
  · intro f a rest e; simp at e
  · intro _ row hrow; simp [voucherRow] at hrow

/-- **C119**, the value: under the same conditions a voucher that is redeemed has yielded all its
tokens, however often the node was lost on the way. -/
theorem C119_value_partial (cfg : RedeemCfg) (hN : 0 < cfg.num_redemption_groups)
    (history : List InstallationEvent) (v : String) (hall : SignsAll cfg history)
    (hnu : NoUnpaidBegin cfg v history) (row : VoucherRow)
    (hrow : voucherRow ((installationAfter cfg history).node cfg).store v = some row)
    (hst : row.state = "redeemed") :
    row.token_count.getD 0 + row.sequestered_count = row.expected_tokens := by
  have hr := node_rinv cfg (installationAfter cfg history)
  have hno := hnu history [] (by simp)
  have ht : TInv cfg v ((installationAfter cfg history).node cfg) :=
    tinv_run _ (rinv_init cfg) (sinv_init v) (tinv_init cfg v) hno (full_run history hall)
  have h1 := ht.total row hrow
  rw [ht.complete row hrow hst, groupsTotal_all hN] at h1
  have h2 := hr.tokens v
  rw [rowTokens, hrow] at h2
  simp only [Option.map_some, Option.getD_some] at h2
  omega

/-- **C119**, why a loss does no harm: under the same conditions everything the issuer has
signed for the voucher is safe in the replica, at any time: the group is redeemed there, or the
tokens that were signed are stored there. -/
theorem C119_signed_is_safe_partial (cfg : RedeemCfg) (history : List InstallationEvent) (v : String)
    (hup : UploadedFirst cfg v history) (hnu : NoUnpaidBegin cfg v history) (g : Nat)
    (ts : List String) (hs : HasSigned (installationAfter cfg history) v g ts) :
    Kept ((installationAfter cfg history).replica cfg).store v g ts ∧
    Kept ((installationAfter cfg (history ++ [.lose])).node cfg).store v g ts := by
  have h := lossInv_run history hup hnu
  have hk := h.kept g ts hs
  refine ⟨hk, ?_⟩
  have : (installationAfter cfg (history ++ [.lose])).node cfg =
      ((installationAfter cfg history).replica cfg).step cfg .crash := by
    unfold installationAfter
    rw [Installation.run_snoc]
    exact node_snoc cfg _ _
  rw [this]
  exact kept_same hk rfl rfl

/-- **C119**, and without any condition: after a loss at any time, once the recovered node has
finished its first work, every voucher that the replica knows as pending, with stored tokens, has
been submitted again with those tokens. -/
theorem C119_resumes_after_loss (cfg : RedeemCfg) (history : List InstallationEvent) (v : String)
    (row : VoucherRow)
    (hrow : voucherRow ((installationAfter cfg history).replica cfg).store v = some row)
    (hp : row.state = "pending")
    (hts : select_random_tokens v row.counter ((installationAfter cfg history).replica cfg).store ≠ [])
    (envs : List Env)
    (hdone : ((installationAfter cfg (history ++ .lose :: envs.map fun e => .node (.work e))).node
      cfg).todo = []) :
    ∃ ts, ts.Perm (select_random_tokens v row.counter
        ((installationAfter cfg history).replica cfg).store) ∧
      .sent v row.counter ts ∈
        ((installationAfter cfg (history ++ .lose :: envs.map fun e => .node (.work e))).node cfg).log := by
  have works : ∀ (envs : List Env) (w : Installation),
      (w.run cfg (envs.map fun e => .node (.work e))).past = w.past ++ envs.map .work := by
    intro envs
    induction envs with
    | nil => intro w; simp [Installation.run]
    | cons e es ih =>
      intro w
      show ((w.step cfg (.node (.work e))).run cfg _).past = _
      rw [ih]
      simp [Installation.step]
  have hnode : (installationAfter cfg (history ++ .lose :: envs.map fun e => .node (.work e))).node cfg =
      (((installationAfter cfg history).replica cfg).step cfg .crash).run cfg (envs.map .work) := by
    unfold installationAfter
    rw [Installation.run_append]
    show (((({} : Installation).run cfg history).step cfg .lose).run cfg _).node cfg = _
    unfold Installation.node
    rw [works, run_append_events]
    congr 1
    exact node_snoc cfg _ _
  rw [hnode] at hdone ⊢
  obtain ⟨l, ts, h1, h2, h3⟩ := C28_crash_resumes cfg
    ((installationAfter cfg history).past.take (installationAfter cfg history).uploaded) v row hrow hp
    hts envs hdone
  refine ⟨ts, h3, ?_⟩
  have hrep : (installationAfter cfg history).replica cfg = controllerAfter cfg
      ((installationAfter cfg history).past.take (installationAfter cfg history).uploaded) := rfl
  rw [hrep, h1]
  exact List.mem_append_right _ (List.mem_cons_of_mem _ h2)

/-- In this history the tokens are uploaded first, the first answer and then the node are lost, the
first group is signed again for the same tokens, the node is lost again, and the voucher is redeemed in
full. -/
def exSafe : List InstallationEvent :=
  [.node (.redeem "v" none)] ++ exWork "p" ++
  [.upload 4, .issue 0 "key" ["a", "b", "c"] false, .lose] ++ exWork "q" ++
  [.issue 0 "key" ["a", "b", "c"] true] ++ exWork "r" ++
  [.upload 11, .issue 0 "key" ["d", "e"] true, .node (.work (exEnv "s")), .lose] ++ exWork "t" ++
  [.issue 0 "key" ["d", "e"] true, .node (.work (exEnv "s")), .node (.work (exEnv "s"))]

example : (voucherRow ((installationAfter exRedeemCfg exSafe).node exRedeemCfg).store "v").map
      (fun r => (r.state, r.token_count, r.expected_tokens)) = some ("redeemed", some 5, 5) ∧
    (installationAfter exRedeemCfg exSafe).refused = [] ∧
    (installationAfter exRedeemCfg exSafe).signed.map (·.1.2) = [1, 1, 0, 0] := by decide +kernel
example : PaidFor exSafe := by intro i; simp [exSafe, exWork, exSend]
example : SignsAll exRedeemCfg exSafe := by
  have := checkIssues_spec (cfg := exRedeemCfg) (p := fun _ s us => us.length == s.tokens.length)
    (events := exSafe) (by decide +kernel)
  simpa [SignsAll] using this
example : UploadedFirst exRedeemCfg "v" exSafe := by
  have := checkIssues_spec (cfg := exRedeemCfg)
    (p := fun w s _ => s.tokens.isPerm
      (select_random_tokens "v" s.frame.counter (w.replica exRedeemCfg).store))
    (events := exSafe) (by decide +kernel)
  intro before i key us d after s he hw _
  exact List.isPerm_iff.mp (this before i key us d after s he hw)
example : NoUnpaidBegin exRedeemCfg "v" exSafe :=
  paidFor_noUnpaid (by intro i; simp [exSafe, exWork, exSend])

end ZKAP
