import Verif.Lemmas.Backup
import Verif.Props.Loss

/-!
C150: backups of the database file.  Histories are those of C119, with backups and restores in the place of uploads
and recoveries.
-/
namespace ZKAP
open Spec

/-- **C150** as documented: if a backup is made for every new voucher, restoring the backup does not cost any of
it.  No request for it is refused as double-spent. -/
def C150_statement : Prop :=
  ∀ (cfg : RedeemCfg) (history : List InstallationEvent) (v : String) (g : Nat),
    SignsAll cfg history → PaidFor history → BackedUp cfg v history →
    (v, g) ∉ (installationAfter cfg history).refused

/-- The voucher is submitted, a backup is made; both groups are signed; the backup is restored. -/
def exRestored : List InstallationEvent :=
  [.node (.redeem "v" none)] ++ exWork "p" ++
  [.upload 4, .issue 0 "key" ["a", "b", "c"] true] ++ exWork "q" ++
  [.issue 0 "key" ["d", "e"] true, .node (.work (exEnv "r")), .lose] ++ exWork "s" ++
  [.issue 0 "key" ["a", "b", "c"] true] ++ exWork "t" ++
  [.issue 0 "key" ["f", "g"] true, .node (.work (exEnv "u"))]

/-- To check what holds at every restore by going through the events. -/
def checkRestores (cfg : RedeemCfg) (p : Installation → Bool) : Installation → List InstallationEvent → Bool
  | _, [] => true
  | w, e :: es => (match e with | .lose => p w | _ => true) && checkRestores cfg p (w.step cfg e) es

theorem checkRestores_spec {cfg : RedeemCfg} {p : Installation → Bool} {events : List InstallationEvent}
    (h : checkRestores cfg p {} events = true) : AtEveryRestore cfg events (fun w => p w = true) := by
  have key : ∀ (before : List InstallationEvent) (w : Installation) (after : List InstallationEvent),
      checkRestores cfg p w (before ++ .lose :: after) = true → p (w.run cfg before) = true := by
    intro before
    induction before with
    | nil =>
      intro w after hc
      simp only [List.nil_append, checkRestores, Bool.and_eq_true] at hc
      exact hc.1
    | cons e es ih =>
      intro w after hc
      simp only [List.cons_append, checkRestores, Bool.and_eq_true] at hc
      exact ih (w.step cfg e) after hc.2
  intro before after he
  exact key before {} after (by rw [← he]; exact h)

theorem exRestored_signs : SignsAll exRedeemCfg exRestored := by
  have := checkIssues_spec (cfg := exRedeemCfg) (p := fun _ s us => us.length == s.tokens.length)
    (events := exRestored) (by decide +kernel)
  simpa [SignsAll] using this

/-- **C150 fails**: the random tokens of a group are made when its turn comes.  A backup made when the voucher
was submitted does not have them, so after it has been restored other tokens are submitted for the groups that
were signed in the meantime, and refused. -/
theorem C150_fails : ¬ C150_statement := by
  intro h
  refine h exRedeemCfg exRestored "v" 1 exRestored_signs (by intro i; simp [exRestored, exWork, exSend]) ?_
    (by decide +kernel)
  have := checkRestores_spec (cfg := exRedeemCfg)
    (p := fun w => (voucherRow (w.replica exRedeemCfg).store "v").isSome) (events := exRestored) (by decide +kernel)
  intro before after he _ hnone
  have h1 := this before after he
  dsimp only at h1
  rw [hnone] at h1
  simp at h1

/-- What this costs: the voucher of five tokens has yielded three and will not yield more. -/
example :
    (voucherRow ((installationAfter exRedeemCfg exRestored).node exRedeemCfg).store "v").map
      (fun r => (r.state, r.token_count, r.expected_tokens)) = some ("double-spend", some 3, 5) := by
  decide +kernel

/-- **C150** holds if every backup that is restored has what the issuer has signed by then: each group redeemed, or the
tokens submitted for it.  (And the voucher is not begun anew after having been reported unpaid, C32.)  No request for
the voucher is refused, and it is not marked double-spent. -/
theorem C150_partial (cfg : RedeemCfg) (history : List InstallationEvent) (v : String)
    (hb : SignedBackedUp cfg v history) (hnu : NoUnpaidBegin cfg v history) :
    (∀ g, (v, g) ∉ (installationAfter cfg history).refused) ∧
    ∀ row, voucherRow ((installationAfter cfg history).node cfg).store v = some row →
      row.state ≠ "double-spend" := by
  have h := backupInv_run history hb hnu
  refine ⟨h.refused, ?_⟩
  refine spentAnswered_run _ (rinv_init cfg) ?_ ?_ h.log
  · intro f a rest e; simp at e
  · intro _ row hrow; simp [voucherRow] at hrow

/-- **C150**, a rule that is enough: restore only backups that were made after the voucher was redeemed (or
before the issuer has signed anything for it). -/
theorem C150_redeemed (cfg : RedeemCfg) (history : List InstallationEvent) (v : String)
    (hall : SignsAll cfg history) (hnu : NoUnpaidBegin cfg v history) (hb : BackedUpRedeemed cfg v history) :
    (∀ g, (v, g) ∉ (installationAfter cfg history).refused) ∧
    ∀ row, voucherRow ((installationAfter cfg history).node cfg).store v = some row →
      row.state ≠ "double-spend" :=
  C150_partial cfg history v (redeemed_backup history hall hnu hb) hnu

/-- **C150**, the tokens, for every history: what can be obtained after a restore are the tokens that the backup has as
spendable, whether or not they were spent since. -/
theorem C150_tokens (cfg : RedeemCfg) (history : List InstallationEvent) (x : String) :
    Available ((installationAfter cfg (history ++ [.lose])).node cfg).store x ↔
      StoredIn ((installationAfter cfg history).replica cfg).store.app true x := by
  have : (installationAfter cfg (history ++ [.lose])).node cfg =
      ((installationAfter cfg history).replica cfg).step cfg .crash := by
    unfold installationAfter
    rw [Installation.run_snoc]
    exact node_snoc cfg _ _
  rw [this]
  simp [Controller.step, Available, StoreOp.step]

/-- A backup is made once the voucher is redeemed, and restored. -/
def exRestoredLate : List InstallationEvent :=
  [.node (.redeem "v" none)] ++ exWork "p" ++ [.issue 0 "key" ["a", "b", "c"] true] ++ exWork "q" ++
  [.issue 0 "key" ["d", "e"] true, .node (.work (exEnv "r")), .upload 10, .lose] ++ exWork "s"

example : BackedUpRedeemed exRedeemCfg "v" exRestoredLate := by
  have := checkRestores_spec (cfg := exRedeemCfg)
    (p := fun w => (voucherRow (w.replica exRedeemCfg).store "v").any (fun r => r.state == "redeemed"))
    (events := exRestoredLate) (by decide +kernel)
  intro before after he
  have h1 := this before after he
  simp only [Option.any_eq_true, beq_iff_eq] at h1
  exact .inl h1

example : SignsAll exRedeemCfg exRestoredLate := by
  have := checkIssues_spec (cfg := exRedeemCfg) (p := fun _ s us => us.length == s.tokens.length)
    (events := exRestoredLate) (by decide +kernel)
  simpa [SignsAll] using this

example : NoUnpaidBegin exRedeemCfg "v" exRestoredLate :=
  paidFor_noUnpaid (by intro i; simp [exRestoredLate, exWork, exSend])

example : ((StoreOp.getTokens .natural 5).step
    ((installationAfter exRedeemCfg exRestoredLate).node exRedeemCfg).store).1 =
      .ok (.tokens ["a", "b", "c", "d", "e"]) := by decide +kernel

end ZKAP
