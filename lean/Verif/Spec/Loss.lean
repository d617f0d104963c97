import Verif.Model.Loss
import Verif.Spec.Controller

/-!
Specification vocabulary for an installation that may be lost and recovered.
-/
namespace ZKAP.Spec

/-- The issuer has signed something for this group of this voucher. -/
def HasSigned (w : Installation) (voucher : String) (group : Nat) (tokens : List String) : Prop :=
  ((voucher, group), tokens) ∈ w.signed

/-- In this database, the tokens submitted for a group of a voucher can still be turned into
spendable ones, or have been: the group has been redeemed, or the tokens are stored. -/
def Kept (t : Tables) (voucher : String) (group : Nat) (tokens : List String) : Prop :=
  (∃ row, voucherRow t voucher = some row ∧ group < row.counter) ∨
    tokens.Perm (select_random_tokens voucher group t)

/-- Something holds whenever the issuer deals with a request: of the installation at that moment,
the request, and the unblinded tokens it may answer with. -/
def AtEveryIssue (cfg : RedeemCfg) (events : List InstallationEvent)
    (p : Installation → Suspended → List String → Prop) : Prop :=
  ∀ before i key unblinded delivered after s,
    events = before ++ .issue i key unblinded delivered :: after →
    ((({} : Installation).run cfg before).node cfg).waiting[i]? = some s →
    p (({} : Installation).run cfg before) s unblinded

/-- The issuer signs as many tokens as are submitted. -/
def SignsAll (cfg : RedeemCfg) (events : List InstallationEvent) : Prop :=
  AtEveryIssue cfg events fun _ s unblinded => unblinded.length = s.tokens.length

/-- Whenever the issuer deals with a request for the voucher, the tokens of the request are
in the replica. -/
def UploadedFirst (cfg : RedeemCfg) (voucher : String) (events : List InstallationEvent) : Prop :=
  AtEveryIssue cfg events fun w s _ => s.frame.voucher = voucher →
    s.tokens.Perm (select_random_tokens voucher s.frame.counter (w.replica cfg).store)

/-- At no time does the node begin to redeem the voucher again after it has been reported
unpaid and a group of it has been redeemed. -/
def NoUnpaidBegin (cfg : RedeemCfg) (voucher : String) (events : List InstallationEvent) : Prop :=
  ∀ before after, events = before ++ after →
    NoUnpaidRestart voucher ((({} : Installation).run cfg before).node cfg).log

/-- The voucher is never reported unpaid. -/
def PaidFor (events : List InstallationEvent) : Prop := ∀ i, .unpaid i ∉ events

end ZKAP.Spec
