import Verif.Spec.Loss

/-!
Specification vocabulary for backups of the database file (`docs/source/backup.rst`).  An installation is that of
`Model/Loss.lean`: `.upload n` with all events of the past stands for making a copy of the database file, `.lose` for
putting the latest copy in the place of the file and starting the node.
-/
namespace ZKAP.Spec

/-- Something holds of the installation whenever a backup is restored. -/
def AtEveryRestore (cfg : RedeemCfg) (events : List InstallationEvent) (p : Installation → Prop) : Prop :=
  ∀ before after, events = before ++ .lose :: after → p (({} : Installation).run cfg before)

/-- The documented rule: a new backup is made for a new voucher.  When a backup is restored, it knows the voucher if
the node did. -/
def BackedUp (cfg : RedeemCfg) (voucher : String) (events : List InstallationEvent) : Prop :=
  AtEveryRestore cfg events fun w => voucherRow (w.node cfg).store voucher ≠ none →
    voucherRow (w.replica cfg).store voucher ≠ none

/-- When a backup is restored, it has all that the issuer has signed for the voucher. -/
def SignedBackedUp (cfg : RedeemCfg) (voucher : String) (events : List InstallationEvent) : Prop :=
  AtEveryRestore cfg events fun w => ∀ g ts, HasSigned w voucher g ts →
    Kept (w.replica cfg).store voucher g ts

/-- When a backup is restored, it was made after the voucher had been redeemed, or the issuer has not signed
anything for the voucher yet. -/
def BackedUpRedeemed (cfg : RedeemCfg) (voucher : String) (events : List InstallationEvent) : Prop :=
  AtEveryRestore cfg events fun w =>
    (∃ row, voucherRow (w.replica cfg).store voucher = some row ∧ row.state = "redeemed") ∨
    ∀ g ts, ¬ HasSigned w voucher g ts

end ZKAP.Spec
