import Verif.Model.Controller
import Verif.Spec.Store

/-!
Specification vocabulary for the redemption of vouchers: ways to read a record of what
happened.
-/
namespace ZKAP.Spec

/-- The groups of a voucher whose tokens have been stored, in order. -/
def redeemedGroups (v : String) : List Happening → List Nat
  | [] => []
  | .stored w c _ _ :: l => if w = v then c :: redeemedGroups v l else redeemedGroups v l
  | _ :: l => redeemedGroups v l

/-- The number of tokens that have been stored for a voucher. -/
def tokensStored (v : String) : List Happening → Nat
  | [] => 0
  | .stored w _ _ ts :: l => (if w = v then ts.length else 0) + tokensStored v l
  | _ :: l => tokensStored v l

/-- The issuer reported the voucher unpaid, and the process has not been restarted since. -/
def ReportedUnpaid (v : String) (log : List Happening) : Prop :=
  ∃ l₁ c l₂, log = l₁ ++ .answer v c .unpaid :: l₂ ∧ .restarted ∉ l₂

/-- No redemption of the voucher is begun by a process that has seen the voucher reported
unpaid, once a group of it has been redeemed. -/
def NoUnpaidRestart (v : String) (log : List Happening) : Prop :=
  ∀ l₁ c l₂, log = l₁ ++ .begun v c :: l₂ → ReportedUnpaid v l₁ → redeemedGroups v l₁ = []

/-- The issuer never reports the voucher unpaid. -/
def NeverUnpaid (v : String) (log : List Happening) : Prop :=
  ∀ c, .answer v c .unpaid ∉ log

/-- Successful answers about the voucher carry as many tokens as the latest request for the
same group. -/
def FullAnswers (v : String) (log : List Happening) : Prop :=
  ∀ l₁ c ts l₂ pk us l₃, log = l₁ ++ .sent v c ts :: (l₂ ++ .answer v c (.success pk us) :: l₃) →
    (∀ ts', .sent v c ts' ∉ l₂) → us.length = ts.length

/-- The number of requests about a voucher that have been sent and not been answered, in a
record of one process. -/
def outstanding (v : String) (c : Controller) : Nat :=
  c.waiting.countP (fun s => decide (s.frame.voucher = v))

end ZKAP.Spec
