import Verif.Spec.Controller

/-!
Specification vocabulary for the status of a voucher: a diary of what happened to the voucher and when, and
the status that such a diary calls for.
-/
namespace ZKAP.Spec

/-- An entry of the diary of a voucher. -/
inductive Note where
  /-- the voucher was added to the database -/
  | added (t : String)
  /-- an attempt to redeem a group of the voucher began: the request was sent -/
  | began (t : String)
  /-- the tokens of a group were stored -/
  | redeemed (t : String) (group : Nat)
  /-- the tokens of a group arrived and could not be stored -/
  | notStored (t : String)
  /-- the issuer said that the voucher was already spent -/
  | spent (t : String)
  /-- the issuer said that the voucher is not paid for -/
  | unpaid (t : String)
  /-- an attempt failed in another way -/
  | failed (t : String) (details : String)
  /-- the node was started again -/
  | restarted
  deriving DecidableEq, Repr

/-- What an event adds to the diary of a voucher.  Whether something was sent or stored shows in the record of
what happened. -/
def noted (cfg : RedeemCfg) (v : String) (c : Controller) (e : RedeemEvent) : List Note :=
  match e with
  | .crash => [.restarted]
  | .work env =>
    match c.todo with
    | .iterate _ :: _ =>
      if (voucherRow c.store v).isNone ∧ (voucherRow (c.step cfg e).store v).isSome then [.added env.now]
      else []
    | .perform f _ :: _ =>
      if f.voucher = v ∧ (c.step cfg e).log ≠ c.log then [.began env.now] else []
    | .answered f a :: _ =>
      if f.voucher = v then
        match a with
        | .success _ _ =>
          if (c.step cfg e).log ≠ c.log then [.redeemed env.now f.counter] else [.notStored env.now]
        | .alreadySpent => [.spent env.now]
        | .unpaid => [.unpaid env.now]
        | .failed d => [.failed env.now d]
      else []
    | _ => []
  | _ => []

/-- A node with the diary of a voucher, the latest entry first, after a history. -/
def diaryFrom (cfg : RedeemCfg) (v : String) (start : Controller × List Note) (history : List RedeemEvent) :
    Controller × List Note :=
  history.foldl (fun p e => (p.1.step cfg e, noted cfg v p.1 e ++ p.2)) start

/-- The diary of a voucher after a history. -/
def diary (cfg : RedeemCfg) (v : String) (history : List RedeemEvent) : List Note :=
  (diaryFrom cfg v ({}, []) history).2

/-- When the voucher was first added. -/
def addedAt : List Note → Option String
  | [] => none
  | .added t :: l => (addedAt l).or (some t)
  | _ :: l => addedAt l

/-- The status that a diary calls for, where `groups` groups have been redeemed so far, for `tokens` tokens in
all: the outcome of the latest attempt.  Only success and double spending outlast the process. -/
def statusOf (cfg : RedeemCfg) (groups tokens : Nat) : List Note → VoucherState String
  | [] => .pending groups
  | .added _ :: _ => .pending groups
  | .began t :: _ => .redeeming t groups
  | .redeemed t g :: _ =>
    if g + 1 = cfg.num_redemption_groups then .redeemed t tokens else .pending groups
  | .notStored _ :: _ => .pending groups
  | .spent t :: _ => .doubleSpend t
  | .unpaid t :: _ => .unpaid t
  | .failed t d :: _ => .error t d
  | .restarted :: l =>
    match statusOf cfg groups tokens l with
    | .redeemed t n => .redeemed t n
    | .doubleSpend t => .doubleSpend t
    | _ => .pending groups

/-- When the voucher was last reported unpaid to the running process. -/
def lastUnpaid : List Note → Option String
  | [] => none
  | .restarted :: _ => none
  | .unpaid t :: _ => some t
  | _ :: l => lastUnpaid l

/-- When, and how, an attempt of the running process last failed otherwise. -/
def lastFailure : List Note → Option (String × String)
  | [] => none
  | .restarted :: _ => none
  | .failed t d :: _ => some (t, d)
  | _ :: l => lastFailure l

/-- No earlier answer to the running process gets in the way of showing the outcome of the latest attempt. -/
def Plain (cfg : RedeemCfg) : List Note → Prop
  | .failed _ _ :: l => lastUnpaid l = none
  | .redeemed _ g :: l =>
    g + 1 = cfg.num_redemption_groups ∨ (lastUnpaid l = none ∧ lastFailure l = none)
  | .notStored _ :: l => lastUnpaid l = none ∧ lastFailure l = none
  | _ => True

/-- The number of tokens that have been stored for a voucher with an allowed public key. -/
def spendableStored (allowed : List String) (v : String) : List Happening → Nat
  | [] => 0
  | .stored w _ pk ts :: l =>
    (if w = v ∧ pk ∈ allowed then ts.length else 0) + spendableStored allowed v l
  | _ :: l => spendableStored allowed v l

end ZKAP.Spec
