import Verif.Model.Controller

/-!
A node that redeems vouchers, the replica of its database and the issuer of passes, seen
together over the life of an installation in which the node may be lost and
recovered from the replica.

The controller is that of `Model/Controller.lean`.  The issuer is not part of the repository.  It
is modelled by the contract that `controller.py:945-953` relies on: a group of a voucher is signed
for one set of tokens, the same set may be submitted again, and any other set is refused as
double-spent.
-/
namespace ZKAP

/-- What the issuer has signed: for a voucher and a group, the tokens that were submitted. -/
abbrev Signed := List ((String × Nat) × List String)

/-- Does the issuer sign these tokens?  Yes if nothing or the same tokens were signed for this
voucher and group before.  A simplification: tokens are compared without regard to their order,
and unblinded, since blinding is a function of the random token (`controller.py:616-620`). -/
def Signed.accepts (signed : Signed) (voucher : String) (counter : Nat) (tokens : List String) :
    Bool :=
  match signed.lookup (voucher, counter) with
  | none => true
  | some tokens' => tokens.isPerm tokens'

/-- An installation.  `past` is what the node has gone through as far as its database knows;
`uploaded` says how many of these events the replica covers.  Recovery restores the database of
a moment in the past (`recover.py:221-275`), so that is what a replica amounts to.
`refused` is a record of the requests the issuer has refused as double-spent. -/
structure Installation where
  past : List RedeemEvent := []
  uploaded : Nat := 0
  signed : Signed := []
  refused : List (String × Nat) := []

/-- The node as it is. -/
def Installation.node (cfg : RedeemCfg) (w : Installation) : Controller :=
  ({} : Controller).run cfg w.past

/-- The node as the replica knows it. -/
def Installation.replica (cfg : RedeemCfg) (w : Installation) : Controller :=
  ({} : Controller).run cfg (w.past.take w.uploaded)

/-- What can happen to an installation. -/
inductive InstallationEvent where
  /-- an event at the node, other than an answer -/
  | node (e : RedeemEvent)
  /-- the issuer deals with the request of the `i`-th waiting coroutine.  If it signs, these are
  the key and the unblinded tokens.  Its answer may get lost. -/
  | issue (i : Nat) (public_key : String) (unblinded_tokens : List String) (delivered : Bool)
  /-- the request of the `i`-th waiting coroutine is found unpaid -/
  | unpaid (i : Nat)
  /-- the request of the `i`-th waiting coroutine fails, before or after the issuer has dealt
  with it -/
  | fail (i : Nat) (details : String)
  /-- an upload is completed; the replica now covers the first `n` events -/
  | upload (n : Nat)
  /-- the node is lost.  A new node is set up, recovers the replica and is started. -/
  | lose

/-- One event.  The recovered node is started from the replica's database
like one that crashed at that moment (`controller.py:834-848`), and knows
nothing of what came later. -/
def Installation.step (cfg : RedeemCfg) (w : Installation) : InstallationEvent → Installation
  | .node (.answer _ _) => w
  | .node e => { w with past := w.past ++ [e] }
  | .issue i public_key unblinded_tokens delivered =>
    match (w.node cfg).waiting[i]? with
    | none => w
    | some s =>
      if w.signed.accepts s.frame.voucher s.frame.counter s.tokens then
        { w with
          signed := ((s.frame.voucher, s.frame.counter), s.tokens) :: w.signed
          past := if delivered then w.past ++ [.answer i (.success public_key unblinded_tokens)]
            else w.past }
      else
        { w with
          refused := w.refused ++ [(s.frame.voucher, s.frame.counter)]
          past := if delivered then w.past ++ [.answer i .alreadySpent] else w.past }
  | .unpaid i => { w with past := w.past ++ [.answer i .unpaid] }
  | .fail i details => { w with past := w.past ++ [.answer i (.failed details)] }
  | .upload n =>
    if w.uploaded ≤ n ∧ n ≤ w.past.length then { w with uploaded := n } else w
  | .lose => { w with past := w.past.take w.uploaded ++ [.crash] }

/-- An installation over a list of events. -/
def Installation.run (cfg : RedeemCfg) (w : Installation) (events : List InstallationEvent) :
    Installation :=
  events.foldl (Installation.step cfg) w

end ZKAP
