import Verif.Model.Spending
import Verif.Spec.Store

/-! Specification vocabulary for storage calls. -/
namespace ZKAP.Spec

/-- The elements at the selected positions, in order. -/
def atPositions {α} (select : Nat → Bool) (l : List α) : List α :=
  (l.zipIdx.filter (fun p => select p.2)).map Prod.fst

/-- The tokens held by a call in progress. -/
def holds (c : Call) : List String := c.pass_group.tokens.map Prod.fst

/-- Making passes from tokens works, one pass for each token. -/
def Signs (sign : Signer) : Prop :=
  ∀ message tokens, ∃ passes, sign message tokens = .ok passes ∧ passes.length = tokens.length

/-- The tokens in the table of invalid tokens. -/
def invalidTokens (t : Tables) : List String := t.app.invalid.map (·.token)

/-- The issuer does not issue a token again that this client has found invalid. -/
def NoReissue (sign : Signer) : Client → List ClientEvent → Prop
  | _, [] => True
  | w, e :: es =>
    (∀ op, e = .other op → ∀ x, Issues x op → x ∉ invalidTokens w.store) ∧
      NoReissue sign (w.step sign e) es

end ZKAP.Spec

namespace ZKAP.Spec

/-- The token is stored at all. -/
def Stored (t : Tables) (x : String) : Prop := ∃ r ∈ t.app.unblinded, r.token = x

/-- Whether the event makes a call try again. -/
def isRetry (sign : Signer) (w : Client) : ClientEvent → Bool
  | .answer i (.rejected failed) o =>
    match w.active[i]? with
    | none => false
    | some c =>
      match (call_answer sign o c.on_success c.num_passes c.pass_group (.rejected failed) w.store).1 with
      | .waiting _ => true
      | _ => false
  | _ => false

/-- How often calls try again. -/
def retries (sign : Signer) : Client → List ClientEvent → Nat
  | _, [] => 0
  | w, e :: es => (if isRetry sign w e then 1 else 0) + retries sign (w.step sign e) es

/-- How many tokens the issuer hands out. -/
def issuedBy : ClientEvent → Nat
  | .other (.insert _ _ _ ts _ _) => ts.length
  | _ => 0

/-- How many tokens the issuer hands out over all these events. -/
def issued (events : List ClientEvent) : Nat := (events.map issuedBy).sum

/-- A server that rejects passes names at least one pass that was really sent. -/
def NamesSentPasses (sign : Signer) : Client → List ClientEvent → Prop
  | _, [] => True
  | w, e :: es =>
    (∀ i failed o c, e = .answer i (.rejected failed) o → w.active[i]? = some c → failed ≠ [] →
      ∃ p ∈ failed, p < c.pass_group.passes.length) ∧
    NamesSentPasses sign (w.step sign e) es

end ZKAP.Spec
