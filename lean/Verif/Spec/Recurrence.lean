import Verif.Spec.WholeNode
import Verif.Spec.Controller

/-! What the property of `Verif.Props.Recurrence` talks about. -/
namespace ZKAP.Spec

/-- A random token is a preimage and the number it is blinded with. -/
def HasPreimage (L : Ristretto) (random : String) (p : L.Preimage) : Prop :=
  ∃ blind, L.random_tokens.decode (ZKAP.ascii random) = some (p, blind)

/-- The controller sent this random token to the issuer for a group of a voucher, or has it in the store. -/
def KnownFor (c : Controller) (voucher : String) (group : Nat) (random : String) : Prop :=
  (∃ tokens, .sent voucher group tokens ∈ c.log ∧ random ∈ tokens) ∨ random ∈ select_random_tokens voucher group c.store

/-- In this event random tokens are made for a group of a voucher that has none. -/
def Makes (c : Controller) (e : RedeemEvent) (made : List String) : Prop :=
  ∃ env f rest n, e = .work env ∧ c.todo = .iterate f :: rest ∧ select_random_tokens f.voucher f.counter c.store = [] ∧
    env.random f.voucher f.counter n = .ok made

/-- Random tokens that are made have preimages that no random token had before. -/
def NewRandom (L : Ristretto) (n : WholeNode) (e : WholeEvent) : Prop :=
  ∀ e' made, e = .redeeming e' → Makes { n.redeeming with store := n.storage.store } e' made → ∀ r ∈ made, ∀ p, HasPreimage L r p →
    ∀ v g r', KnownFor { n.redeeming with store := n.storage.store } v g r' → ¬ HasPreimage L r' p

/-- Answers are made from responses of the issuer, and random tokens are fresh. -/
def FreshLife (L : Ristretto) (cfg : RedeemCfg) (v : Int) : WholeNode → List WholeEvent → Prop
  | _, [] => True
  | n, e :: es => AnswerReal L n e ∧ NewRandom L n e ∧ FreshLife L cfg v (n.step cfg (ristretto_signer L) v e) es

/-- The token is in the database, to be spent or not. -/
def HeldBy (n : WholeNode) (x : String) : Prop := x ∈ storedTokens n.storage.store

/-- The issuer answered a request for a group of a voucher with signatures. -/
def AnsweredFor (log : List Happening) (voucher : String) (group : Nat) (tokens : List String) : Prop :=
  ∃ l₁ l₂ l₃ pk us, log = l₁ ++ .sent voucher group tokens :: l₂ ++ .answer voucher group (.success pk us) :: l₃ ∧
    ∀ g ts, .sent voucher g ts ∉ l₂

/-- The issuer redeems a group of a voucher for the same random tokens only. -/
def SignedOnce (log : List Happening) : Prop :=
  ∀ voucher group tokens tokens', AnsweredFor log voucher group tokens → AnsweredFor log voucher group tokens' →
    ∀ r ∈ tokens, r ∈ tokens'

end ZKAP.Spec
