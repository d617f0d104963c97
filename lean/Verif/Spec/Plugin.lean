import Verif.Model.Plugin
import Verif.Spec.Ristretto
import Verif.Spec.Spending
import Verif.Spec.Server

/-! Specification vocabulary for the plugin as a whole. -/
namespace ZKAP.Spec

/-- The stored token was made with the signing key. -/
def Genuine (L : Ristretto) (k : L.Scalar) (x : String) : Prop :=
  ∃ t, ascii x = L.unblinded_tokens.encode (t, L.smul k (L.hash t))

/-- A server with this signing key that was sent these passes names these as having failed the
signature check. -/
def RefusedBy (L : Ristretto) (k : L.Scalar) (message : Bytes) (sent : List Pass) (failed : List Nat) : Prop :=
  ∃ ps, Parses (sent.map Pass.pass_bytes) ps ∧
    FailedPositions (fun p => !_is_invalid_pass L message p k) ps failed

/-- Whenever a server asks for more passes it is one that holds one of the keys, and has checked the
passes it was sent. -/
def ServersHold (L : Ristretto) (keys : L.Scalar → Prop) : Client → List ClientEvent → Prop
  | _, [] => True
  | w, e :: es =>
    (∀ i failed o c, e = .answer i (.rejected failed) o → w.active[i]? = some c →
      ∃ k, keys k ∧ RefusedBy L k c.pass_group.message c.pass_group.passes failed) ∧
    ServersHold L keys (w.step (ristretto_signer L) e) es

/-- Every token that is stored was made with one of the keys. -/
def TokensMadeWith (L : Ristretto) (keys : L.Scalar → Prop) (events : List ClientEvent) : Prop :=
  ∀ op, .other op ∈ events → ∀ x, Issues x op → ∃ k, keys k ∧ Genuine L k x

end ZKAP.Spec

namespace ZKAP.Spec

/-- White space only. -/
def Blank (s : List Char) : Prop := ∀ c ∈ s, py_space c = true

/-- The item stands between commas, or between a comma and an end of the text. -/
def ItemOf (item s : List Char) : Prop :=
  ',' ∉ item ∧ ∃ before after, s = before ++ item ++ after ∧
    (before = [] ∨ ∃ b, before = b ++ [',']) ∧ (after = [] ∨ ∃ a, after = ',' :: a)

/-- The comma-separated list names the item, with white space around it or not. -/
def Lists (s item : List Char) : Prop :=
  ∃ before after, Blank before ∧ Blank after ∧ ItemOf (before ++ item ++ after) s

/-- A name without white space or commas. -/
def Name (s : List Char) : Prop := s ≠ [] ∧ ∀ c ∈ s, py_space c = false ∧ c ≠ ','

end ZKAP.Spec
