import Verif.Model.Web
import Verif.Model.Tahoe
import Verif.Model.ConfigUtil

/-! Specification vocabulary for the HTTP API, the Tahoe-LAFS client and the configuration text. -/
namespace ZKAP.Spec

/-- The bytes of an ASCII string. -/
def ascii (s : String) : Bytes := s.toList.map (fun c => UInt8.ofNat c.toNat)

/-- One string occurs in another. -/
def Occurs (part whole : String) : Prop := ∃ a b, whole = a ++ part ++ b

/-- A list of JSON integers (or booleans) with these values, none negative. -/
def AreSizes (js : List Json) (ns : List Int) : Prop :=
  js.map Json.asInt = ns.map some ∧ ∀ n ∈ ns, 0 ≤ n

/-- The outcome of an attempt that ends a retried operation. -/
def Definitive {ε α} (matchers : List (ε → Bool)) (outcome : Except ε α) : Prop :=
  ∀ e, outcome = .error e → ∀ m ∈ matchers, m e = false

/-- Capabilities as the API functions are given them (not scrubbed ones). -/
def RealCap (cap : String) : Prop :=
  cap ≠ "" ∧ "URI:SCRUBBED:".toList.isPrefixOf cap.toList = false

/-- Reading a quoted configuration value: `%%` stands for `%` (`configparser`). -/
def unquote : List Char → List Char
  | '%' :: '%' :: cs => '%' :: unquote cs
  | c :: cs => c :: unquote cs
  | [] => []

/-- What a directory of the grid holds under a name. -/
def entry (g : MemoryGrid) (dir : Cap) (name : String) : Option Cap :=
  match dir with
  | .dirWrite n | .dirRead n => (g.dirs.lookup n).bind (fun children => children.lookup name)
  | .chk _ => none

/-- Two capabilities for one directory. -/
def SameDirectory (a b : Cap) : Prop := a.reader = b.reader

instance (a b : Cap) : Decidable (SameDirectory a b) := by unfold SameDirectory; infer_instance

end ZKAP.Spec
