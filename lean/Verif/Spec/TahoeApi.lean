import Verif.Model.TahoeApi
import Verif.Spec.Misc

/-! What the client of the HTTP API is held to. -/
namespace ZKAP.Spec

/-- `text` is somewhere in `s`. -/
def Mentions (s text : String) : Prop := ∃ before after, s.toList = before ++ text.toList ++ after

/-- Text that says that servers are missing. -/
def SaysNoServers (s : String) : Prop :=
  Mentions s "allmydata.interfaces.NoServersError" ∨ Mentions s "allmydata.mutable.common.NotEnoughServersError"

/-- What is assumed of the libraries that convert text: what is written can be read, and a capability does not
look like an error. -/
structure TextLaws (T : ApiText) : Prop where
  cap : ∀ c, T.parse_cap (T.show_cap c) = some c
  nonempty : ∀ c, T.show_cap c ≠ ""
  plain : ∀ c, ¬ SaysNoServers (T.show_cap c)
  json : ∀ entries, T.loads (T.dumps (listing_json T entries)) = some (listing_json T entries)

/-- The root of the API has no path of its own: `http://host:port` or `http://host:port/`. -/
def PlainRoot (api_root : List String) : Prop := api_root = [] ∨ api_root = [""]

/-- What a caller sees of the end of an operation: its value, or one of the exceptions with a meaning, or another. -/
inductive Seen (α : Type) where
  | value (a : α)
  | notWriteable
  | notADirectory
  | other
  deriving DecidableEq, Repr

/-- The HTTP client. -/
def seenApi {α} : Except TahoeErr α → Seen α
  | .ok a => .value a
  | .error .notWriteable => .notWriteable
  | .error .notADirectory => .notADirectory
  | .error _ => .other

/-- The in-memory client. -/
def seenMem {α} : Except PyErr α → Seen α
  | .ok a => .value a
  | .error (.other 10) => .notWriteable
  | .error _ => .other

/-- The answer of a node that lacks servers. -/
def NoServersAnswer (status : Nat) (text : String) : Prop :=
  status ≠ 200 ∧ status ≠ 201 ∧ SaysNoServers text ∧
    ¬ Mentions text "allmydata.mutable.common.NotWriteableError" ∧ ¬ Mentions text "Files have no children named"

/-- The node was not there, or it lacked servers and did nothing. -/
def Harmless : Hindrance → Prop
  | .refused => True
  | .noServers status text done => NoServersAnswer status text ∧ done = false

/-- The node was not there, or it lacked servers and said so, whatever it had done. -/
def Temporary : Hindrance → Prop
  | .refused => True
  | .noServers status text _ => NoServersAnswer status text

/-- The call ended, the grid is as after the operation on the in-memory grid, and the caller sees the same. -/
def SameAs {α} (call : Option (Except TahoeErr α × (MemoryGrid × List Hindrance))) (mem : Except PyErr α × MemoryGrid) :
    Prop :=
  ∃ r hs, call = some (r, mem.2, hs) ∧ seenApi r = seenMem mem.1

/-- What was on a grid is unchanged on another one. -/
def Keeps (g g' : MemoryGrid) : Prop :=
  (∀ n data, g.files.lookup n = some data → g'.files.lookup n = some data) ∧
  (∀ n children, g.dirs.lookup n = some children → g'.dirs.lookup n = some children)

/-- The reply ends the call: whatever comes next is not asked for. -/
def Ends {W α} (send : ApiRequest → W → ApiReply × W) (c : ApiCall α) (w : W) : Prop :=
  ∃ r, ∀ fuel, call_api send c (fuel + 1) w = some (r, (send c.request w).2)

/-- The node answers, and does not say that it lacks servers. -/
def Answers {W α} (send : ApiRequest → W → ApiReply × W) (c : ApiCall α) (w : W) : Prop :=
  ∃ status text, (send c.request w).1 = html status text ∧ ¬ SaysNoServers text

/-- The attempt is followed by another one. -/
def Retried {α} (c : ApiCall α) (reply : ApiReply) : Prop :=
  ∃ e, c.read reply = .error e ∧ common_tahoe_error e = true

/-- A reply with this status that says that servers are missing. -/
def Lacking (reply : ApiReply) (final : Nat → String → Prop) : Prop :=
  ∃ status body text, reply = .reply status body ∧ py_decode body = some text ∧ SaysNoServers text ∧ ¬ final status text

end ZKAP.Spec
