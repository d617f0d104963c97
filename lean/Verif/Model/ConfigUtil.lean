import Verif.Model.Py

/-! `configutil.py` and `_stack.py`. -/
namespace ZKAP

/-- `configutil.py:25-37` `_merge_dictionaries`. -/
def merge_dictionaries {κ α} [BEq κ] (dictionaries : List (Dict κ α)) : Dict κ α :=
  dictionaries.foldl (fun result d => result.update d) []

/-- `configutil.py:40-48` `_tahoe_config_quote`. -/
def tahoe_config_quote (text : String) : String :=
  String.ofList (text.toList.flatMap (fun c => if c = '%' then ['%', '%'] else [c]))

/-- One line of a section, `configutil.py:69-71`. -/
def config_item (kv : String × String) : String := kv.1 ++ " = " ++ tahoe_config_quote kv.2

/-- One section, `configutil.py:66-73`. -/
def config_section (section_ : String × Dict String String) : String :=
  "[" ++ section_.1 ++ "]\n" ++ String.intercalate "\n" (section_.2.map config_item) ++ "\n"

/-- `configutil.py:51-77` `config_string_from_sections`. -/
def config_string_from_sections (divided_sections : List (Dict String (Dict String String))) : String :=
  String.join ((merge_dictionaries divided_sections).map config_section)

/-- The resource limit on the stack: soft and hard limit. -/
structure StackLimit where
  soft : Int
  hard : Int
  deriving DecidableEq, Repr

/-- `_stack.py:31-51` `less_limited_stack` around an operation.  `body` is the operation: its
result and the limit it leaves behind.  `raisable` says whether the platform lets the soft limit
be raised to the hard one (not so on macOS).  An exception of the operation is raised at the
`yield`, so what follows it is skipped. -/
def less_limited_stack {α} (raisable : Bool) (body : StackLimit → Except PyErr α × StackLimit)
    (limit : StackLimit) : Except PyErr α × StackLimit :=
  if raisable then
    match body ⟨limit.hard, limit.hard⟩ with
    | (.ok a, _) => (.ok a, ⟨limit.soft, limit.hard⟩)
    | (.error e, l) => (.error e, l)
  else body limit

end ZKAP
