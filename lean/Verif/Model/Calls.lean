import Verif.Model.Wire

/-! What a storage server does with a call before one of its methods runs. -/
namespace ZKAP

/-- Foolscap checks a call of any client against the schema of the method, `foolscap.py:135-193`, and hands it to the
method if it satisfies it.  Arguments by keyword, which Foolscap admits as well, are left out: the storage client sends
all by position. -/
def call_admitted (name : String) (args : List Wire) : Bool :=
  match RIPrivacyPassAuthorizedStorageServer name with
  | none => false
  | some schema => schema.checkArgs args

end ZKAP
