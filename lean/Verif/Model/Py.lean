/-!
Python values used by the rest of the model.

* `Bytes` models Python `bytes`.
* `Dict κ α` models a Python `dict` by its list of items in insertion order.
  Python guarantees that the keys of a dict are distinct; where a theorem needs
  this of an input it says so with `Dict.WF`.
* `PyErr` models the exceptions the modelled code can raise.
-/
namespace ZKAP

abbrev Bytes := List UInt8

/-- Exceptions raised by the modelled code. The class names are those of the
source; messages are dropped. -/
inductive PyErr where
  | typeError
  | valueError
  | keyError
  | zeroDivision
  | assertionError
  | integrityError           -- sqlite3.IntegrityError
  | operationalError         -- sqlite3.OperationalError
  | notEnoughTokens          -- model.py:126-130
  | notEmpty                 -- model.py:92-96
  | newLengthRejected        -- _storage_server.py:104-112
  | other (code : Nat)       -- any other exception, told apart by a number
  deriving DecidableEq, Repr

deriving instance DecidableEq for Except

/-- A Python `dict`: items in insertion order. -/
abbrev Dict (κ α : Type) := List (κ × α)

/-- The keys of a Python dict are pairwise distinct. -/
def Dict.WF {κ α} (d : Dict κ α) : Prop := (d.map Prod.fst).Nodup

/-- `d.get(k, default)`. -/
def Dict.getD {κ α} [BEq κ] (d : Dict κ α) (k : κ) (default : α) : α :=
  (d.lookup k).getD default

/-- `d[k] = v`: replaces the value in place or appends a new item. -/
def Dict.set {κ α} [BEq κ] : Dict κ α → κ → α → Dict κ α
  | [], k, v => [(k, v)]
  | (k', v') :: d, k, v => if k' == k then (k', v) :: d else (k', v') :: Dict.set d k v

/-- `d.update(e)` for the items `e` in order. -/
def Dict.update {κ α} [BEq κ] (d e : Dict κ α) : Dict κ α :=
  e.foldl (fun acc kv => Dict.set acc kv.1 kv.2) d

/-- `dict(items)`. -/
def Dict.ofItems {κ α} [BEq κ] (items : List (κ × α)) : Dict κ α :=
  Dict.update [] items

/-- `d.values()`. -/
def Dict.values {κ α} (d : Dict κ α) : List α := d.map Prod.snd

/-- `d.keys()`. -/
def Dict.keys {κ α} (d : Dict κ α) : List κ := d.map Prod.fst

end ZKAP
