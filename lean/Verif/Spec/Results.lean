import Verif.Spec.Conversation
import Verif.Spec.ServerReads
import Verif.Spec.Slot

/-! What the properties of `Verif.Props.Results` talk about. -/
namespace ZKAP.Spec

/-- The time at which the last lease of a share ends; 0 for a share without a lease. -/
def LastLease (share : Share) (e : Int) : Prop :=
  (share.leases = [] ∧ e = 0) ∨ ((∃ l ∈ share.leases, l.expiration = e) ∧ ∀ l ∈ share.leases, l.expiration ≤ e)

/-- The shares a read is about: those it names, or all if it names none. -/
def Named (shares : List Nat) (n : Nat) : Prop := shares = [] ∨ n ∈ shares

instance (shares : List Nat) (n : Nat) : Decidable (Named shares n) := inferInstanceAs (Decidable (_ ∨ _))

/-- What the result of an operation says: what the server had, and what it did at this time from one state to
another. -/
def Happened (s s' : Server) (now : Int) : StorageOp → OpResult → Prop
  | .getVersion, .version _ => s' = s
  | .adviseCorruptShare .., .none => s' = s
  | .getBuckets si, .buckets readers => s' = s ∧
      ∀ n : Int, n ∈ readers.map Prod.fst ↔ ∃ (k : Nat) (share : Share), n = k ∧ StoredShare s si k share
  | .statShares sis, .stats l => s' = s ∧ l.length = sis.length ∧
      ∀ (i : Nat) (si : SI) (d : Dict Int (Dict String Wire)), sis[i]? = some si → l[i]? = some d → ∀ n : Nat,
        (∀ share, StoredShare s si n share → ∃ e, LastLease share e ∧
          d.lookup (n : Int) = some [("size", .int share.data.length), ("lease_expiration", .int e)]) ∧
        ((∀ share, ¬ StoredShare s si n share) → d.lookup (n : Int) = none)
  | .readv si shares rv, .read w => s' = s ∧ ∃ items : List (Nat × List Bytes),
      w = .dict (items.map fun kv => (.int kv.1, .list (kv.2.map .bytes))) ∧
      ∀ n, items.lookup n = if Named shares n then ((s.buckets si).lookup n).map (fun share => selected share.data rv)
        else none
  | .allocateBuckets si renew _ nums size canary, .allocated alreadygot writers => s'.buckets = s.buckets ∧
      ∃ (got : List Nat) (opened : List (Nat × Nat)),
        alreadygot = .set (got.map fun n : Nat => .int n) ∧ (∀ n, n ∈ got ↔ ∃ share, StoredShare s si n share) ∧
        writers = .dict (opened.map fun nb => (.int nb.1, .ref nb.2)) ∧
        ∀ nb ∈ opened, nb.1 ∈ nums ∧ nb.1 ∉ got ∧
          ⟨nb.2, si, nb.1, size, ⟨renew, now + 31 * 24 * 60 * 60⟩, canary⟩ ∈ s'.writers
  | .addLease si renew _, .none => (∀ si', si' ≠ si → s'.buckets si' = s.buckets si') ∧
      ∀ n share, StoredShare s si n share → ∃ share', StoredShare s' si n share' ∧ share'.data = share.data ∧
        ∃ l ∈ share'.leases, l.renew_secret = renew ∧ now + 31 * 24 * 60 * 60 ≤ l.expiration
  | .writev si _ tw rv, .written ok read => (∀ si', si' ≠ si → s'.buckets si' = s.buckets si') ∧
      (ok = true ↔ TestsHold (s.buckets si) tw) ∧
      (∀ n : Nat, read.lookup (n : Int) = ((s.buckets si).lookup n).map (fun share => selected share.data rv)) ∧
      (∀ n t, ok = true → tw.lookup n = some t → ∀ i,
        (dataOf (s'.buckets si) n)[i]? = byteAfter (dataOf (s.buckets si) n) t.datav i) ∧
      ∀ n, ok = false ∨ tw.lookup n = none →
        ((s'.buckets si).lookup n).map Share.data = ((s.buckets si).lookup n).map Share.data
  | _, _ => False

/-- The arguments are what Python makes them: sets and dictionaries without repetitions. -/
def Sets : StorageOp → Prop
  | .writev _ _ tw _ => Dict.WF tw
  | _ => True

/-- What an operation without a price asks about can be told: shares with numbers of 31 bits, each of the kind the
operation is for, and no more readers than the protocol has room for. -/
def Answerable (s : Server) : StorageOp → Prop
  | .getBuckets si => Tellable (s.buckets si) ∧ (s.buckets si).length ≤ 256 ∧
      ∀ kv ∈ s.buckets si, kv.2.is_mutable = false
  | .statShares sis => ∀ si ∈ sis, Tellable (s.buckets si)
  | .readv si shares _ => ∀ kv ∈ s.buckets si, Named shares kv.1 → kv.1 < 2 ^ 31 ∧ kv.2.is_mutable = true
  | _ => True

end ZKAP.Spec
