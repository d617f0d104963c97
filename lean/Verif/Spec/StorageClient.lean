import Verif.Model.StorageClient
import Verif.Spec.Spending
import Verif.Spec.Pricing

/-! What the properties of `Verif.Props.StorageClient` talk about. -/
namespace ZKAP.Spec

/-- The reference is one to a ZKAPAuthorizer storage server. -/
def RightServer (get_rref : Except PyErr RRef) : Prop :=
  get_rref = .ok ⟨true, some "RIPrivacyPassAuthorizedStorageServer.tahoe.privatestorage.io"⟩

/-- The operations that are free. -/
def Free : StorageOp → Prop
  | .allocateBuckets .. | .addLease .. | .writev .. => False
  | _ => True

/-- The passes that come with a request. -/
def passesIn : StorageRequest → List Bytes
  | .allocateBuckets passes .. => passes
  | .addLease passes .. => passes
  | .writev passes .. => passes
  | _ => []

/-- A pass the signer made for this message. -/
def MadeFor (sign : Signer) (message : Bytes) (x : String) (p : Pass) : Prop :=
  ∃ tokens made, sign message tokens = .ok made ∧ (x, p) ∈ tokens.zip made

/-- The price of an operation, given what was received before: for an upload what its shares cost, for a lease
renewal what shares of the sizes cost that the server reported for this operation, for a write
what is computed from the shares the server reported (C116), or nothing if it has no data. -/
def OpPrice (v : Int) (received : List Out) (op : StorageOp) (n : Int) : Prop :=
  match op with
  | .allocateBuckets _ _ _ sharenums size _ => n = total v (List.replicate sharenums.length (size : Int))
  | .addLease .. => ∃ w now sizes, .got op (.result w) now ∈ received ∧ client_share_sizes w = .ok sizes ∧
      n = total v sizes.values
  | .writev _ _ tw _ => (∀ kv ∈ tw, kv.2.datav = []) ∧ n = 0 ∨
      ∃ w now, .got op (.result w) now ∈ received ∧ client_writev_price v w tw now = .ok n
  | _ => n = 0

/-- The remote call without passes an operation begins with: a free operation is that call; a renewal asks for the
sizes of the shares at its storage index, and a write for the state of the shares in its slot. -/
inductive FirstCall : StorageOp → StorageRequest → Prop where
  | version : FirstCall .getVersion .getVersion
  | download (si) : FirstCall (.getBuckets si) (.getBuckets si)
  | stat (sis) : FirstCall (.statShares sis) (.statShares sis)
  | corrupt (type si shnum reason) :
      FirstCall (.adviseCorruptShare type si shnum reason) (.adviseCorruptShare type si shnum reason)
  | read (si shares rv) : FirstCall (.readv si shares rv) (.readv si shares rv)
  | renew (si renew cancel) : FirstCall (.addLease si renew cancel) (.shareSizes si)
  | write (si secrets tw rv) : (∃ kv ∈ tw, kv.2.datav ≠ []) → FirstCall (.writev si secrets tw rv) (.statShares [si])

/-- The remote call that performs an operation paid with passes, and the message the passes have to be made for. -/
inductive PaidCall : StorageOp → StorageRequest → (passes : List Bytes) → (message : Bytes) → Prop where
  | upload (passes si renew cancel sharenums size canary) :
      PaidCall (.allocateBuckets si renew cancel sharenums size canary)
        (.allocateBuckets passes si renew cancel sharenums size canary) passes (allocate_buckets_message si)
  | renew (passes si renew cancel) :
      PaidCall (.addLease si renew cancel) (.addLease passes si renew cancel) passes (add_lease_message si)
  | write (passes si secrets tw rv) :
      PaidCall (.writev si secrets tw rv) (.writev passes si secrets tw rv) passes
        (slot_testv_and_readv_and_writev_message si)

/-- The tokens an operation pays with when it succeeds, of those it held: for an upload as many of the first ones
as the new buckets cost, otherwise all. -/
def paidWith (v : Int) (op : StorageOp) (buckets : Nat) (tokens : List String) : List String :=
  match op with
  | .allocateBuckets _ _ _ _ size _ => tokens.take (total v (List.replicate buckets (size : Int))).toNat
  | _ => tokens

/-- The issuer does not issue a token again that this client has found invalid. -/
def NoReissueIn (sign : Signer) (v : Int) : StorageSession → List SessionEvent → Prop
  | _, [] => True
  | s, e :: es =>
    (∀ op, e = .other op → ∀ x, Issues x op → x ∉ invalidTokens s.store) ∧
      NoReissueIn sign v (s.step sign v e) es

/-- The tokens in the store. -/
def storedTokens (t : Tables) : List String := t.app.unblinded.map (·.token)

end ZKAP.Spec
