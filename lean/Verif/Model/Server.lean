import Verif.Model.Pricing
import Verif.Model.Pass

/-! The storage server plugin, `_storage_server.py`, on top of a small model of the
Tahoe-LAFS storage server it wraps (`self._original`).

The Tahoe-LAFS part is not in this repository; definitions prefixed `original_` model its
documented behaviour and are part of the trusted base. -/
namespace ZKAP

abbrev SI := Bytes
abbrev Secret := Bytes

/-- A lease on a share. Simplification: cancel secret, owner and node id are dropped; times are
whole seconds. -/
structure Lease where
  renew_secret : Secret
  expiration : Int
  deriving DecidableEq, Repr

/-- A share file: mutable (slot) or immutable (bucket), see `_storage_server.py:946-965`. -/
structure Share where
  is_mutable : Bool
  write_enabler : Secret
  data : Bytes
  leases : List Lease
  deriving DecidableEq, Repr

/-- The shares in the directory of one storage index, in `listdir` order. -/
abbrev Bucket := Dict Nat Share

/-- An open bucket writer of the Tahoe-LAFS server (a share in `incoming`). -/
structure Writer where
  bw : Nat                 -- identity of the `BucketWriter` object
  si : SI
  sharenum : Nat
  allocated_size : Nat
  lease : Lease
  canary : Nat             -- the connection the writer was requested through
  deriving DecidableEq, Repr

/-- State of the plugin and of the server it wraps. -/
structure Server where
  buckets : SI → Bucket
  writers : List Writer
  next_bw : Nat
  /-- `_bucket_writer_disconnect_markers`, `_storage_server.py:244-249`: writer ↦ (canary, marker). -/
  markers : Dict Nat (Nat × Nat)
  /-- What foolscap holds per connection: (canary, marker, writer to notify). -/
  registrations : List (Nat × Nat × Nat)
  next_marker : Nat
  /-- What the spender recorded for the server's only key, `server/spending.py:53-56`. -/
  spent : List Bytes
  /-- `_metric_spending_successes.observe` calls. -/
  observed : List Int

/-- Constructor arguments of `ZKAPAuthorizerStorageServer` that matter.
`verifies message pass` is the cryptographic check (`False` from
`_ValidationResult._is_invalid_pass`, `_storage_server.py:129-157`, which maps every
exception to "invalid"). -/
structure ServerConfig where
  pass_value : Int
  verifies : Bytes → Pass → Bool

/-- Exceptions of the server's remote methods. -/
inductive SErr where
  | morePassesRequired (valid_count : Nat) (required_count : Int) (signature_check_failed : List Nat)
  | newLengthRejected
  | badPass (e : PyErr)        -- `Pass.from_bytes` raised
  | badWriteEnabler            -- Tahoe-LAFS `BadWriteEnablerError`
  | wrongShareType             -- Tahoe-LAFS `UnknownMutableContainerVersionError`
  | noSpace                    -- Tahoe-LAFS `NoSpace`
  deriving DecidableEq, Repr

/-- `_storage_server.py:115-127` `_ValidationResult`. -/
structure ValidationResult where
  valid : List Bytes
  signature_check_failed : List Nat
  deriving DecidableEq, Repr

/-- The loop of `validate_passes`, `_storage_server.py:175-180`, starting at index `idx`. -/
def validate_loop (ok : Pass → Bool) : Nat → List Bytes → Except PyErr ValidationResult
  | _, [] => .ok ⟨[], []⟩
  | idx, pass_ :: rest =>
    match Pass.from_bytes pass_ with
    | .error e => .error e
    | .ok pass_obj =>
      match validate_loop ok (idx + 1) rest with
      | .error e => .error e
      | .ok r =>
        if ok pass_obj then .ok { r with valid := pass_obj.preimage :: r.valid }
        else .ok { r with signature_check_failed := idx :: r.signature_check_failed }

/-- `_storage_server.py:159-184` `validate_passes`. -/
def validate_passes (cfg : ServerConfig) (message : Bytes) (passes : List Bytes) :
    Except PyErr ValidationResult :=
  validate_loop (cfg.verifies message) 0 passes

/-- `_storage_server.py:186-195` `raise_for`. -/
def ValidationResult.raise_for (self : ValidationResult) (required_pass_count : Int) : SErr :=
  .morePassesRequired self.valid.length required_pass_count self.signature_check_failed

/-- `_storage_server.py:642-665` `check_pass_quantity`. -/
def check_pass_quantity (pass_value : Int) (validation : ValidationResult) (share_sizes : List Int) :
    Except SErr Unit :=
  let required_pass_count := required_passes pass_value share_sizes
  if (validation.valid.length : Int) < required_pass_count then
    .error (validation.raise_for required_pass_count)
  else .ok ()

/-- `_storage_server.py:699-722` `check_pass_quantity_for_write`; `sharenums` is a set. -/
def check_pass_quantity_for_write (pass_value : Int) (validation : ValidationResult)
    (sharenums : List Nat) (allocated_size : Int) : Except SErr Unit :=
  check_pass_quantity pass_value validation (List.replicate sharenums.length allocated_size)

/-- `foolscap.py:24-58` `ShareStat`. -/
structure ShareStat where
  size : Int
  lease_expiration : Int
  deriving DecidableEq, Repr

/-- `_storage_server.py:914-928` `get_lease_expiration`: the latest expiration or `None`. -/
def get_lease_expiration (share : Share) : Option Int :=
  match share.leases with
  | [] => none
  | l :: ls => some (ls.foldl (fun m l => max m l.expiration) l.expiration)

/-- `_storage_server.py:890-911` `stat_bucket`/`stat_slot`. Reading the size from the file is
modelled separately in `Model/ShareFile.lean`. -/
def share_stat (share : Share) : ShareStat :=
  ⟨share.data.length, (get_lease_expiration share).getD 0⟩

/-- `_storage_server.py:800-830` `get_share_stats`; `none` means all shares.
Simplification: all shares at one index are of one kind, so the choice of the stat
function from the first share (lines 826-827) has no effect. -/
def get_share_stats (bucket : Bucket) (sharenums : Option (List Nat)) : Dict Nat ShareStat :=
  (bucket.filter (fun kv => match sharenums with
    | none => true
    | some l => l.contains kv.1)).map (fun kv => (kv.1, share_stat kv.2))

/-- `_storage_server.py:778-797` `get_share_sizes`. -/
def get_share_sizes (bucket : Bucket) (sharenums : Option (List Nat)) : Dict Nat Int :=
  (get_share_stats bucket sharenums).map (fun kv => (kv.1, kv.2.size))

/-- `_storage_server.py:483-492` `remote_share_sizes`. -/
def remote_share_sizes (s : Server) (si : SI) (sharenums : Option (List Nat)) : Dict Nat Int :=
  Dict.ofItems (get_share_sizes (s.buckets si) sharenums)

/-- `_storage_server.py:494-500` `remote_stat_shares`. -/
def remote_stat_shares (s : Server) (sis : List SI) : List (Dict Nat ShareStat) :=
  sis.map (fun si => Dict.ofItems (get_share_stats (s.buckets si) none))

/-- `_storage_server.py:1018-1030` `share_has_active_leases` on the share itself. -/
def share_has_active_leases (share : Share) (now : Int) : Bool :=
  share.leases.any (fun l => decide (l.expiration > now))

/-- The comprehension `_storage_server.py:1056-1067`: zero the size of every share without an
unexpired lease. A share number in `current_sizes` is always in the bucket; were it not, the
real code would fail to open the file, here it is left alone. -/
def zero_unleased (bucket : Bucket) (now : Int) (current_sizes : Dict Nat Int) : Dict Nat Int :=
  current_sizes.update
    ((current_sizes.filter (fun kv => match bucket.lookup kv.1 with
      | some share => !share_has_active_leases share now
      | none => false)).map (fun kv => (kv.1, 0)))

/-- `_storage_server.py:1033-1075` `get_writev_price`. -/
def get_writev_price (bucket : Bucket) (pass_value : Int) (tw : TWVectors) (now : Int) : Int :=
  let current_sizes := Dict.ofItems (get_share_sizes bucket (some (get_write_sharenums tw)))
  get_required_new_passes_for_mutable_write pass_value (zero_unleased bucket now current_sizes) tw

/-- `_storage_server.py:225` `LEASE_PERIOD`, 31 days in seconds. -/
def LEASE_PERIOD : Int := 31 * 24 * 60 * 60

/-! ### The wrapped Tahoe-LAFS server -/

/-- Tahoe-LAFS `renew_lease`: the first lease with the secret gets the later expiration;
`none` when there is no such lease (`IndexError`). -/
def original_renew (secret : Secret) (expiration : Int) : List Lease → Option (List Lease)
  | [] => none
  | l :: ls =>
    if l.renew_secret = secret then some (⟨l.renew_secret, max l.expiration expiration⟩ :: ls)
    else (original_renew secret expiration ls).map (l :: ·)

/-- Tahoe-LAFS `add_or_renew_lease`; `space` says whether there is room for another lease
record, `none` is `NoSpace`. -/
def original_add_or_renew_lease (space : Bool) (lease : Lease) (share : Share) : Option Share :=
  match original_renew lease.renew_secret lease.expiration share.leases with
  | some ls => some { share with leases := ls }
  | none => if space then some { share with leases := share.leases ++ [lease] } else none

/-- A loop adding a lease to the selected shares, in order, that stops at the first `NoSpace`.
Returns the shares and whether it completed. -/
def add_leases_loop (space : Nat → Bool) (lease : Lease) (select : Nat → Share → Bool) :
    Bucket → Bucket × Bool
  | [] => ([], true)
  | (n, share) :: rest =>
    if select n share then
      match original_add_or_renew_lease (space n) lease share with
      | none => ((n, share) :: rest, false)
      | some share' =>
        let r := add_leases_loop space lease select rest
        ((n, share') :: r.1, r.2)
    else
      let r := add_leases_loop space lease select rest
      ((n, share) :: r.1, r.2)

/-- Tahoe-LAFS `StorageServer.add_lease`: every share at the index. -/
def original_add_lease (space : Nat → Bool) (lease : Lease) (bucket : Bucket) : Bucket × Bool :=
  add_leases_loop space lease (fun _ _ => true) bucket

/-- Tahoe-LAFS `_write_share_data`: overwrite from `offset`, filling a gap with zeros. -/
def original_write (data : Bytes) (w : Nat × Bytes) : Bytes :=
  (data ++ List.replicate (w.1 - data.length) 0).take w.1 ++ w.2 ++ data.drop (w.1 + w.2.length)

/-- Tahoe-LAFS `check_testv` on the data of one share (empty when there is none). -/
def original_testv (data : Bytes) (testv : List TestItem) : Bool :=
  testv.all (fun t => (data.drop t.offset).take t.length == t.specimen)

/-- Tahoe-LAFS `_evaluate_test_vectors`. -/
def original_evaluate_test_vectors (bucket : Bucket) (tw : TWVectors) : Bool :=
  tw.all (fun kv => original_testv ((bucket.lookup kv.1).elim [] Share.data) kv.2.testv)

/-- Tahoe-LAFS `_evaluate_read_vectors`. -/
def original_evaluate_read_vectors (bucket : Bucket) (rv : List (Nat × Nat)) : Dict Nat (List Bytes) :=
  bucket.map (fun kv => (kv.1, rv.map (fun r => (kv.2.data.drop r.1).take r.2)))

/-- Tahoe-LAFS `_evaluate_write_vectors` for one share: create it if missing (without a lease),
then write. `new_length` is always `None` here, see `_storage_server.py:563-565`. -/
def original_write_share (write_enabler : Secret) (bucket : Bucket) (kv : Nat × TW) : Bucket :=
  let share := (bucket.lookup kv.1).getD ⟨true, write_enabler, [], []⟩
  bucket.set kv.1 { share with data := kv.2.datav.foldl original_write share.data }

/-- Tahoe-LAFS `_evaluate_write_vectors`. -/
def original_evaluate_write_vectors (write_enabler : Secret) (bucket : Bucket) (tw : TWVectors) : Bucket :=
  tw.foldl (original_write_share write_enabler) bucket

/-- Tahoe-LAFS `slot_testv_and_readv_and_writev` with `renew_leases=False`. -/
def original_slot_writev (write_enabler : Secret) (bucket : Bucket) (tw : TWVectors)
    (rv : List (Nat × Nat)) : Except SErr (Bucket × Bool × Dict Nat (List Bytes)) :=
  if bucket.any (fun kv => !kv.2.is_mutable) then .error .wrongShareType
  else if bucket.any (fun kv => kv.2.write_enabler != write_enabler) then .error .badWriteEnabler
  else
    let read := original_evaluate_read_vectors bucket rv
    if original_evaluate_test_vectors bucket tw then
      .ok (original_evaluate_write_vectors write_enabler bucket tw, true, read)
    else .ok (bucket, false, read)

/-- Tahoe-LAFS `allocate_buckets` with `renew_leases=False`: the share numbers for which a
bucket writer is created. `accept` says whether the server has room for a share; a share
that exists or is being uploaded gets no writer. -/
def original_accepted (s : Server) (si : SI) (sharenums : List Nat) (accept : Nat → Bool) : List Nat :=
  sharenums.filter (fun n =>
    !((s.buckets si).keys.contains n) && !(s.writers.any (fun w => w.si == si && w.sharenum == n))
      && accept n)

/-- Function update on storage indexes. -/
def set_bucket (buckets : SI → Bucket) (si : SI) (b : Bucket) : SI → Bucket :=
  fun x => if x = si then b else buckets x

/-! ### The plugin's remote methods -/

/-- Arguments of `remote_allocate_buckets`, plus the environment: the time and what the wrapped
server accepts. -/
structure AllocateArgs where
  passes : List Bytes
  storage_index : SI
  renew_secret : Secret
  sharenums : List Nat        -- a set: no duplicates
  allocated_size : Nat
  canary : Nat
  now : Int
  accept : Nat → Bool

/-- One iteration of the loop `_storage_server.py:403-408` together with the creation of the
writer: register with the connection and remember the marker. -/
def open_writer (a : AllocateArgs) (s : Server) (n : Nat) : Server :=
  { s with
    writers := s.writers ++
      [⟨s.next_bw, a.storage_index, n, a.allocated_size, ⟨a.renew_secret, a.now + LEASE_PERIOD⟩, a.canary⟩]
    registrations := s.registrations ++ [(a.canary, s.next_marker, s.next_bw)]
    markers := s.markers.set s.next_bw (a.canary, s.next_marker)
    next_bw := s.next_bw + 1
    next_marker := s.next_marker + 1 }

/-- `_storage_server.py:330-415` `remote_allocate_buckets`. Returns `alreadygot` and the share
numbers of the bucket writers. -/
def remote_allocate_buckets (cfg : ServerConfig) (a : AllocateArgs) (s : Server) :
    Server × Except SErr (List Nat × List Nat) :=
  match validate_passes cfg (allocate_buckets_message a.storage_index) a.passes with
  | .error e => (s, .error (.badPass e))
  | .ok validation =>
    match check_pass_quantity_for_write cfg.pass_value validation a.sharenums a.allocated_size with
    | .error e => (s, .error e)
    | .ok () =>
      let alreadygot := (s.buckets a.storage_index).keys
      let bucketwriters := original_accepted s a.storage_index a.sharenums a.accept
      let spent_passes :=
        required_passes cfg.pass_value (List.replicate bucketwriters.length (a.allocated_size : Int))
      let s1 := bucketwriters.foldl (open_writer a) s
      ({ s1 with
          observed := s1.observed ++ [spent_passes]
          spent := s1.spent ++ validation.valid.take spent_passes.toNat },
        .ok (alreadygot, bucketwriters))

/-- Arguments of `remote_add_lease`, plus time and space. -/
structure AddLeaseArgs where
  passes : List Bytes
  storage_index : SI
  renew_secret : Secret
  now : Int
  space : Nat → Bool

/-- `_storage_server.py:668-696` `check_pass_quantity_for_lease`. -/
def check_pass_quantity_for_lease (pass_value : Int) (validation : ValidationResult) (bucket : Bucket) :
    Except SErr Unit :=
  check_pass_quantity pass_value validation
    (Dict.ofItems (get_share_sizes bucket (some bucket.keys))).values

/-- `_storage_server.py:439-468` `remote_add_lease`. -/
def remote_add_lease (cfg : ServerConfig) (a : AddLeaseArgs) (s : Server) : Server × Except SErr Unit :=
  match validate_passes cfg (add_lease_message a.storage_index) a.passes with
  | .error e => (s, .error (.badPass e))
  | .ok validation =>
    match check_pass_quantity_for_lease cfg.pass_value validation (s.buckets a.storage_index) with
    | .error e => (s, .error e)
    | .ok () =>
      let r := original_add_lease a.space ⟨a.renew_secret, a.now + LEASE_PERIOD⟩
        (s.buckets a.storage_index)
      let s1 := { s with buckets := set_bucket s.buckets a.storage_index r.1 }
      if r.2 then
        ({ s1 with
            spent := s1.spent ++ validation.valid
            observed := s1.observed ++ [(validation.valid.length : Int)] }, .ok ())
      else (s1, .error .noSpace)

/-- Arguments of `remote_slot_testv_and_readv_and_writev`, plus time and space. -/
structure WritevArgs where
  passes : List Bytes
  storage_index : SI
  write_enabler : Secret
  renew_secret : Secret
  tw_vectors : TWVectors
  r_vector : List (Nat × Nat)
  now : Int
  space : Nat → Bool

/-- The condition `_storage_server.py:980-985` under which a share gets a new lease. -/
def wants_lease (tw : TWVectors) (now : Int) (n : Nat) (share : Share) : Bool :=
  match tw.lookup n with
  | none => false
  | some t => (!t.datav.isEmpty || t.new_length.isSome) && !share_has_active_leases share now

/-- `_storage_server.py:968-1000` `add_leases_for_writev`. -/
def add_leases_for_writev (a : WritevArgs) (bucket : Bucket) : Bucket × Bool :=
  add_leases_loop a.space ⟨a.renew_secret, a.now + LEASE_PERIOD⟩ (wants_lease a.tw_vectors a.now) bucket

/-- `_storage_server.py:502-623` `remote_slot_testv_and_readv_and_writev`. -/
def remote_slot_writev (cfg : ServerConfig) (a : WritevArgs) (s : Server) :
    Server × Except SErr (Bool × Dict Nat (List Bytes)) :=
  if a.tw_vectors.values.any (fun t => t.new_length.isSome) then (s, .error .newLengthRejected)
  else
    match validate_passes cfg (slot_testv_and_readv_and_writev_message a.storage_index) a.passes with
    | .error e => (s, .error (.badPass e))
    | .ok validation =>
      let required_new_passes :=
        get_writev_price (s.buckets a.storage_index) cfg.pass_value a.tw_vectors a.now
      if required_new_passes > (validation.valid.length : Int) then
        (s, .error (validation.raise_for required_new_passes))
      else
        match original_slot_writev a.write_enabler (s.buckets a.storage_index) a.tw_vectors a.r_vector with
        | .error e => (s, .error e)
        | .ok (bucket, good, read) =>
          let r := add_leases_for_writev a bucket
          let s1 := { s with buckets := set_bucket s.buckets a.storage_index r.1 }
          if r.2 then
            ({ s1 with
                spent := s1.spent ++ validation.valid
                observed := s1.observed ++ [required_new_passes] }, .ok (good, read))
          else (s1, .error .noSpace)

/-! ### Bucket writers -/

/-- `_storage_server.py:258-270` `_bucket_writer_closed`. -/
def bucket_writer_closed (s : Server) (bw : Nat) : Server :=
  match s.markers.lookup bw with
  | none => s
  | some (canary, marker) =>
    { s with
      markers := s.markers.filter (fun kv => kv.1 != bw)
      registrations := s.registrations.filter (fun r => !(r.1 == canary && r.2.1 == marker)) }

/-- Tahoe-LAFS `BucketWriter.close`: the share moves from `incoming` to its final place with the
data written, then the close handlers run. A closed or unknown writer is not touched. -/
def original_close (s : Server) (bw : Nat) (data : Bytes) : Server :=
  match s.writers.find? (fun w => w.bw == bw) with
  | none => s
  | some w =>
    bucket_writer_closed
      { s with
        buckets := set_bucket s.buckets w.si
          ((s.buckets w.si).set w.sharenum ⟨false, [], data.take w.allocated_size, [w.lease]⟩)
        writers := s.writers.filter (fun w => w.bw != bw) } bw

/-- Tahoe-LAFS `BucketWriter.abort`: the incoming share is deleted, then the close handlers run. -/
def original_abort (s : Server) (bw : Nat) : Server :=
  match s.writers.find? (fun w => w.bw == bw) with
  | none => s
  | some _ => bucket_writer_closed { s with writers := s.writers.filter (fun w => w.bw != bw) } bw

/-- The connection behind `canary` is lost: foolscap calls every registered callback once
(`bw.disconnected`, which aborts the writer) and drops the registrations. -/
def disconnect (s : Server) (canary : Nat) : Server :=
  let mine := s.registrations.filter (fun r => r.1 == canary)
  let s1 := mine.foldl (fun s r => original_abort s r.2.2) s
  { s1 with registrations := s1.registrations.filter (fun r => r.1 != canary) }

/-- A freshly constructed server over given stored shares. -/
def Server.init (buckets : SI → Bucket) : Server :=
  ⟨buckets, [], 0, [], [], 0, [], []⟩

/-- Everything that can happen to a server. -/
inductive ServerOp where
  | allocate (a : AllocateArgs)
  | addLease (a : AddLeaseArgs)
  | writev (a : WritevArgs)
  | close (bw : Nat) (data : Bytes)
  | abort (bw : Nat)
  | disconnect (canary : Nat)

def Server.step (cfg : ServerConfig) (s : Server) : ServerOp → Server
  | .allocate a => (remote_allocate_buckets cfg a s).1
  | .addLease a => (remote_add_lease cfg a s).1
  | .writev a => (remote_slot_writev cfg a s).1
  | .close bw data => original_close s bw data
  | .abort bw => original_abort s bw
  | .disconnect c => ZKAP.disconnect s c

def Server.run (cfg : ServerConfig) (s : Server) (ops : List ServerOp) : Server :=
  ops.foldl (Server.step cfg) s

end ZKAP
