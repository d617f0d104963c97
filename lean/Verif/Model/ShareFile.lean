import Verif.Model.Py

/-! Reading the size of a share from its file: `_storage_server.py:833-965`.
A file is its contents; `stat(path).st_size` is the length. -/
namespace ZKAP

/-- `struct.unpack` of a big-endian unsigned field. -/
def be_unpack (bs : Bytes) : Nat := bs.foldl (fun acc b => acc * 256 + b.toNat) 0

/-- `_storage_server.py:833-887` `get_storage_index_share_size`. -/
def get_storage_index_share_size (file : Bytes) : Except PyErr Int :=
  let header := file.take 12
  if header.length ≠ 12 then .error .valueError
  else
    let version := be_unpack (header.take 4)
    let number_of_leases := be_unpack (header.drop 8)
    if version = 1 ∨ version = 2 then
      .ok ((file.length : Int) - 12 - number_of_leases * (4 + 32 + 32 + 4))
    else .error .valueError

/-- `_storage_server.py:931-943` `get_slot_share_size`; `bs[-8:]` of a string shorter than eight is
the whole string, and `unpack(">Q", ...)` then raises `struct.error`. -/
def get_slot_share_size (file : Bytes) : Except PyErr Int :=
  let head := file.take 92
  let share_data_length_bytes := head.drop (head.length - 8)
  if share_data_length_bytes.length ≠ 8 then .error (.other 0)
  else .ok (be_unpack share_data_length_bytes)

/-- The kind of stat function `get_stat` chooses. -/
inductive StatKind where
  | bucket
  | slot
  deriving DecidableEq, Repr

/-- Tahoe-LAFS `ShareFile.is_valid_header`: the version field is 1 or 2. -/
def original_immutable_header (magic : Bytes) : Bool :=
  be_unpack (magic.take 4) == 1 || be_unpack (magic.take 4) == 2

/-- Tahoe-LAFS mutable container magic, versions 1 and 2 (`allmydata/storage/mutable_schema.py`):
`"Tahoe mutable container v1\n" + 75 09 44 03 8e`, and the same with `v2`. Only the length and the
first byte matter for the theorems. -/
def mutable_magic (version : UInt8) : Bytes :=
  [84, 97, 104, 111, 101, 32, 109, 117, 116, 97, 98, 108, 101, 32, 99, 111, 110, 116, 97, 105, 110, 101, 114,
    32, 118, version, 10, 0x75, 0x09, 0x44, 0x03, 0x8e]

/-- Tahoe-LAFS `MutableShareFile.is_valid_header`. -/
def original_mutable_header (magic : Bytes) : Bool :=
  magic == mutable_magic 49 || magic == mutable_magic 50

/-- `_storage_server.py:946-965` `get_stat`. -/
def get_stat (file : Bytes) : Except PyErr StatKind :=
  let magic := file.take 32
  if magic.length < 32 then .error .valueError
  else if original_immutable_header magic then .ok .bucket
  else if original_mutable_header magic then .ok .slot
  else .error .valueError

/-- The size `stat_bucket`/`stat_slot` report for a share, `_storage_server.py:826-829,890-911`, for
the share that decides the kind. -/
def stat_share_size (file : Bytes) : Except PyErr Int :=
  match get_stat file with
  | .error e => .error e
  | .ok .bucket => get_storage_index_share_size file
  | .ok .slot => get_slot_share_size file

end ZKAP
