import Verif.Model.ShareFile

/-! The documented layout of share files (`_storage_server.py:840-863` and Tahoe-LAFS). -/
namespace ZKAP.Spec

/-- A big-endian unsigned integer in `k` bytes. -/
def bePack : Nat → Nat → Bytes
  | 0, _ => []
  | k + 1, n => bePack k (n / 256) ++ [UInt8.ofNat (n % 256)]

/-- An immutable share file: header, data, then 72 byte lease records. The length field is
truncated to 32 bits. -/
def immutableFile (version : Nat) (data : Bytes) (leases : List Bytes) : Bytes :=
  bePack 4 version ++ bePack 4 (data.length % 2 ^ 32) ++ bePack 4 leases.length ++ data ++ leases.flatten

/-- A mutable share file: magic, node id, write enabler, data length, extra lease offset, four lease
slots, data, extra leases. -/
def mutableFile (version : UInt8) (nodeid write_enabler : Bytes) (dataLength : Nat) (rest : Bytes) : Bytes :=
  mutable_magic version ++ nodeid ++ write_enabler ++ bePack 8 dataLength ++ rest

end ZKAP.Spec
