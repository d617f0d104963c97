import Verif.Spec.ShareFile

/-! Property C12: share sizes read from share files. -/
namespace ZKAP
open Spec

theorem bePack_length (k n : Nat) : (bePack k n).length = k := by
  induction k generalizing n with
  | zero => rfl
  | succ k ih => simp [bePack, ih]

theorem be_unpack_snoc (bs : Bytes) (b : UInt8) : be_unpack (bs ++ [b]) = be_unpack bs * 256 + b.toNat := by
  simp [be_unpack]

theorem be_roundtrip (k n : Nat) (h : n < 256 ^ k) : be_unpack (bePack k n) = n := by
  induction k generalizing n with
  | zero => simp [bePack, be_unpack] at *; omega
  | succ k ih =>
    have h2 : n / 256 < 256 ^ k := by
      rw [Nat.div_lt_iff_lt_mul (by decide)]; rw [Nat.pow_succ] at h; exact h
    have h3 : (UInt8.ofNat (n % 256)).toNat = n % 256 := by
      simp
    rw [bePack, be_unpack_snoc, ih _ h2, h3]
    omega

theorem flatten_len72 (l : List Bytes) (h : ∀ x ∈ l, x.length = 72) : l.flatten.length = l.length * 72 := by
  induction l with
  | nil => rfl
  | cons x l ih =>
    simp only [List.flatten_cons, List.length_append, List.length_cons]
    rw [h x (by simp), ih (fun y hy => h y (by simp [hy]))]; omega

/-- C12: the size read from any immutable share file is the length of its data. -/
theorem C12_immutable_size (version : Nat) (hver : version = 1 ∨ version = 2) (data : Bytes) (leases : List Bytes)
    (hl : ∀ x ∈ leases, x.length = 72) (hn : leases.length < 2 ^ 32) :
    get_storage_index_share_size (immutableFile version data leases) = .ok data.length := by
  have e4 := bePack_length 4 version
  have e4' := bePack_length 4 (data.length % 2 ^ 32)
  have e4'' := bePack_length 4 leases.length
  have hhead : (immutableFile version data leases).take 12
      = bePack 4 version ++ bePack 4 (data.length % 2 ^ 32) ++ bePack 4 leases.length := by
    unfold immutableFile
    rw [List.append_assoc _ data]
    rw [List.take_append_of_le_length (by simp [e4, e4', e4''])]
    rw [List.take_of_length_le (by simp [e4, e4', e4''])]
  have hv : be_unpack (bePack 4 version) = version := be_roundtrip 4 version (by rcases hver with rfl | rfl <;> decide)
  have hnl : be_unpack (bePack 4 leases.length) = leases.length := be_roundtrip 4 _ (by
    have : (256 : Nat) ^ 4 = 2 ^ 32 := by decide
    omega)
  unfold get_storage_index_share_size
  simp only [hhead]
  have h1 : (bePack 4 version ++ bePack 4 (data.length % 2 ^ 32) ++ bePack 4 leases.length).take 4 = bePack 4 version := by
    rw [List.append_assoc, List.take_append_of_le_length (by omega), List.take_of_length_le (by omega)]
  have h2 : (bePack 4 version ++ bePack 4 (data.length % 2 ^ 32) ++ bePack 4 leases.length).drop 8
      = bePack 4 leases.length := by
    apply List.drop_left'
    simp [e4, e4']
  have hlen : (immutableFile version data leases).length = 12 + data.length + leases.length * 72 := by
    unfold immutableFile
    simp only [List.length_append, e4, e4', e4'', flatten_len72 leases hl]
  rw [h1, h2, hv, hnl, hlen]
  simp only [List.length_append, e4, e4', e4'', ne_eq, Nat.reduceAdd, not_true_eq_false, if_false]
  rw [if_pos hver]
  congr 1
  omega

example : get_storage_index_share_size (immutableFile 2 [1, 2, 3] [List.replicate 72 0, List.replicate 72 1])
    = .ok 3 :=
  C12_immutable_size 2 (Or.inr rfl) _ _ (by decide) (by decide)

/-- C12: the size read from any mutable share file is the length recorded in it. -/
theorem C12_mutable_size (version : UInt8) (nodeid we rest : Bytes) (len : Nat) (h1 : nodeid.length = 20)
    (h2 : we.length = 32) (hlen : len < 2 ^ 64) :
    get_slot_share_size (mutableFile version nodeid we len rest) = .ok len := by
  have e8 := bePack_length 8 len
  have hm : (mutable_magic version).length = 32 := rfl
  have hhead : (mutableFile version nodeid we len rest).take 92
      = mutable_magic version ++ nodeid ++ we ++ bePack 8 len := by
    unfold mutableFile
    rw [List.take_append_of_le_length (by simp [hm, h1, h2, e8])]
    rw [List.take_of_length_le (by simp [hm, h1, h2, e8])]
  have hr : be_unpack (bePack 8 len) = len := be_roundtrip 8 len (by
    have : (256 : Nat) ^ 8 = 2 ^ 64 := by decide
    omega)
  unfold get_slot_share_size
  simp only [hhead]
  have hd : (mutable_magic version ++ nodeid ++ we ++ bePack 8 len).drop
      ((mutable_magic version ++ nodeid ++ we ++ bePack 8 len).length - 8) = bePack 8 len := by
    apply List.drop_left'
    simp [hm, h1, h2, e8]
  rw [hd, hr]
  simp [e8]

example : get_slot_share_size (mutableFile 49 (List.replicate 20 1) (List.replicate 32 2) 70000 [5]) = .ok 70000 :=
  C12_mutable_size 49 _ _ _ _ (by decide) (by decide) (by decide)

/-- C12: the kind of a share file of at least 32 bytes is recognised correctly: what the server reports
for an immutable file with at least one lease is its data length. -/
theorem C12_stat_immutable (version : Nat) (hver : version = 1 ∨ version = 2) (data : Bytes) (leases : List Bytes)
    (hl : ∀ x ∈ leases, x.length = 72) (hn : leases.length < 2 ^ 32) (hne : leases ≠ [] ∨ 20 ≤ data.length) :
    stat_share_size (immutableFile version data leases) = .ok data.length := by
  have e4 := bePack_length 4 version
  have hlen : (immutableFile version data leases).length = 12 + data.length + leases.length * 72 := by
    unfold immutableFile
    simp only [List.length_append, bePack_length, flatten_len72 leases hl]
  have hlong : 32 ≤ (immutableFile version data leases).length := by
    rcases hne with h | h
    · have : 0 < leases.length := List.length_pos_iff.mpr h
      omega
    · omega
  have htake : ((immutableFile version data leases).take 32).take 4 = bePack 4 version := by
    rw [List.take_take]
    unfold immutableFile
    simp only [List.append_assoc]
    rw [List.take_append_of_le_length (by omega), List.take_of_length_le (by omega)]
  have hv : be_unpack (bePack 4 version) = version := be_roundtrip 4 version (by rcases hver with rfl | rfl <;> decide)
  have hstat : get_stat (immutableFile version data leases) = .ok .bucket := by
    unfold get_stat
    simp only [List.length_take]
    rw [if_neg (by omega)]
    rw [if_pos]
    unfold original_immutable_header
    rw [htake, hv]
    rcases hver with rfl | rfl <;> rfl
  unfold stat_share_size
  rw [hstat]
  exact C12_immutable_size version hver data leases hl hn

example : stat_share_size (immutableFile 1 [] [List.replicate 72 0]) = .ok 0 :=
  C12_stat_immutable 1 (Or.inl rfl) _ _ (by decide) (by decide) (Or.inl (by decide))

/-- C12: the same for mutable files. -/
theorem C12_stat_mutable (version : UInt8) (hver : version = 49 ∨ version = 50) (nodeid we rest : Bytes) (len : Nat)
    (h1 : nodeid.length = 20) (h2 : we.length = 32) (hlen : len < 2 ^ 64) :
    stat_share_size (mutableFile version nodeid we len rest) = .ok len := by
  have hm : (mutable_magic version).length = 32 := rfl
  have htake : (mutableFile version nodeid we len rest).take 32 = mutable_magic version := by
    unfold mutableFile
    simp only [List.append_assoc]
    rw [List.take_append_of_le_length (by omega), List.take_of_length_le (by omega)]
  have hstat : get_stat (mutableFile version nodeid we len rest) = .ok .slot := by
    unfold get_stat
    simp only [htake]
    rcases hver with rfl | rfl <;> decide
  unfold stat_share_size
  rw [hstat]
  exact C12_mutable_size version nodeid we rest len h1 h2 hlen

example : stat_share_size (mutableFile 50 (List.replicate 20 1) (List.replicate 32 2) 5 [5]) = .ok 5 :=
  C12_stat_mutable 50 (Or.inr rfl) _ _ _ _ (by decide) (by decide) (by decide)

/-- C12: short or unrecognised headers are rejected. -/
theorem C12_bad_header_rejected (file : Bytes)
    (h : file.length < 32 ∨ (be_unpack (file.take 4) ≠ 1 ∧ be_unpack (file.take 4) ≠ 2 ∧
      file.take 32 ≠ mutable_magic 49 ∧ file.take 32 ≠ mutable_magic 50)) :
    stat_share_size file = .error .valueError := by
  unfold stat_share_size get_stat
  simp only [List.length_take]
  by_cases hs : file.length < 32
  · rw [if_pos (by omega)]
  · rcases h with h | ⟨h1, h2, h3, h4⟩
    · exact absurd h hs
    · rw [if_neg (by omega)]
      have e : (file.take 32).take 4 = file.take 4 := by rw [List.take_take]; rfl
      have g1 : original_immutable_header (file.take 32) = false := by
        unfold original_immutable_header; rw [e]; simp [h1, h2]
      have g2 : original_mutable_header (file.take 32) = false := by
        unfold original_mutable_header; simp [h3, h4]
      simp [g1, g2]

example : stat_share_size (bePack 4 3 ++ List.replicate 40 0) = .error .valueError :=
  C12_bad_header_rejected _ (Or.inr (by decide +kernel))

/-- C12, full statement for truncated mutable headers: a file cut off before the end of the length field
is rejected. -/
def C12_truncated_statement : Prop :=
  ∀ (nodeid we : Bytes) (len k : Nat), nodeid.length = 20 → we.length = 32 → k < 92 →
    ∃ e, stat_share_size ((mutableFile 49 nodeid we len []).take k) = .error e

/-- It is false of the code: a mutable file cut off within the header, after the magic, is given a
size made of whatever its last eight bytes are, here part of the write enabler. -/
theorem C12_truncated_mutable_fails : ¬ C12_truncated_statement := by
  intro h
  obtain ⟨e, he⟩ := h (List.replicate 20 0) (List.replicate 32 1) 5 84 rfl rfl (by decide)
  have : stat_share_size ((mutableFile 49 (List.replicate 20 0) (List.replicate 32 1) 5 []).take 84)
      = .ok 72340172838076673 := by decide +kernel
  rw [this] at he
  simp at he

/-- C12, also false: a well-formed immutable file without leases and with fewer than twenty bytes of data
is rejected. -/
theorem C12_tiny_immutable_fails : stat_share_size (immutableFile 1 [1, 2, 3] []) = .error .valueError ∧
    get_storage_index_share_size (immutableFile 1 [1, 2, 3] []) = .ok 3 := by
  decide +kernel

/-- C12, the part that holds for truncated mutable files: cut off within the magic, they are rejected. -/
theorem C12_truncated_magic_partial (version : UInt8) (nodeid we rest : Bytes) (len k : Nat) (hk : k < 32) :
    stat_share_size ((mutableFile version nodeid we len rest).take k) = .error .valueError :=
  C12_bad_header_rejected _ (Or.inl (by rw [List.length_take]; omega))

example : stat_share_size ((mutableFile 49 (List.replicate 20 0) (List.replicate 32 1) 5 []).take 31)
    = .error .valueError := C12_truncated_magic_partial _ _ _ _ _ _ (by decide)

end ZKAP
