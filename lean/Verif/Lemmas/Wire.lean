import Verif.Spec.Wire
import Verif.Lemmas.LeaseMaintenance

namespace ZKAP

theorem check_storage_index (b : Bytes) :
    StorageIndexConstraint.check (.bytes b) = true ↔ b.length ≤ 16 := by
  simp [StorageIndexConstraint, Constraint.check, within]

theorem check_hash (b : Bytes) : HashConstraint.check (.bytes b) = true ↔ b.length = 32 := by
  simp [HashConstraint, Constraint.check, within]; omega

theorem check_int (n : Nat) : Constraint.int.check (.int n) = true ↔ n < 2 ^ 31 := by
  simp [Constraint.check, Wire.asInt]; omega

theorem check_offset (n : Nat) : OffsetConstraint.check (.int n) = true ↔ n < 2 ^ 64 := by
  simp [OffsetConstraint, Constraint.check, Wire.asInt]

theorem check_list (c : Constraint) (max : Option Nat) (l : List Wire) :
    (Constraint.listOf c max).check (.list l) = (within max l.length && l.all c.check) := rfl
theorem check_set (c : Constraint) (max : Option Nat) (l : List Wire) :
    (Constraint.setOf c max).check (.set l) = (within max l.length && l.all c.check) := rfl
theorem check_dict (k v : Constraint) (max : Option Nat) (l : List (Wire × Wire)) :
    (Constraint.dictOf k v max).check (.dict l) =
      (within max l.length && l.all fun kv => k.check kv.1 && v.check kv.2) := rfl
theorem check_tuple2 (a b : Constraint) (x y : Wire) :
    (Constraint.tuple2 a b).check (.tuple [x, y]) = (a.check x && b.check y) := rfl
theorem check_tuple3 (a b c : Constraint) (x y z : Wire) :
    (Constraint.tuple3 a b c).check (.tuple [x, y, z]) = (a.check x && b.check y && c.check z) := rfl
theorem check_tuple4 (a b c d : Constraint) (x y z t : Wire) :
    (Constraint.tuple4 a b c d).check (.tuple [x, y, z, t]) =
      (a.check x && b.check y && c.check z && d.check t) := rfl
theorem check_choice (a b : Constraint) (w : Wire) : (Constraint.choice a b).check w = (a.check w || b.check w) := rfl
theorem check_any_bytes (b : Bytes) : (Constraint.bytes none 0).check (.bytes b) = true := by
  simp [Constraint.check, within]

theorem check_pass (p : Bytes) : PassConstraint.check (.bytes p) = true ↔ p.length = 177 := by
  simp [PassConstraint, Constraint.check, within, _PASS_LENGTH]; omega

theorem within_some (m n : Nat) : within (some m) n = true ↔ n ≤ m := by simp [within]
theorem within_none (n : Nat) : within none n = true := rfl

theorem check_passes (l : List Bytes) :
    PassListConstraint.check (byte_strings_to_wire l) = true ↔ Spec.PassesFit l := by
  unfold PassListConstraint byte_strings_to_wire Spec.PassesFit _MAXIMUM_PASSES_PER_CALL
  rw [check_list, Bool.and_eq_true, within_some, List.length_map, List.all_map, List.all_eq_true]
  refine and_congr_right fun _ => ?_
  exact forall₂_congr fun p _ => check_pass p

theorem check_ints (c : List Nat) :
    (c.map fun n : Nat => Wire.int n).all Constraint.int.check = true ↔ ∀ n ∈ c, n < 2 ^ 31 := by
  rw [List.all_map, List.all_eq_true]
  refine forall₂_congr fun n _ => ?_
  rw [Function.comp]
  exact check_int n

theorem check_reads (rv : List (Nat × Nat)) :
    ReadVectorConstraint.check (read_vector_to_wire rv) = true ↔ Spec.ReadsFit rv := by
  unfold ReadVectorConstraint read_vector_to_wire Spec.ReadsFit
  rw [check_list, within_none, Bool.true_and, List.all_map, List.all_eq_true]
  refine forall₂_congr fun r _ => ?_
  rw [Function.comp, check_tuple2, Bool.and_eq_true]
  exact and_congr (check_offset r.1) (check_int r.2)

theorem check_testv (tv : List TestItem) :
    TestVectorConstraint.check (.list (tv.map test_item_to_wire)) = true ↔
      ∀ t ∈ tv, t.offset < 2 ^ 64 ∧ t.length < 2 ^ 31 := by
  unfold TestVectorConstraint
  rw [check_list, within_none, Bool.true_and, List.all_map, List.all_eq_true]
  refine forall₂_congr fun t _ => ?_
  rw [Function.comp, test_item_to_wire, check_tuple4, check_any_bytes, check_any_bytes, Bool.and_true,
    Bool.and_true, Bool.and_eq_true]
  exact and_congr (check_offset t.offset) (check_int t.length)

theorem check_datav (dv : List (Nat × Bytes)) :
    DataVectorConstraint.check (.list (dv.map fun d => .tuple [.int d.1, .bytes d.2])) = true ↔
      ∀ d ∈ dv, d.1 < 2 ^ 64 := by
  unfold DataVectorConstraint ShareDataConstraint
  rw [check_list, within_none, Bool.true_and, List.all_map, List.all_eq_true]
  refine forall₂_congr fun d _ => ?_
  rw [Function.comp, check_tuple2, check_any_bytes, Bool.and_true]
  exact check_offset d.1

theorem check_new_length (nl : Option Nat) :
    (Constraint.choice .none OffsetConstraint).check (match nl with | none => .none | some n => .int n) = true ↔
      ∀ n, nl = some n → n < 2 ^ 64 := by
  rw [check_choice]
  cases nl with
  | none => exact ⟨fun _ n e => (nomatch e), fun _ => rfl⟩
  | some n =>
    have : Constraint.none.check (.int n) = false := rfl
    rw [this, Bool.false_or, check_offset]
    exact ⟨fun h m e => Option.some.inj e ▸ h, fun h => h n rfl⟩

theorem check_tws (tws : TWVectors) :
    TestAndWriteVectorsConstraint.check (.dict (tws.map tw_to_wire)) = true ↔
      ∀ kv ∈ tws, Spec.WritesFit kv.1 kv.2 := by
  unfold TestAndWriteVectorsConstraint
  rw [check_dict, within_none, Bool.true_and, List.all_map, List.all_eq_true]
  refine forall₂_congr fun kv _ => ?_
  obtain ⟨k, tv, dv, nl⟩ := kv
  unfold Spec.WritesFit tw_to_wire
  rw [Function.comp, check_tuple3, Bool.and_eq_true, Bool.and_eq_true, Bool.and_eq_true, and_assoc (a := _ = true)]
  exact and_congr (check_int k) (and_congr (check_testv tv) (and_congr (check_datav dv) (check_new_length nl)))

/-! ### Round trips -/

theorem wire_nat_int (n : Nat) : wire_nat (.int n) = some n := by simp [wire_nat]

theorem wire_each_map {α} (dec : Wire → Option α) (enc : α → Wire) (h : ∀ a, dec (enc a) = some a) (l : List α) :
    wire_each dec (l.map enc) = some l := by
  induction l with
  | nil => rfl
  | cons a l ih => simp only [List.map_cons, wire_each, h, ih]

theorem wire_test_item_to_wire (t : TestItem) : wire_test_item (test_item_to_wire t) = some t := by
  simp [test_item_to_wire, wire_test_item, wire_nat_int, wire_bytes]

theorem wire_tws_map (tws : TWVectors) : wire_tws (tws.map tw_to_wire) = some tws := by
  induction tws with
  | nil => rfl
  | cons kv tws ih =>
    obtain ⟨k, tv, dv, nl⟩ := kv
    simp only [List.map_cons, tw_to_wire, wire_tws, wire_nat_int, wire_tw, wire_list, ih]
    rw [wire_each_map _ _ wire_test_item_to_wire, wire_each_map wire_data_item _
      (fun d => by simp [wire_data_item, wire_nat_int, wire_bytes])]
    cases nl with
    | none => rfl
    | some n => simp [wire_new_length, wire_nat_int]

/-! ### Calls -/

/-- Whether the arguments of a call satisfy the schema of the method. -/
def args_ok (r : StorageRequest) : Bool :=
  match RIPrivacyPassAuthorizedStorageServer (client_call r).1 with
  | none => false
  | some schema => schema.checkArgs (client_call r).2

theorem transmit_eq (r : StorageRequest) :
    transmit r = if args_ok r then
        match server_receives (client_call r).1 (client_call r).2 with
        | some r' => .ok r'
        | none => .error remoteFailure
      else .error violation := by
  unfold transmit args_ok
  cases h : RIPrivacyPassAuthorizedStorageServer (client_call r).1 <;> simp only [h] <;> rfl

theorem args_ok_version : args_ok .getVersion = true := rfl

theorem args_ok_allocate (passes : List Bytes) (si rs cs : Bytes) (sharenums : List Nat) (size canary : Nat) :
    args_ok (.allocateBuckets passes si rs cs sharenums size canary) =
    (PassListConstraint.check (byte_strings_to_wire passes) && (StorageIndexConstraint.check (.bytes si) &&
      (HashConstraint.check (.bytes rs) && (HashConstraint.check (.bytes cs) &&
      ((Constraint.setOf .int (some MAX_BUCKETS)).check (.set (sharenums.map fun n : Nat => .int n)) &&
      (OffsetConstraint.check (.int size) && (Constraint.ref.check (.ref canary) && true))))))) := rfl

theorem args_ok_add_lease (passes : List Bytes) (si rs cs : Bytes) :
    args_ok (.addLease passes si rs cs) =
    (PassListConstraint.check (byte_strings_to_wire passes) && (StorageIndexConstraint.check (.bytes si) &&
      (HashConstraint.check (.bytes rs) && (HashConstraint.check (.bytes cs) && true)))) := rfl

theorem args_ok_get_buckets (si : Bytes) :
    args_ok (.getBuckets si) = (StorageIndexConstraint.check (.bytes si) && true) := rfl

theorem args_ok_share_sizes (si : Bytes) :
    args_ok (.shareSizes si) = (StorageIndexConstraint.check (.bytes si) && (Constraint.any.check .none && true)) :=
  rfl

theorem args_ok_stat (sis : List Bytes) :
    args_ok (.statShares sis) =
      ((Constraint.listOf StorageIndexConstraint none).check (byte_strings_to_wire sis) && true) := rfl

theorem args_ok_readv (si : Bytes) (shares : List Nat) (rv : List (Nat × Nat)) :
    args_ok (.readv si shares rv) = (StorageIndexConstraint.check (.bytes si) &&
      ((Constraint.listOf .int none).check (.list (shares.map fun n : Nat => .int n)) &&
      (ReadVectorConstraint.check (read_vector_to_wire rv) && true))) := rfl

theorem args_ok_writev (passes : List Bytes) (si : Bytes) (secrets : Bytes × Bytes × Bytes) (tws : TWVectors)
    (rv : List (Nat × Nat)) :
    args_ok (.writev passes si secrets tws rv) =
    (PassListConstraint.check (byte_strings_to_wire passes) && (StorageIndexConstraint.check (.bytes si) &&
      ((Constraint.tuple3 HashConstraint HashConstraint HashConstraint).check
        (.tuple [.bytes secrets.1, .bytes secrets.2.1, .bytes secrets.2.2]) &&
      (TestAndWriteVectorsConstraint.check (.dict (tws.map tw_to_wire)) &&
      (ReadVectorConstraint.check (read_vector_to_wire rv) && true))))) := rfl

theorem args_ok_advise' (a b c d : Wire) :
    (match RIPrivacyPassAuthorizedStorageServer "advise_corrupt_share" with
      | none => false
      | some schema => schema.checkArgs [a, b, c, d]) =
    ((Constraint.bytes none 0).check a && (StorageIndexConstraint.check b &&
      (Constraint.int.check c && ((Constraint.bytes none 0).check d && true)))) := rfl

theorem args_ok_advise (st si : Bytes) (shnum : Nat) (reason : Bytes) :
    args_ok (.adviseCorruptShare st si shnum reason) = ((Constraint.bytes none 0).check (.bytes st) &&
      (StorageIndexConstraint.check (.bytes si) && (Constraint.int.check (.int shnum) &&
      ((Constraint.bytes none 0).check (.bytes reason) && true)))) := args_ok_advise' _ _ _ _

theorem and_iff {a b : Bool} {p q : Prop} (ha : a = true ↔ p) (hb : b = true ↔ q) : (a && b) = true ↔ p ∧ q := by
  rw [Bool.and_eq_true]; exact and_congr ha hb

theorem fits_allocate (passes : List Bytes) (si rs cs : Bytes) (sharenums : List Nat) (size canary : Nat) :
    args_ok (.allocateBuckets passes si rs cs sharenums size canary) = true ↔
      Spec.Fits (.allocateBuckets passes si rs cs sharenums size canary) := by
  have h1 : Constraint.ref.check (.ref canary) = true := rfl
  have h2 : within (some MAX_BUCKETS) (sharenums.map fun n : Nat => Wire.int n).length = true ↔
      sharenums.length ≤ 256 := by
    simp [within, MAX_BUCKETS]
  rw [args_ok_allocate, h1, Bool.true_and, Bool.and_true, check_set]
  unfold Spec.Fits
  rw [Bool.and_eq_true, Bool.and_eq_true, Bool.and_eq_true, Bool.and_eq_true, Bool.and_eq_true, Bool.and_eq_true,
    check_passes, check_storage_index, check_hash, check_hash, check_ints, check_offset, h2,
    and_assoc (a := sharenums.length ≤ 256)]

theorem fits_add_lease (passes : List Bytes) (si rs cs : Bytes) :
    args_ok (.addLease passes si rs cs) = true ↔ Spec.Fits (.addLease passes si rs cs) := by
  rw [args_ok_add_lease, Bool.and_true]
  unfold Spec.Fits
  rw [Bool.and_eq_true, Bool.and_eq_true, Bool.and_eq_true, check_passes, check_storage_index, check_hash, check_hash]

theorem fits_share_sizes (si : Bytes) : args_ok (.shareSizes si) = true ↔ Spec.Fits (.shareSizes si) := by
  have h1 : Constraint.any.check .none = true := rfl
  rw [args_ok_share_sizes, h1, Bool.and_true, Bool.and_true, check_storage_index]
  unfold Spec.Fits
  exact Iff.rfl

theorem fits_get_buckets (si : Bytes) : args_ok (.getBuckets si) = true ↔ Spec.Fits (.getBuckets si) := by
  rw [args_ok_get_buckets, Bool.and_true, check_storage_index]
  unfold Spec.Fits
  exact Iff.rfl

theorem fits_stat (sis : List Bytes) : args_ok (.statShares sis) = true ↔ Spec.Fits (.statShares sis) := by
  rw [args_ok_stat, Bool.and_true, byte_strings_to_wire, check_list, within_none, Bool.true_and, List.all_map,
    List.all_eq_true]
  unfold Spec.Fits
  refine forall₂_congr fun s _ => ?_
  rw [Function.comp, check_storage_index]

theorem fits_readv (si : Bytes) (shares : List Nat) (rv : List (Nat × Nat)) :
    args_ok (.readv si shares rv) = true ↔ Spec.Fits (.readv si shares rv) := by
  rw [args_ok_readv, Bool.and_true, check_list, within_none, Bool.true_and]
  unfold Spec.Fits
  rw [Bool.and_eq_true, Bool.and_eq_true, check_storage_index, check_ints, check_reads]

theorem fits_writev (passes : List Bytes) (si : Bytes) (secrets : Bytes × Bytes × Bytes) (tws : TWVectors)
    (rv : List (Nat × Nat)) :
    args_ok (.writev passes si secrets tws rv) = true ↔ Spec.Fits (.writev passes si secrets tws rv) := by
  rw [args_ok_writev, Bool.and_true, check_tuple3]
  unfold Spec.Fits
  rw [Bool.and_eq_true, Bool.and_eq_true, Bool.and_eq_true, Bool.and_eq_true, Bool.and_eq_true, Bool.and_eq_true,
    check_passes, check_storage_index, check_hash, check_hash, check_hash, check_tws, check_reads,
    and_assoc (a := secrets.1.length = 32)]

theorem fits_advise (st si : Bytes) (shnum : Nat) (reason : Bytes) :
    args_ok (.adviseCorruptShare st si shnum reason) = true ↔
      Spec.Fits (.adviseCorruptShare st si shnum reason) := by
  rw [args_ok_advise, check_any_bytes, check_any_bytes, Bool.true_and, Bool.and_true, Bool.and_true]
  unfold Spec.Fits
  rw [Bool.and_eq_true, check_storage_index, check_int]

theorem args_ok_iff (r : StorageRequest) : args_ok r = true ↔ Spec.Fits r := by
  cases r with
  | getVersion => exact ⟨fun _ => trivial, fun _ => rfl⟩
  | allocateBuckets => apply fits_allocate
  | addLease => apply fits_add_lease
  | getBuckets => apply fits_get_buckets
  | shareSizes => apply fits_share_sizes
  | statShares => apply fits_stat
  | readv => apply fits_readv
  | writev => apply fits_writev
  | adviseCorruptShare => apply fits_advise

theorem wire_byte_strings (l : List Bytes) : wire_list wire_bytes (byte_strings_to_wire l) = some l :=
  wire_each_map wire_bytes Wire.bytes (fun _ => rfl) l

theorem wire_nats (l : List Nat) : wire_each wire_nat (l.map fun n : Nat => .int n) = some l :=
  wire_each_map wire_nat _ wire_nat_int l

theorem wire_reads (l : List (Nat × Nat)) : wire_list wire_read_item (read_vector_to_wire l) = some l :=
  wire_each_map wire_read_item _ (fun r => by simp [wire_read_item, wire_nat_int]) l

theorem received (r : StorageRequest) : server_receives (client_call r).1 (client_call r).2 = some r := by
  cases r with
  | getVersion => rfl
  | allocateBuckets passes si rs cs sharenums size canary =>
    show ((wire_list wire_bytes (byte_strings_to_wire passes)).bind fun passes =>
      (wire_each wire_nat (sharenums.map fun n : Nat => .int n)).bind fun sharenums =>
      (wire_nat (.int size)).bind fun size =>
        some (StorageRequest.allocateBuckets passes si rs cs sharenums size canary)) = _
    rw [wire_byte_strings, wire_nats, wire_nat_int]; rfl
  | addLease passes si rs cs =>
    show ((wire_list wire_bytes (byte_strings_to_wire passes)).bind fun passes =>
      some (StorageRequest.addLease passes si rs cs)) = _
    rw [wire_byte_strings]; rfl
  | getBuckets si => rfl
  | shareSizes si => rfl
  | statShares sis =>
    show ((wire_list wire_bytes (byte_strings_to_wire sis)).bind fun sis => some (StorageRequest.statShares sis)) = _
    rw [wire_byte_strings]; rfl
  | readv si shares rv =>
    show ((wire_each wire_nat (shares.map fun n : Nat => .int n)).bind fun shares =>
      (wire_list wire_read_item (read_vector_to_wire rv)).bind fun rv =>
        some (StorageRequest.readv si shares rv)) = _
    rw [wire_nats, wire_reads]; rfl
  | writev passes si secrets tws rv =>
    show ((wire_list wire_bytes (byte_strings_to_wire passes)).bind fun passes =>
      (wire_tws (tws.map tw_to_wire)).bind fun tws =>
      (wire_list wire_read_item (read_vector_to_wire rv)).bind fun rv =>
        some (StorageRequest.writev passes si (secrets.1, secrets.2.1, secrets.2.2) tws rv)) = _
    rw [wire_byte_strings, wire_tws_map, wire_reads]; rfl
  | adviseCorruptShare st si shnum reason =>
    show ((wire_nat (.int shnum)).bind fun shnum => some (StorageRequest.adviseCorruptShare st si shnum reason)) = _
    rw [wire_nat_int]; rfl

/-! ### Answers -/

theorem int_items_ok {α} (value : Wire → Option α) (d : List (Wire × Wire)) (items : Dict Int α) :
    int_items value d = .ok items ↔ Spec.Items value d items := by
  induction d generalizing items with
  | nil =>
    unfold Spec.Items
    cases items <;> simp [int_items]
  | cons kv d ih =>
    obtain ⟨k, v⟩ := kv
    unfold Spec.Items at ih ⊢
    cases items with
    | nil =>
      constructor
      · intro h
        rw [int_items] at h
        split at h
        · split at h <;> simp at h
        · simp at h
      · intro h; simp at h
    | cons it items =>
      rw [List.map_cons, List.map_cons, List.cons.injEq, ← ih, int_items]
      constructor
      · intro h
        split at h
        · rename_i k' v' hk hv
          split at h
          · rename_i rest hr
            simp only [Except.ok.injEq, List.cons.injEq] at h
            obtain ⟨rfl, rfl⟩ := h
            exact ⟨by simp only [hk, hv], hr⟩
          · simp at h
        · simp at h
      · rintro ⟨h1, h2⟩
        obtain ⟨hk, hv⟩ := Prod.mk.inj h1
        simp only [] at hk hv
        simp only [hk, hv, h2]

theorem int_items_error {α} (value : Wire → Option α) (d : List (Wire × Wire)) (e : PyErr)
    (h : int_items value d = .error e) : e = .valueError := by
  induction d with
  | nil => simp [int_items] at h
  | cons kv d ih =>
    obtain ⟨k, v⟩ := kv
    rw [int_items] at h
    split at h
    · split at h
      · simp at h
      · rename_i e' he
        simp only [Except.error.injEq] at h
        subst h
        exact ih he
    · simp only [Except.error.injEq] at h; exact h.symm

theorem known_items_ok {α} (value : Wire → Option α) (d : List (Wire × Wire)) (r : Dict Int α) :
    known_items value d = .ok r ↔ ∃ items, Spec.Items value d items ∧ r = Dict.ofItems items := by
  unfold known_items
  cases h : int_items value d with
  | ok items =>
    rw [int_items_ok] at h
    constructor
    · intro e; simp only [Except.ok.injEq] at e; exact ⟨items, h, e.symm⟩
    · rintro ⟨items', h', rfl⟩
      rw [← int_items_ok] at h h'
      rw [h] at h'
      simp only [Except.ok.injEq] at h'
      rw [h']
  | error e =>
    constructor
    · intro e; simp at e
    · rintro ⟨items', h', rfl⟩
      rw [← int_items_ok, h] at h'
      simp at h'

theorem known_items_error {α} (value : Wire → Option α) (d : List (Wire × Wire)) (e : PyErr)
    (h : known_items value d = .error e) : e = .valueError := by
  unfold known_items at h
  cases hi : int_items value d with
  | ok items => rw [hi] at h; simp at h
  | error e' =>
    rw [hi] at h
    simp only [Except.error.injEq] at h
    subst h
    exact int_items_error value d _ hi

theorem items_all {α} {value : Wire → Option α} {d : List (Wire × Wire)} {items : List (Int × α)}
    (h : Spec.Items value d items) (p : Wire × Wire → Bool) (q : Int × α → Prop)
    (hpq : ∀ kv it, kv.1.asInt = some it.1 → value kv.2 = some it.2 → (p kv = true ↔ q it)) :
    d.all p = true ↔ ∀ it ∈ items, q it := by
  induction d generalizing items with
  | nil =>
    unfold Spec.Items at h
    cases items with
    | nil => simp
    | cons => simp at h
  | cons kv d ih =>
    unfold Spec.Items at h ih
    cases items with
    | nil => simp at h
    | cons it items =>
      simp only [List.map_cons, List.cons.injEq, Prod.mk.injEq] at h
      rw [List.all_cons, Bool.and_eq_true, List.forall_mem_cons, ih h.2, hpq kv it h.1.1 h.1.2]

theorem items_length {α} {value : Wire → Option α} {d : List (Wire × Wire)} {items : List (Int × α)}
    (h : Spec.Items value d items) : d.length = items.length := by
  unfold Spec.Items at h
  have := congrArg List.length h
  simpa using this

theorem exists_items {α} (value : Wire → Option α) (d : List (Wire × Wire))
    (h : ∀ kv ∈ d, kv.1.asInt.isSome ∧ (value kv.2).isSome) : ∃ items, Spec.Items value d items := by
  unfold Spec.Items
  induction d with
  | nil => exact ⟨[], rfl⟩
  | cons kv d ih =>
    obtain ⟨items, hi⟩ := ih (fun x hx => h x (List.mem_cons_of_mem _ hx))
    obtain ⟨h1, h2⟩ := h kv List.mem_cons_self
    obtain ⟨k, hk⟩ := Option.isSome_iff_exists.mp h1
    obtain ⟨v, hv⟩ := Option.isSome_iff_exists.mp h2
    exact ⟨(k, v) :: items, by rw [List.map_cons, List.map_cons, hi, hk, hv]⟩

theorem check_int_asInt (w : Wire) (n : Int) (h : w.asInt = some n) :
    Constraint.int.check w = true ↔ Spec.ShareNumber n := by
  simp only [Constraint.check, h, decide_eq_true_eq, Spec.ShareNumber]

theorem check_offset_asInt (w : Wire) (n : Int) (h : w.asInt = some n) :
    OffsetConstraint.check w = true ↔ n.natAbs < 2 ^ 64 := by
  simp only [OffsetConstraint, Constraint.check, h, decide_eq_true_eq]

theorem check_int_isSome (w : Wire) (h : Constraint.int.check w = true) : w.asInt.isSome := by
  cases hw : w.asInt with
  | none => simp [Constraint.check, hw] at h
  | some n => rfl

theorem check_offset_isSome (w : Wire) (h : OffsetConstraint.check w = true) : w.asInt.isSome := by
  cases hw : w.asInt with
  | none => simp [OffsetConstraint, Constraint.check, hw] at h
  | some n => rfl

/-! ### Prices from answers -/

open Spec

theorem stat_current_sizes_nonneg {ws : List Nat} {now : Int} {stats : Dict Int (Dict String Wire)}
    {sizes : Dict Nat Int} (h : stat_current_sizes ws now stats = .ok sizes)
    (hn : ∀ k a w n, (k, a) ∈ stats → a.lookup "size" = some w → w.asInt = some n → 0 ≤ n) :
    ∀ kv ∈ sizes, 0 ≤ kv.2 := by
  induction stats generalizing sizes with
  | nil =>
    simp only [stat_current_sizes, Except.ok.injEq] at h
    subst h
    intro kv hkv
    exact absurd hkv (by simp)
  | cons st stats ih =>
    obtain ⟨k, a⟩ := st
    have hn' := fun k a w n (hm : (k, a) ∈ stats) => hn k a w n (List.mem_cons_of_mem _ hm)
    rw [stat_current_sizes] at h
    split at h
    · exact absurd h (by simp)
    · split at h
      · split at h
        · rename_i size sizes' hs hr
          simp only [Except.ok.injEq] at h
          subst h
          intro kv hkv
          rw [List.mem_cons] at hkv
          rcases hkv with rfl | hkv
          · unfold stat_number at hs
            split at hs
            · exact absurd hs (by simp)
            · rename_i w hw
              split at hs
              · rename_i n hn2
                simp only [Except.ok.injEq] at hs
                subst hs
                exact hn k a w n List.mem_cons_self hw hn2
              · exact absurd hs (by simp)
          · exact ih hr hn' kv hkv
        · exact absurd h (by simp)
        · exact absurd h (by simp)
      · exact ih h hn'

theorem mem_dict_set {κ α} [BEq κ] [LawfulBEq κ] (d : Dict κ α) (k : κ) (v : α) (x : κ × α) (h : x ∈ Dict.set d k v) :
    x ∈ d ∨ x = (k, v) := by
  induction d with
  | nil => right; simpa [Dict.set] using h
  | cons kv d ih =>
    obtain ⟨k', v'⟩ := kv
    simp only [Dict.set] at h
    split at h
    · rename_i he
      have := eq_of_beq he
      subst this
      rw [List.mem_cons] at h
      rcases h with rfl | h
      · right; rfl
      · left; exact List.mem_cons_of_mem _ h
    · rw [List.mem_cons] at h
      rcases h with rfl | h
      · left; exact List.mem_cons_self
      · rcases ih h with h | h
        · left; exact List.mem_cons_of_mem _ h
        · right; exact h

theorem mem_ofItems {κ α} [BEq κ] [LawfulBEq κ] (items : List (κ × α)) (x : κ × α)
    (h : x ∈ Dict.ofItems items) : x ∈ items := by
  unfold Dict.ofItems Dict.update at h
  have : ∀ (items : List (κ × α)) (d : Dict κ α),
      x ∈ items.foldl (fun acc kv => Dict.set acc kv.1 kv.2) d → x ∈ d ∨ x ∈ items := by
    intro items
    induction items with
    | nil => intro d h; left; exact h
    | cons kv items ih =>
      intro d h
      rw [List.foldl_cons] at h
      rcases ih _ h with h | h
      · rcases mem_dict_set _ _ _ _ h with h | h
        · left; exact h
        · right; rw [h]; exact List.mem_cons_self
      · right; exact List.mem_cons_of_mem _ h
  rcases this items [] h with h | h
  · exact absurd h (by simp)
  · exact h

theorem items_mem {α} {value : Wire → Option α} {d : List (Wire × Wire)} {items : List (Int × α)}
    (h : Items value d items) {it : Int × α} (hm : it ∈ items) :
    ∃ kv ∈ d, kv.1.asInt = some it.1 ∧ value kv.2 = some it.2 := by
  unfold Items at h
  have : (some it.1, some it.2) ∈ d.map (fun kv => (kv.1.asInt, value kv.2)) := by
    rw [h]; exact List.mem_map.mpr ⟨it, hm, rfl⟩
  obtain ⟨kv, hk, he⟩ := List.mem_map.mp this
  obtain ⟨h1, h2⟩ := Prod.mk.inj he
  exact ⟨kv, hk, h1, h2⟩

theorem stat_items_mem {l : List Wire} {r : List (Dict Int (Dict String Wire))} (h : stat_items l = .ok r)
    {s : Dict Int (Dict String Wire)} (hs : s ∈ r) :
    ∃ d items, .dict d ∈ l ∧ Items wire_stat d items ∧ s = Dict.ofItems items := by
  induction l generalizing r with
  | nil =>
    simp only [stat_items, Except.ok.injEq] at h
    subst h
    exact absurd hs (by simp)
  | cons w l ih =>
    cases w with
    | dict d =>
      rw [stat_items] at h
      split at h
      · exact absurd h (by simp)
      · rename_i s' hk
        split at h
        · rename_i ss hss
          simp only [Except.ok.injEq] at h
          subst h
          rw [List.mem_cons] at hs
          rcases hs with rfl | hs
          · obtain ⟨items, hi, he⟩ := (known_items_ok _ _ _).mp hk
            exact ⟨d, items, List.mem_cons_self, hi, he⟩
          · obtain ⟨d', items, h1, h2, h3⟩ := ih hss hs
            exact ⟨d', items, List.mem_cons_of_mem _ h1, h2, h3⟩
        · exact absurd h (by simp)
    | _ => exact absurd h (by simp [stat_items])

theorem growth_le_new (v old new : Int) (hv : 0 < v) (ho : 0 ≤ old) (hn : 0 ≤ new) :
    growth v old new ≤ passes v new := by
  unfold growth
  have h1 := passes_nonneg v hv ho
  have h2 := passes_nonneg v hv hn
  by_cases h : old ≤ new
  · rw [Int.max_eq_right h]; omega
  · rw [Int.max_eq_left (by omega)]; omega

theorem implied_le (datav : List (Nat × Bytes)) (nl : Option Nat) :
    get_implied_data_length datav nl ≤ writtenEnd datav := by
  cases nl with
  | none => exact Nat.le_of_eq (implied_none datav)
  | some n =>
    have := implied_none datav
    unfold get_implied_data_length at this ⊢
    simp only [] at this ⊢
    rw [this]
    exact Nat.min_le_right _ _

theorem getD_nonneg (d : Dict Nat Int) (h : ∀ kv ∈ d, 0 ≤ kv.2) (k : Nat) : 0 ≤ d.getD k 0 := by
  unfold Dict.getD
  cases hl : d.lookup k with
  | none => exact Int.le_refl _
  | some v => exact h _ ((mem_of_lookup_some hl))

theorem growth_sum_le (v : Int) (hv : 0 < v) (sizes : Dict Nat Int) (hnn : ∀ kv ∈ sizes, 0 ≤ kv.2) (tw : TWVectors) :
    (tw.map fun kv => growth v (sizes.getD kv.1 0) (get_implied_data_length kv.2.datav kv.2.new_length : Int)).sum ≤
      (tw.map fun kv => passes v (writtenEnd kv.2.datav)).sum := by
  induction tw with
  | nil => exact Int.le_refl _
  | cons kv tw ih =>
    rw [List.map_cons, List.map_cons, List.sum_cons, List.sum_cons]
    refine Int.add_le_add ?_ ih
    refine Int.le_trans (growth_le_new v _ _ hv (getD_nonneg sizes hnn _) (Int.natCast_nonneg _)) ?_
    exact passes_mono v hv (Int.ofNat_le.mpr (implied_le _ _))

end ZKAP
