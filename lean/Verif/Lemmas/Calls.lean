import Verif.Lemmas.Wire
import Verif.Spec.Calls

namespace ZKAP
open Spec

/-- Nothing besides the size. -/
abbrev Any : Int → Prop := fun _ => True

theorem bytes_check (max : Option Nat) (min : Nat) (w : Wire) : (Constraint.bytes max min).check w = true ↔
    ∃ b, w = .bytes b ∧ within max b.length = true ∧ min ≤ b.length := by
  cases w with
  | bytes b => simp [Constraint.check]
  | _ => simp [Constraint.check]

theorem index_check (w : Wire) : StorageIndexConstraint.check w = true ↔ IsIndex w := by
  unfold StorageIndexConstraint IsIndex
  rw [bytes_check]
  simp [within]

theorem secret_check (w : Wire) : HashConstraint.check w = true ↔ IsSecret w := by
  unfold HashConstraint IsSecret
  rw [bytes_check]
  refine exists_congr fun b => and_congr_right fun _ => ?_
  simp only [within, decide_eq_true_eq]
  omega

theorem any_bytes_check (w : Wire) : (Constraint.bytes none 0).check w = true ↔ AnyBytes w := by
  unfold AnyBytes
  rw [bytes_check]
  simp [within]

theorem int_check (w : Wire) : Constraint.int.check w = true ↔ SmallNumber Any w := by
  unfold SmallNumber
  unfold Constraint.check
  cases h : w.asInt with
  | none => simp [h]
  | some n => simp [h]

theorem offset_check (w : Wire) : OffsetConstraint.check w = true ↔ LargeNumber Any w := by
  unfold LargeNumber OffsetConstraint
  unfold Constraint.check
  cases h : w.asInt with
  | none => simp [h]
  | some n => simp [h]

theorem list_check (c : Constraint) (max : Option Nat) (w : Wire) : (Constraint.listOf c max).check w = true ↔
    ∃ l, w = .list l ∧ within max l.length = true ∧ ∀ x ∈ l, c.check x = true := by
  cases w with
  | list l => simp [Constraint.check]
  | _ => simp [Constraint.check]

theorem list_of_check {c : Constraint} {P : Wire → Prop} (h : ∀ w, c.check w = true ↔ P w) (w : Wire) :
    (Constraint.listOf c none).check w = true ↔ ListOf P w := by
  unfold ListOf
  rw [list_check]
  refine exists_congr fun l => and_congr_right fun _ => ?_
  rw [within_none]
  simp only [h, true_and]

theorem tuple2_check (a b : Constraint) (w : Wire) : (Constraint.tuple2 a b).check w = true ↔
    ∃ x y, w = .tuple [x, y] ∧ a.check x = true ∧ b.check y = true := by
  constructor
  · intro h
    unfold Constraint.check at h
    split at h
    · exact ⟨_, _, rfl, by simpa only [Bool.and_eq_true, and_assoc] using h⟩
    · exact nomatch h
  · rintro ⟨x, y, rfl, h0, h1⟩
    rw [check_tuple2, h0, h1]
    rfl

theorem tuple3_check (a b c : Constraint) (w : Wire) : (Constraint.tuple3 a b c).check w = true ↔
    ∃ x y z, w = .tuple [x, y, z] ∧ a.check x = true ∧ b.check y = true ∧ c.check z = true := by
  constructor
  · intro h
    unfold Constraint.check at h
    split at h
    · exact ⟨_, _, _, rfl, by simpa only [Bool.and_eq_true, and_assoc] using h⟩
    · exact nomatch h
  · rintro ⟨x, y, z, rfl, h0, h1, h2⟩
    rw [check_tuple3, h0, h1, h2]
    rfl

theorem tuple4_check (a b c d : Constraint) (w : Wire) : (Constraint.tuple4 a b c d).check w = true ↔
    ∃ x y z t, w = .tuple [x, y, z, t] ∧ a.check x = true ∧ b.check y = true ∧ c.check z = true ∧ d.check t = true := by
  constructor
  · intro h
    unfold Constraint.check at h
    split at h
    · exact ⟨_, _, _, _, rfl, by simpa only [Bool.and_eq_true, and_assoc] using h⟩
    · exact nomatch h
  · rintro ⟨x, y, z, t, rfl, h0, h1, h2, h3⟩
    rw [check_tuple4, h0, h1, h2, h3]
    rfl

theorem passes_check (w : Wire) : PassListConstraint.check w = true ↔ ArePasses w := by
  unfold ArePasses
  constructor
  · intro h
    unfold PassListConstraint at h
    obtain ⟨l, rfl, h1, h2⟩ := (list_check _ _ _).mp h
    have : ∀ l : List Wire, (∀ x ∈ l, PassConstraint.check x = true) →
        ∃ passes : List Bytes, l = passes.map .bytes ∧ ∀ p ∈ passes, p.length = 177 := by
      intro l
      induction l with
      | nil => exact fun _ => ⟨[], rfl, fun _ h => (nomatch h)⟩
      | cons x l ih =>
        intro h
        obtain ⟨passes, rfl, hp⟩ := ih fun y hy => h y (List.mem_cons_of_mem _ hy)
        have hx := h x List.mem_cons_self
        obtain ⟨b, rfl, -⟩ := (bytes_check _ _ _).mp hx
        refine ⟨b :: passes, rfl, ?_⟩
        intro p hmem
        rcases List.mem_cons.mp hmem with rfl | hmem
        · exact (check_pass p).mp hx
        · exact hp p hmem
    obtain ⟨passes, rfl, hp⟩ := this l h2
    exact ⟨passes, rfl, (check_passes passes).mp h⟩
  · rintro ⟨passes, rfl, h⟩
    exact (check_passes passes).mpr h

theorem reads_check (w : Wire) : ReadVectorConstraint.check w = true ↔ ListOf (IsRead Any) w := by
  refine list_of_check (fun w => ?_) w
  unfold IsRead
  simp only [tuple2_check, offset_check, int_check]

theorem tests_check (w : Wire) : TestVectorConstraint.check w = true ↔ ListOf (IsTest Any) w := by
  refine list_of_check (fun w => ?_) w
  unfold IsTest
  simp only [tuple4_check, offset_check, int_check, any_bytes_check]

theorem writes_check (w : Wire) : DataVectorConstraint.check w = true ↔ ListOf (IsWritten Any) w := by
  refine list_of_check (fun w => ?_) w
  unfold IsWritten ShareDataConstraint
  simp only [tuple2_check, offset_check, any_bytes_check]

theorem length_check (w : Wire) : (Constraint.choice .none OffsetConstraint).check w = true ↔
    w = .none ∨ LargeNumber Any w := by
  rw [check_choice, Bool.or_eq_true, offset_check]
  refine or_congr ?_ Iff.rfl
  cases w <;> simp [Constraint.check]

theorem changes_check (w : Wire) : TestAndWriteVectorsConstraint.check w = true ↔
    ∃ d, w = .dict d ∧ ∀ kv ∈ d, SmallNumber Any kv.1 ∧ IsChange Any kv.2 := by
  unfold TestAndWriteVectorsConstraint
  cases w with
  | dict d =>
    rw [check_dict, within_none, Bool.true_and, List.all_eq_true]
    simp only [Bool.and_eq_true, int_check, tuple3_check, tests_check, writes_check, length_check]
    exact ⟨fun h => ⟨d, rfl, h⟩, fun ⟨d', he, h⟩ => by cases he; exact h⟩
  | _ => simp [Constraint.check]

theorem shares_check (w : Wire) : (Constraint.setOf .int (some MAX_BUCKETS)).check w = true ↔
    ∃ l, w = .set l ∧ l.length ≤ 256 ∧ ∀ x ∈ l, SmallNumber Any x := by
  cases w with
  | set l =>
    rw [check_set, Bool.and_eq_true, List.all_eq_true]
    simp only [int_check, within_some, MAX_BUCKETS]
    exact ⟨fun h => ⟨l, rfl, h⟩, fun ⟨d', he, h⟩ => by cases he; exact h⟩
  | _ => simp [Constraint.check]

theorem ref_check (w : Wire) : Constraint.ref.check w = true ↔ ∃ n, w = .ref n := by
  cases w <;> simp [Constraint.check]

theorem secrets_check (w : Wire) : (Constraint.tuple3 HashConstraint HashConstraint HashConstraint).check w = true ↔
    ∃ x y z, w = .tuple [x, y, z] ∧ IsSecret x ∧ IsSecret y ∧ IsSecret z := by
  simp only [tuple3_check, secret_check]

/-! ### The methods -/

theorem admitted_length {name : String} {schema : MethodSchema} (hs : RIPrivacyPassAuthorizedStorageServer name = some schema)
    {args : List Wire} (h : call_admitted name args = true) : args.length = schema.argumentNames.length := by
  unfold call_admitted at h
  rw [hs] at h
  dsimp only [MethodSchema.checkArgs] at h
  rw [Bool.and_eq_true] at h
  exact beq_iff_eq.mp h.1

theorem admitted_names {name : String} {args : List Wire} (h : call_admitted name args = true) :
    name = "get_version" ∨ name = "allocate_buckets" ∨ name = "add_lease" ∨ name = "get_buckets" ∨ name = "share_sizes" ∨
      name = "stat_shares" ∨ name = "slot_readv" ∨ name = "slot_testv_and_readv_and_writev" ∨
      name = "advise_corrupt_share" := by
  unfold call_admitted RIPrivacyPassAuthorizedStorageServer at h
  split at h
  · exact nomatch h
  · rename_i hs
    split at hs
    · exact .inl ‹_›
    split at hs
    · exact .inr (.inl ‹_›)
    split at hs
    · exact .inr (.inr (.inl ‹_›))
    split at hs
    · exact .inr (.inr (.inr (.inl ‹_›)))
    split at hs
    · exact .inr (.inr (.inr (.inr (.inl ‹_›))))
    split at hs
    · exact .inr (.inr (.inr (.inr (.inr (.inl ‹_›)))))
    split at hs
    · exact .inr (.inr (.inr (.inr (.inr (.inr (.inl ‹_›))))))
    split at hs
    · exact .inr (.inr (.inr (.inr (.inr (.inr (.inr (.inl ‹_›)))))))
    split at hs
    · exact .inr (.inr (.inr (.inr (.inr (.inr (.inr (.inr ‹_›)))))))
    · exact nomatch hs

theorem admit_allocate (p i r c s z k : Wire) : call_admitted "allocate_buckets" [p, i, r, c, s, z, k] =
    (PassListConstraint.check p && (StorageIndexConstraint.check i && (HashConstraint.check r && (HashConstraint.check c &&
      ((Constraint.setOf .int (some MAX_BUCKETS)).check s && (OffsetConstraint.check z &&
        (Constraint.ref.check k && true))))))) := rfl

theorem admit_lease (p i r c : Wire) : call_admitted "add_lease" [p, i, r, c] =
    (PassListConstraint.check p && (StorageIndexConstraint.check i && (HashConstraint.check r &&
      (HashConstraint.check c && true)))) := rfl

theorem admit_buckets (i : Wire) : call_admitted "get_buckets" [i] = (StorageIndexConstraint.check i && true) := rfl

theorem admit_sizes (i s : Wire) : call_admitted "share_sizes" [i, s] =
    (StorageIndexConstraint.check i && (Constraint.any.check s && true)) := rfl

theorem admit_stat (l : Wire) : call_admitted "stat_shares" [l] =
    ((Constraint.listOf StorageIndexConstraint none).check l && true) := rfl

theorem admit_read (i s r : Wire) : call_admitted "slot_readv" [i, s, r] =
    (StorageIndexConstraint.check i && ((Constraint.listOf .int none).check s && (ReadVectorConstraint.check r && true))) :=
  rfl

theorem admit_write (p i s c r : Wire) : call_admitted "slot_testv_and_readv_and_writev" [p, i, s, c, r] =
    (PassListConstraint.check p && (StorageIndexConstraint.check i &&
      ((Constraint.tuple3 HashConstraint HashConstraint HashConstraint).check s &&
        (TestAndWriteVectorsConstraint.check c && (ReadVectorConstraint.check r && true))))) := rfl

theorem admit_corrupt (t i s r : Wire) : call_admitted "advise_corrupt_share" [t, i, s, r] =
    ((Constraint.bytes none 0).check t && (StorageIndexConstraint.check i && (Constraint.int.check s &&
      ((Constraint.bytes none 0).check r && true)))) := args_ok_advise' _ _ _ _

theorem admitted_iff (name : String) (args : List Wire) : call_admitted name args = true ↔ Called Any name args := by
  constructor
  · intro h
    rcases admitted_names h with rfl | rfl | rfl | rfl | rfl | rfl | rfl | rfl | rfl
    · have := admitted_length (schema := (RIPrivacyPassAuthorizedStorageServer "get_version").get rfl) rfl h
      match args, this with
      | [], _ => exact .version
    · have := admitted_length (schema := (RIPrivacyPassAuthorizedStorageServer "allocate_buckets").get rfl) rfl h
      match args, this with
      | [p, i, r, c, s, z, k], _ =>
        simp only [admit_allocate, Bool.and_eq_true, passes_check, index_check, secret_check, shares_check, offset_check,
          ref_check] at h
        obtain ⟨h1, h2, h3, h4, h5, h6, h7, -⟩ := h
        exact .allocate h1 h2 h3 h4 h5 h6 h7
    · have := admitted_length (schema := (RIPrivacyPassAuthorizedStorageServer "add_lease").get rfl) rfl h
      match args, this with
      | [p, i, r, c], _ =>
        simp only [admit_lease, Bool.and_eq_true, passes_check, index_check, secret_check] at h
        obtain ⟨h1, h2, h3, h4, -⟩ := h
        exact .lease h1 h2 h3 h4
    · have := admitted_length (schema := (RIPrivacyPassAuthorizedStorageServer "get_buckets").get rfl) rfl h
      match args, this with
      | [i], _ =>
        simp only [admit_buckets, Bool.and_eq_true, index_check] at h
        exact .buckets h.1
    · have := admitted_length (schema := (RIPrivacyPassAuthorizedStorageServer "share_sizes").get rfl) rfl h
      match args, this with
      | [i, s], _ =>
        simp only [admit_sizes, Bool.and_eq_true, index_check] at h
        exact .sizes h.1
    · have := admitted_length (schema := (RIPrivacyPassAuthorizedStorageServer "stat_shares").get rfl) rfl h
      match args, this with
      | [l], _ =>
        simp only [admit_stat, Bool.and_eq_true, list_of_check index_check] at h
        exact .stat h.1
    · have := admitted_length (schema := (RIPrivacyPassAuthorizedStorageServer "slot_readv").get rfl) rfl h
      match args, this with
      | [i, s, r], _ =>
        simp only [admit_read, Bool.and_eq_true, index_check, list_of_check int_check, reads_check] at h
        exact .read h.1 h.2.1 h.2.2.1
    · have := admitted_length (schema := (RIPrivacyPassAuthorizedStorageServer "slot_testv_and_readv_and_writev").get rfl) rfl h
      match args, this with
      | [p, i, s, c, r], _ =>
        simp only [admit_write, Bool.and_eq_true, passes_check, index_check, secrets_check, changes_check, reads_check] at h
        obtain ⟨h1, h2, ⟨x, y, z, rfl, h3, h4, h5⟩, h6, h7, -⟩ := h
        exact .write h1 h2 h3 h4 h5 h6 h7
    · have := admitted_length (schema := (RIPrivacyPassAuthorizedStorageServer "advise_corrupt_share").get rfl) rfl h
      match args, this with
      | [t, i, s, r], _ =>
        simp only [admit_corrupt, Bool.and_eq_true, any_bytes_check, index_check, int_check] at h
        exact .corrupt h.1 h.2.1 h.2.2.1 h.2.2.2.1
  · intro h
    cases h with
    | version => rfl
    | allocate h1 h2 h3 h4 h5 h6 h7 =>
      simp only [admit_allocate, Bool.and_eq_true, passes_check, index_check, secret_check, shares_check, offset_check,
        ref_check]
      exact ⟨h1, h2, h3, h4, h5, h6, h7, trivial⟩
    | lease h1 h2 h3 h4 =>
      simp only [admit_lease, Bool.and_eq_true, passes_check, index_check, secret_check]
      exact ⟨h1, h2, h3, h4, trivial⟩
    | buckets h1 =>
      simp only [admit_buckets, Bool.and_eq_true, index_check]
      exact ⟨h1, trivial⟩
    | sizes h1 =>
      simp only [admit_sizes, Bool.and_eq_true, index_check]
      exact ⟨h1, rfl, trivial⟩
    | stat h1 =>
      simp only [admit_stat, Bool.and_eq_true, list_of_check index_check]
      exact ⟨h1, trivial⟩
    | read h1 h2 h3 =>
      simp only [admit_read, Bool.and_eq_true, index_check, list_of_check int_check, reads_check]
      exact ⟨h1, h2, h3, trivial⟩
    | write h1 h2 h3 h4 h5 h6 h7 =>
      simp only [admit_write, Bool.and_eq_true, passes_check, index_check, secrets_check, changes_check, reads_check]
      exact ⟨h1, h2, ⟨_, _, _, rfl, h3, h4, h5⟩, h6, h7, trivial⟩
    | corrupt h1 h2 h3 h4 =>
      simp only [admit_corrupt, Bool.and_eq_true, any_bytes_check, index_check, int_check]
      exact ⟨h1, h2, h3, h4, trivial⟩

end ZKAP
