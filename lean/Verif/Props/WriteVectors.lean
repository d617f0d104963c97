import Verif.Spec.WriteVectors

/-! Property C165: what a write request is said to do is what it asks for, against `Spec/WriteVectors.lean`. -/
namespace ZKAP
open Spec

theorem max_fold {α} (f : α → Nat) (l : List α) : ∀ a : Nat,
    a ≤ l.foldl (fun m x => Nat.max m (f x)) a ∧ (∀ x ∈ l, f x ≤ l.foldl (fun m x => Nat.max m (f x)) a) ∧
      (l.foldl (fun m x => Nat.max m (f x)) a = a ∨ ∃ x ∈ l, l.foldl (fun m x => Nat.max m (f x)) a = f x) := by
  induction l with
  | nil => exact fun a => ⟨Nat.le_refl _, fun _ h => (nomatch h), .inl rfl⟩
  | cons x l ih =>
    intro a
    obtain ⟨h1, h2, h3⟩ := ih (Nat.max a (f x))
    have hl : a ≤ Nat.max a (f x) := Nat.le_max_left _ _
    have hr : f x ≤ Nat.max a (f x) := Nat.le_max_right _ _
    rw [List.foldl_cons]
    refine ⟨Nat.le_trans hl h1, fun y hy => ?_, ?_⟩
    · rcases List.mem_cons.mp hy with rfl | hy
      · exact Nat.le_trans hr h1
      · exact h2 y hy
    · rcases h3 with h3 | ⟨y, hy, h3⟩
      · rw [h3]
        rcases Nat.le_total (f x) a with h | h
        · exact .inl (Nat.max_eq_left h)
        · exact .inr ⟨x, List.mem_cons_self, Nat.max_eq_right h⟩
      · exact .inr ⟨y, List.mem_cons_of_mem _ hy, h3⟩

/-- The largest of some numbers, if there are any. -/
theorem max_fold_zero {α} (f : α → Nat) {l : List α} (hl : l ≠ []) :
    (∀ x ∈ l, f x ≤ l.foldl (fun m x => Nat.max m (f x)) 0) ∧
      ∃ x ∈ l, l.foldl (fun m x => Nat.max m (f x)) 0 = f x := by
  obtain ⟨-, h2, h3⟩ := max_fold f l 0
  refine ⟨h2, h3.elim (fun h => ?_) id⟩
  cases l with
  | nil => exact absurd rfl hl
  | cons x l =>
    have := h2 x List.mem_cons_self
    exact ⟨x, List.mem_cons_self, by omega⟩

/-- **C165**, whether there is anything to write: data, or a length to be set. -/
theorem C165_has_writes (tw : TWVectors) :
    has_writes tw = true ↔ (∃ n offset data, WritesAt tw n offset data) ∨ ∃ n, SetsLength tw n := by
  unfold has_writes Dict.values
  rw [List.any_map, List.any_eq_true]
  constructor
  · rintro ⟨kv, hkv, h⟩
    dsimp only [Function.comp] at h
    rw [Bool.or_eq_true] at h
    rcases h with h | h
    · left
      cases hd : kv.2.datav with
      | nil => rw [hd] at h; exact nomatch h
      | cons d ds => exact ⟨kv.1, d.1, d.2, kv, hkv, rfl, by rw [hd]; exact List.mem_cons_self⟩
    · right
      exact ⟨kv.1, kv, hkv, rfl, fun hn => by rw [hn] at h; exact nomatch h⟩
  · rintro (⟨n, offset, data, kv, hkv, -, h⟩ | ⟨n, kv, hkv, -, h⟩)
    · refine ⟨kv, hkv, ?_⟩
      dsimp only [Function.comp]
      rw [Bool.or_eq_true]
      left
      cases hd : kv.2.datav with
      | nil => rw [hd] at h; exact nomatch h
      | cons d ds => rfl
    · refine ⟨kv, hkv, ?_⟩
      dsimp only [Function.comp]
      rw [Bool.or_eq_true]
      right
      cases hl : kv.2.new_length with
      | none => exact absurd hl h
      | some m => rfl

/-- **C165**, which shares are written to. -/
theorem C165_sharenums (tw : TWVectors) (n : Nat) :
    n ∈ get_write_sharenums tw ↔ ∃ offset data, WritesAt tw n offset data := by
  unfold get_write_sharenums
  rw [List.mem_map]
  constructor
  · rintro ⟨kv, hkv, rfl⟩
    obtain ⟨h1, h2⟩ := List.mem_filter.mp hkv
    cases hd : kv.2.datav with
    | nil => rw [hd] at h2; exact nomatch h2
    | cons d ds => exact ⟨d.1, d.2, kv, h1, rfl, by rw [hd]; exact List.mem_cons_self⟩
  · rintro ⟨offset, data, kv, hkv, rfl, h⟩
    refine ⟨kv, List.mem_filter.mpr ⟨hkv, ?_⟩, rfl⟩
    cases hd : kv.2.datav with
    | nil => rw [hd] at h; exact nomatch h
    | cons d ds => rfl

/-- **C165**, how far is written. -/
theorem C165_furthest (tw : TWVectors) (h : ∃ n offset data, WritesAt tw n offset data) :
    ∃ m, get_allocated_size tw = .ok m ∧ FurthestEnd tw m := by
  obtain ⟨n, offset, data, kv, hkv, -, hd⟩ := h
  have hne : tw.filter (fun kv => !kv.2.datav.isEmpty) ≠ [] := by
    refine List.ne_nil_of_mem (a := kv) (List.mem_filter.mpr ⟨hkv, ?_⟩)
    cases h : kv.2.datav with
    | nil => rw [h] at hd; exact nomatch hd
    | cons d ds => rfl
  obtain ⟨l, hl⟩ : ∃ l, l = tw.filter (fun kv => !kv.2.datav.isEmpty) := ⟨_, rfl⟩
  have hmem : ∀ kv, kv ∈ l ↔ kv ∈ tw ∧ kv.2.datav ≠ [] := fun kv => by
    rw [hl, List.mem_filter]
    refine and_congr Iff.rfl ?_
    cases kv.2.datav with
    | nil => simp
    | cons d ds => simp
  refine ⟨l.foldl (fun m kv => Nat.max m (max_end kv.2.datav)) 0, ?_, ?_, ?_⟩
  · unfold get_allocated_size
    rw [← hl] at hne ⊢
    cases l with
    | nil => exact absurd rfl hne
    | cons x l => rfl
  · rw [← hl] at hne
    obtain ⟨x, hx, he⟩ := (max_fold_zero (fun kv : Nat × TW => max_end kv.2.datav) hne).2
    obtain ⟨h1, h2⟩ := (hmem x).mp hx
    obtain ⟨od, ho, he2⟩ := (max_fold_zero (fun od : Nat × Bytes => od.1 + od.2.length) h2).2
    exact ⟨x.1, od.1, od.2, ⟨x, h1, rfl, ho⟩, he.trans he2⟩
  · rintro n offset data ⟨kv, hkv, rfl, ho⟩
    rw [← hl] at hne
    have h2 : kv.2.datav ≠ [] := List.ne_nil_of_mem ho
    exact Nat.le_trans ((max_fold_zero (fun od : Nat × Bytes => od.1 + od.2.length) h2).1 _ ho)
      ((max_fold_zero (fun kv : Nat × TW => max_end kv.2.datav) hne).1 _ ((hmem kv).mpr ⟨hkv, h2⟩))

/-- **C165**, nothing is said about how far is written if nothing is. -/
theorem C165_nowhere (tw : TWVectors) (h : ¬ ∃ n offset data, WritesAt tw n offset data) :
    get_allocated_size tw = .error .valueError := by
  unfold get_allocated_size
  have : tw.filter (fun kv => !kv.2.datav.isEmpty) = [] := by
    rw [List.filter_eq_nil_iff]
    intro kv hkv hc
    apply h
    cases hd : kv.2.datav with
    | nil => rw [hd] at hc; exact nomatch hc
    | cons d ds => exact ⟨kv.1, d.1, d.2, kv, hkv, rfl, by rw [hd]; exact List.mem_cons_self⟩
  rw [this]

/-- Two bytes at 5 of share 1, one byte at 6 and one at 1 of share 3; share 4 is cut to two bytes and share 2 is only
tested. -/
def exVectors : TWVectors :=
  [(1, ⟨[], [(5, [1, 2])], none⟩), (2, ⟨[], [], none⟩), (3, ⟨[], [(6, [1]), (1, [2])], none⟩), (4, ⟨[], [], some 2⟩)]

example : has_writes exVectors = true ∧ get_write_sharenums exVectors = [1, 3] ∧ get_allocated_size exVectors = .ok 7 ∧
    has_writes [(4, ⟨[], [], some 2⟩)] = true ∧ get_write_sharenums [(4, ⟨[], [], some 2⟩)] = [] ∧
    has_writes [(2, ⟨[], [], none⟩)] = false := by decide

example : ∃ m, get_allocated_size exVectors = .ok m ∧ FurthestEnd exVectors m :=
  C165_furthest _ ⟨1, 5, [1, 2], _, List.mem_cons_self, rfl, List.mem_cons_self⟩

end ZKAP
