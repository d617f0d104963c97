import Verif.Model.Cost
import Verif.Lemmas.Pricing

/-! Properties C01, C03 (price level), C61, C71. -/
namespace ZKAP
open Spec

/-- C01: the price of one share is the least number of passes that covers it. -/
theorem C01_single_least (v size : Int) (hv : 0 < v) (hs : 0 ≤ size) :
    LeastCover v size (required_passes v [size]) := by
  rw [required_passes_eq v hv]
  simpa [total] using passes_leastCover v hv size hs

example : LeastCover 10 11 2 := C01_single_least 10 11 (by decide) (by decide)

/-- `LeastCover` determines the number. -/
theorem C01_least_unique {v size n m : Int} (h1 : LeastCover v size n) (h2 : LeastCover v size m) :
    n = m := by
  obtain ⟨a1, a2, a3⟩ := h1
  obtain ⟨b1, b2, b3⟩ := h2
  have := a3 m b1 b2
  have := b3 n a1 a2
  omega

example : LeastCover 10 11 2 ∧ ¬ LeastCover 10 11 3 :=
  ⟨C01_single_least 10 11 (by decide) (by decide),
   fun h => absurd (h.2.2 2 (by decide) (by decide)) (by decide)⟩

/-- C01: prices of several shares add up: if `ns` are the least covers of `sizes`
one by one, the price is their sum. -/
theorem C01_price_is_sum_of_least (v : Int) (hv : 0 < v) (sizes ns : List Int)
    (hlen : sizes.length = ns.length) (hpos : ∀ s ∈ sizes, 0 ≤ s)
    (hns : ∀ p ∈ sizes.zip ns, LeastCover v p.1 p.2) :
    required_passes v sizes = ns.sum := by
  rw [required_passes_eq v hv]
  induction sizes generalizing ns with
  | nil => cases ns with
    | nil => rfl
    | cons _ _ => simp at hlen
  | cons s ss ih => cases ns with
    | nil => simp at hlen
    | cons n ns =>
      have h1 := hns (s, n) (by simp)
      have e := C01_least_unique h1 (passes_leastCover v hv s (hpos s (by simp)))
      have := ih ns (by simpa using hlen) (fun x hx => hpos x (by simp [hx]))
        (fun p hp => hns p (by simp [hp]))
      simp only [total, List.map_cons, List.sum_cons] at *
      rw [this, e]

example : required_passes 10 [11, 0, 10] = ([2, 0, 1] : List Int).sum :=
  C01_price_is_sum_of_least 10 (by decide) _ _ rfl (by decide) (by
    intro p hp
    have h0 := C01_single_least 10 11 (by decide) (by decide)
    have h1 := C01_single_least 10 0 (by decide) (by decide)
    have h2 := C01_single_least 10 10 (by decide) (by decide)
    simp at hp
    rcases hp with rfl | rfl | rfl
    · exact h0
    · exact h1
    · exact h2)

/-- C01: the order of the shares does not matter. -/
theorem C01_order_independent (v : Int) (hv : 0 < v) {a b : List Int} (h : a.Perm b) :
    required_passes v a = required_passes v b := by
  rw [required_passes_eq v hv, required_passes_eq v hv, total_perm v h]

example : ([3, 12, 7] : List Int).Perm [12, 7, 3] := by decide

/-- C01: prices of disjoint collections of shares add up. -/
theorem C01_additive (v : Int) (hv : 0 < v) (a b : List Int) :
    required_passes v (a ++ b) = required_passes v a + required_passes v b := by
  simp only [required_passes_eq v hv, total_append]

example : required_passes 10 ([11] ++ [5]) = 2 + 1 := by decide

/-- C01: growing one share never lowers the price. -/
theorem C01_monotone_grow (v : Int) (hv : 0 < v) (a b : List Int) (s s' : Int) (h : s ≤ s') :
    required_passes v (a ++ s :: b) ≤ required_passes v (a ++ s' :: b) := by
  simp only [required_passes_eq v hv, total_append]
  have := passes_mono v hv h
  simp only [total, List.map_cons, List.sum_cons] at *
  omega

/-- C01: adding a share never lowers the price. -/
theorem C01_monotone_add (v : Int) (hv : 0 < v) (a b : List Int) (s : Int) (h : 0 ≤ s) :
    required_passes v (a ++ b) ≤ required_passes v (a ++ s :: b) := by
  simp only [required_passes_eq v hv, total_append]
  have := passes_nonneg v hv h
  simp only [total, List.map_cons, List.sum_cons] at *
  omega

example : required_passes 10 [10] < required_passes 10 [10, 1]
    ∧ required_passes 10 [10] < required_passes 10 [11] := by decide

/-- C01, error branch: a pass value of zero raises `ZeroDivisionError` as soon as there
is a share, and for a non-zero value the checked function is the total one. -/
theorem C01_zero_pass_value (x : Int) (xs : List Int) :
    required_passesE 0 (x :: xs) = .error .zeroDivision := rfl

theorem C01_checked_eq (v : Int) (hv : 0 < v) (sizes : List Int) :
    required_passesE v sizes = .ok (required_passes v sizes) := by
  rw [required_passes_eq v hv]
  induction sizes with
  | nil => rfl
  | cons x xs ih =>
    have : v ≠ 0 := by omega
    simp only [required_passesE, this, if_false, ih, Except.map, total, List.map_cons, List.sum_cons,
      passes_for_size_eq v x hv]

example : required_passesE 10 [11] = .ok 2 := C01_checked_eq 10 (by decide) [11]

/-! ### C61 -/

theorem share_size_eq (k d : Int) (hk : 0 < k) : share_size_for_data k d = passes k d := by
  have h := passes_for_size_eq k d hk
  rw [← h]
  unfold share_size_for_data passes_for_size
  have h2 : Int.fmod d k = d % k := Int.fmod_eq_emod_of_nonneg d (by omega)
  have hm0 := Int.emod_nonneg d (by omega : k ≠ 0)
  simp only [h2]
  split <;> split <;> omega

/-- C61: each share is the smallest that lets `k` shares carry the data. -/
theorem C61_share_size (k d : Int) (hk : 0 < k) (hd : 0 ≤ d) :
    LeastCover k d (share_size_for_data k d) := by
  rw [share_size_eq k d hk]; exact passes_leastCover k hk d hd

example : LeastCover 3 10 4 := C61_share_size 3 10 (by decide) (by decide)

theorem foldl_add_sum (l : List Int) (a : Int) : l.foldl (· + ·) a = a + l.sum := by
  induction l generalizing a with
  | nil => simp
  | cons x l ih => simp only [List.foldl_cons, ih, List.sum_cons]; omega

/-- C61: the price is the sum over files of the share count times the price of one
share of that file. -/
theorem C61_price (k : Int) (n : Nat) (v : Int) (sizes : List Int) (hk : 0 < k) (hv : 0 < v) :
    price_calculate k n v sizes = (sizes.map (fun d => n * passes v (passes k d))).sum := by
  unfold price_calculate
  rw [foldl_add_sum, Int.zero_add, List.map_map]
  congr 1
  apply List.map_congr_left
  intro d _
  simp only [Function.comp, required_passes_eq v hv, share_size_eq k d hk, total_replicate]

example : price_calculate 3 10 1000 [5000, 1] = 10 * 2 + 10 * 1 := by decide

/-- C61: never negative. -/
theorem C61_nonneg (k : Int) (n : Nat) (v : Int) (sizes : List Int) (hk : 0 < k) (hv : 0 < v)
    (hs : ∀ d ∈ sizes, 0 ≤ d) : 0 ≤ price_calculate k n v sizes := by
  rw [C61_price k n v sizes hk hv]
  apply sum_nonneg
  intro x hx
  obtain ⟨d, hd, rfl⟩ := List.mem_map.mp hx
  exact Int.mul_nonneg (by omega) (passes_nonneg v hv (passes_nonneg k hk (hs d hd)))

/-- C61: the price is zero exactly when every file is empty (or there are none). -/
theorem C61_zero_iff (k : Int) (n : Nat) (v : Int) (sizes : List Int) (hk : 0 < k) (hv : 0 < v)
    (hn : 0 < n) (hs : ∀ d ∈ sizes, 0 ≤ d) :
    price_calculate k n v sizes = 0 ↔ ∀ d ∈ sizes, d = 0 := by
  rw [C61_price k n v sizes hk hv]
  have key : ∀ d : Int, 0 ≤ d → (n * passes v (passes k d) = 0 ↔ d = 0) := by
    intro d hd
    constructor
    · intro h
      have h1 : passes v (passes k d) = 0 := by
        rcases Int.mul_eq_zero.mp h with h | h
        · omega
        · exact h
      have h2 := passes_cover v hv (passes k d)
      rw [h1] at h2
      have h3 := passes_nonneg k hk hd
      have h4 : passes k d = 0 := by omega
      have h5 := passes_cover k hk d
      rw [h4] at h5
      omega
    · intro h
      rw [h, passes_zero k hk, passes_zero v hv, Int.mul_zero]
  induction sizes with
  | nil => simp
  | cons d ds ih =>
    simp only [List.map_cons, List.sum_cons, List.mem_cons, forall_eq_or_imp]
    have hd := hs d (by simp)
    have hds := fun x hx => hs x (List.mem_cons_of_mem d hx)
    have ih' := ih hds
    have key' := key d hd
    have a1 : 0 ≤ n * passes v (passes k d) :=
      Int.mul_nonneg (by omega) (passes_nonneg v hv (passes_nonneg k hk hd))
    have a2 : 0 ≤ (ds.map (fun d => n * passes v (passes k d))).sum := by
      apply sum_nonneg
      intro x hx
      obtain ⟨e, he, rfl⟩ := List.mem_map.mp hx
      exact Int.mul_nonneg (by omega) (passes_nonneg v hv (passes_nonneg k hk (hds e he)))
    constructor
    · intro h
      exact ⟨key'.mp (by omega), ih'.mp (by omega)⟩
    · rintro ⟨h1, h2⟩
      have := key'.mpr h1
      have := ih'.mpr h2
      omega

example : price_calculate 3 10 1000 [0, 0] = 0 ∧ price_calculate 3 10 1000 [0, 1] ≠ 0 := by decide

/-- C61: the price never decreases when a file grows. -/
theorem C61_monotone (k : Int) (n : Nat) (v : Int) (a b : List Int) (d d' : Int) (hk : 0 < k)
    (hv : 0 < v) (h : d ≤ d') :
    price_calculate k n v (a ++ d :: b) ≤ price_calculate k n v (a ++ d' :: b) := by
  simp only [C61_price k n v _ hk hv, List.map_append, List.sum_append, List.map_cons, List.sum_cons]
  have := passes_mono v hv (passes_mono k hk h)
  have := Int.mul_le_mul_of_nonneg_left this (by omega : (0 : Int) ≤ n)
  omega

/-- C61: the price of a list of files does not depend on their order. -/
theorem C61_order_independent (k : Int) (n : Nat) (v : Int) {a b : List Int} (hk : 0 < k)
    (hv : 0 < v) (h : a.Perm b) : price_calculate k n v a = price_calculate k n v b := by
  simp only [C61_price k n v _ hk hv]
  exact perm_sum (h.map _)

/-- C61: the calculator predicts what uploading the files' shares costs: it is the price
of all the shares of all the files. -/
theorem C61_predicts_upload (k : Int) (n : Nat) (v : Int) (sizes : List Int) (hk : 0 < k)
    (hv : 0 < v) :
    price_calculate k n v sizes
      = required_passes v (sizes.flatMap (fun d => List.replicate n (share_size_for_data k d))) := by
  rw [C61_price k n v sizes hk hv, required_passes_eq v hv]
  induction sizes with
  | nil => rfl
  | cons d ds ih =>
    simp only [List.flatMap_cons, total_append, List.map_cons, List.sum_cons, ih, total_replicate,
      share_size_eq k d hk]

example : price_calculate 3 2 10 [100, 5] = required_passes 10 [34, 34, 2, 2] := by decide

/-! ### C71 -/

/-- C71: a snapshot is due exactly when ten times its cost is below the cost of what is
on the grid, costs being those of storing all shares of an object. -/
theorem C71_policy (v : Int) (enc : ShareEncoding) (snapshot : Int) (replica : List Int)
    (hv : 0 < v) (hk : 0 < enc.needed) :
    (plugin_policy v enc).should_snapshot snapshot replica = true
      ↔ 10 * (enc.total * passes v (passes enc.needed snapshot))
          < (replica.map (fun s => enc.total * passes v (passes enc.needed s))).sum := by
  unfold CostBasedPolicy.should_snapshot plugin_policy
  simp only [foldl_add_sum, Int.zero_add, decide_eq_true_eq]
  have e : ∀ s, required_passes_for_data v enc s = enc.total * passes v (passes enc.needed s) := by
    intro s
    simp only [required_passes_for_data, share_sizes_for_data, required_passes_eq v hv,
      total_replicate, share_size_eq _ _ hk]
  have e2 : replica.map (required_passes_for_data v enc)
      = replica.map (fun s => enc.total * passes v (passes enc.needed s)) :=
    List.map_congr_left (fun s _ => e s)
  rw [e, e2, Int.mul_comm _ 10]

/-- C71: adding an event stream object to the replica never turns a due snapshot into one
that is not due. -/
theorem C71_monotone (v : Int) (enc : ShareEncoding) (snapshot : Int) (replica : List Int) (s : Int)
    (hv : 0 < v) (hk : 0 < enc.needed) (hs : 0 ≤ s)
    (h : (plugin_policy v enc).should_snapshot snapshot replica = true) :
    (plugin_policy v enc).should_snapshot snapshot (replica ++ [s]) = true := by
  rw [C71_policy v enc _ _ hv hk] at h ⊢
  simp only [List.map_append, List.sum_append, List.map_cons, List.map_nil, List.sum_cons, List.sum_nil]
  have := Int.mul_nonneg (by omega : (0 : Int) ≤ enc.total)
    (passes_nonneg v hv (passes_nonneg enc.needed hk hs))
  omega

example : (plugin_policy 10 ⟨1, 1⟩).should_snapshot 10 [60, 50] = true
    ∧ (plugin_policy 10 ⟨1, 1⟩).should_snapshot 10 [60, 40] = false := by decide

end ZKAP
