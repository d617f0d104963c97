import Verif.Model.Pricing
import Verif.Spec.Pricing
import Verif.Lemmas.Dict

namespace ZKAP
open Spec

theorem passes_for_size_eq (v x : Int) (hv : 0 < v) : passes_for_size v x = passes v x := by
  unfold passes_for_size passes
  have h1 : Int.fdiv x v = x / v := Int.fdiv_eq_ediv_of_nonneg x (by omega)
  have h2 : Int.fmod x v = x % v := Int.fmod_eq_emod_of_nonneg x (by omega)
  simp only [h1, h2]
  have hd := Int.emod_add_mul_ediv x v
  have hm0 := Int.emod_nonneg x (by omega : v ≠ 0)
  have hm1 := Int.emod_lt_of_pos x hv
  generalize x / v = q at *
  generalize hr : x % v = r at *
  have : x + v - 1 = (r + v - 1) + v * q := by omega
  rw [this, Int.add_mul_ediv_left _ _ (by omega : v ≠ 0)]
  split
  · have : (r + v - 1) / v = 1 := by
      have e : r + v - 1 = (r - 1) + v * 1 := by omega
      rw [e, Int.add_mul_ediv_left _ _ (by omega : v ≠ 0), Int.ediv_eq_zero_of_lt (by omega) (by omega)]
      rfl
    omega
  · have : (r + v - 1) / v = 0 := Int.ediv_eq_zero_of_lt (by omega) (by omega)
    omega

theorem foldl_add_map (f : Int → Int) (l : List Int) (a : Int) :
    l.foldl (fun z x => z + f x) a = a + (l.map f).sum := by
  induction l generalizing a with
  | nil => simp
  | cons x l ih => simp only [List.foldl_cons, ih, List.map_cons, List.sum_cons]; omega

theorem required_passes_eq (v : Int) (hv : 0 < v) (l : List Int) :
    required_passes v l = total v l := by
  unfold required_passes total
  rw [foldl_add_map, Int.zero_add]
  congr 1
  exact List.map_congr_left (fun x _ => passes_for_size_eq v x hv)

theorem passes_zero (v : Int) (hv : 0 < v) : passes v 0 = 0 := by
  unfold passes; exact Int.ediv_eq_zero_of_lt (by omega) (by omega)

theorem passes_mono (v : Int) (hv : 0 < v) {a b : Int} (h : a ≤ b) : passes v a ≤ passes v b := by
  unfold passes; exact Int.ediv_le_ediv hv (by omega)

theorem passes_nonneg (v : Int) (hv : 0 < v) {a : Int} (h : 0 ≤ a) : 0 ≤ passes v a := by
  rw [← passes_zero v hv]; exact passes_mono v hv h

theorem passes_cover (v : Int) (hv : 0 < v) (a : Int) : a ≤ passes v a * v := by
  unfold passes
  have hd := Int.emod_add_mul_ediv (a + v - 1) v
  have hm1 := Int.emod_lt_of_pos (a + v - 1) hv
  have : v * ((a + v - 1) / v) = (a + v - 1) / v * v := Int.mul_comm _ _
  omega

theorem passes_least (v : Int) (hv : 0 < v) (a m : Int) (h : a ≤ m * v) : passes v a ≤ m := by
  unfold passes
  have : (a + v - 1) / v ≤ (m * v + (v - 1)) / v := Int.ediv_le_ediv hv (by omega)
  have e : (m * v + (v - 1)) / v = m := by
    have e1 : m * v + (v - 1) = (v - 1) + v * m := by rw [Int.mul_comm]; omega
    rw [e1, Int.add_mul_ediv_left _ _ (by omega : v ≠ 0), Int.ediv_eq_zero_of_lt (by omega) (by omega)]
    omega
  omega

theorem passes_leastCover (v : Int) (hv : 0 < v) (a : Int) (ha : 0 ≤ a) :
    LeastCover v a (passes v a) :=
  ⟨passes_nonneg v hv ha, passes_cover v hv a, fun m _ h => passes_least v hv a m h⟩

theorem growth_nonneg (v : Int) (hv : 0 < v) (o n : Int) : 0 ≤ growth v o n := by
  unfold growth
  have := passes_mono v hv (Int.le_max_left o n)
  omega

theorem total_set (v : Int) (hv : 0 < v) (d : Dict Nat Int) (k : Nat) (s : Int) :
    total v (d.set k s).values = total v d.values - passes v (d.getD k 0) + passes v s := by
  induction d with
  | nil => simp [Dict.set, Dict.values, total, Dict.getD, passes_zero v hv]
  | cons hd tl ih =>
    obtain ⟨a, b⟩ := hd
    simp only [Dict.set]
    by_cases h : a == k
    · have := eq_of_beq h; subst this
      simp [Dict.values, total, Dict.getD]; omega
    · have h' : (k == a) = false := by simp at h ⊢; omega
      have e : (a == k) = false := by simpa using h
      simp only [e, Bool.false_eq_true, if_false]
      simp only [Dict.values, total, Dict.getD, List.map_cons, List.sum_cons, List.lookup_cons, h'] at ih ⊢
      omega

theorem total_size_update (v : Int) (hv : 0 < v) (d : Dict Nat Int) (u : Nat × Int) :
    total v (size_update d u).values = total v d.values + growth v (d.getD u.1 0) u.2 := by
  unfold size_update growth
  split
  · rename_i h
    rw [total_set v hv, Int.max_eq_right (by omega)]; omega
  · rename_i h
    rw [Int.max_eq_left (by omega)]; omega

theorem getD_size_update_ne (d : Dict Nat Int) (u : Nat × Int) (k : Nat) (h : k ≠ u.1) :
    (size_update d u).getD k 0 = d.getD k 0 := by
  unfold size_update
  split
  · unfold Dict.getD; rw [Dict.lookup_set]; simp [h]
  · rfl

theorem total_size_updates (v : Int) (hv : 0 < v) (us : List (Nat × Int)) (d : Dict Nat Int)
    (hus : (us.map Prod.fst).Nodup) :
    total v (us.foldl size_update d).values
      = total v d.values + (us.map (fun u => growth v (d.getD u.1 0) u.2)).sum := by
  induction us generalizing d with
  | nil => simp
  | cons u us ih =>
    have hn : u.1 ∉ us.map Prod.fst ∧ (us.map Prod.fst).Nodup := by
      simpa using List.nodup_cons.mp hus
    simp only [List.foldl_cons, List.map_cons, List.sum_cons]
    rw [ih _ hn.2, total_size_update v hv]
    have : us.map (fun w => growth v ((size_update d u).getD w.1 0) w.2)
        = us.map (fun w => growth v (d.getD w.1 0) w.2) := by
      apply List.map_congr_left
      intro w hw
      rw [getD_size_update_ne]
      intro e
      exact hn.1 (e ▸ List.mem_map_of_mem (f := Prod.fst) hw)
    rw [this]; omega

/-- The price of a mutable write as a sum over the vectors. -/
theorem mutable_price_eq (v : Int) (hv : 0 < v) (cur : Dict Nat Int) (tw : TWVectors) (htw : tw.WF) :
    get_required_new_passes_for_mutable_write v cur tw
      = (tw.map (fun kv => growth v (cur.getD kv.1 0)
          (get_implied_data_length kv.2.datav kv.2.new_length : Int))).sum := by
  unfold get_required_new_passes_for_mutable_write
  simp only [required_passes_eq v hv]
  rw [total_size_updates v hv]
  · rw [List.map_map]
    have : ((fun u : Nat × Int => growth v (cur.getD u.1 0) u.2) ∘
        (fun kv : Nat × TW => (kv.1, (get_implied_data_length kv.2.datav kv.2.new_length : Int))))
      = (fun kv => growth v (cur.getD kv.1 0)
          (get_implied_data_length kv.2.datav kv.2.new_length : Int)) := rfl
    rw [this]; omega
  · rw [List.map_map]; exact htw

theorem sum_nonneg {l : List Int} (h : ∀ x ∈ l, 0 ≤ x) : 0 ≤ l.sum := by
  induction l with
  | nil => simp
  | cons a l ih =>
    simp only [List.sum_cons]
    have := h a (by simp)
    have := ih (fun x hx => h x (by simp [hx]))
    omega

theorem total_append (v : Int) (a b : List Int) : total v (a ++ b) = total v a + total v b := by
  unfold total; simp

theorem perm_sum {a b : List Int} (h : a.Perm b) : a.sum = b.sum := by
  induction h with
  | nil => rfl
  | cons x _ ih => simp only [List.sum_cons, ih]
  | swap x y l => simp only [List.sum_cons]; omega
  | trans _ _ ih1 ih2 => exact ih1.trans ih2

theorem total_perm (v : Int) {a b : List Int} (h : a.Perm b) : total v a = total v b := by
  unfold total; exact perm_sum (h.map _)

theorem total_replicate (v : Int) (n : Nat) (s : Int) :
    total v (List.replicate n s) = n * passes v s := by
  induction n with
  | zero => simp [total]
  | succ n ih =>
    simp only [List.replicate_succ, total, List.map_cons, List.sum_cons] at ih ⊢
    rw [ih]
    have : ((n + 1 : Nat) : Int) = (n : Int) + 1 := by omega
    rw [this, Int.add_mul]; omega

end ZKAP
